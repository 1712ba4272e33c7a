/-! # Direction-number table, rows 18624 to 21199

Generated from `src/SALib/sample/directions.py` lines 18626-21201.  One row per line: a leading 1, then
every number of the row padded to six digits (so the row `(7, 1, 1, 7, 11, 19)` is
`1_000007_000001_000001_000007_000011_000019`).  Rows are grouped by the number `s` of initial numbers. -/

namespace SALib.Data

def dirRows18_2_0 : List Nat := [
  1_087615_000001_000003_000003_000015_000005_000019_000003_000231_000127_000863_001537_000369_007915_010281_013925_012931_003905_178609,
  1_087623_000001_000001_000003_000015_000013_000005_000017_000217_000383_000251_001701_003379_008157_004991_008563_024611_066081_205775,
  1_087635_000001_000003_000007_000011_000009_000025_000073_000131_000217_000601_000843_000807_004509_016209_029581_050869_056595_014283,
  1_087647_000001_000003_000005_000009_000005_000059_000057_000153_000359_000775_000859_001897_006415_007389_010851_064247_021627_145017,
  1_087651_000001_000003_000007_000001_000027_000011_000117_000179_000175_000343_000687_002775_003655_011655_002641_000355_083447_237799,
  1_087657_000001_000001_000007_000011_000017_000059_000091_000021_000403_000797_001839_000525_003279_006575_030083_012503_083057_109465,
  1_087665_000001_000003_000007_000001_000025_000027_000041_000223_000169_000679_000699_003287_006305_006459_023145_045519_127487_183563,
  1_087694_000001_000003_000003_000001_000009_000045_000105_000057_000185_000097_000899_003113_007081_007057_014559_053537_105623_155399,
  1_087701_000001_000003_000007_000005_000017_000035_000089_000013_000087_000587_000451_004079_001005_004311_015861_049977_059653_012107,
  1_087705_000001_000003_000007_000003_000019_000055_000043_000077_000317_000369_000071_000937_001905_005005_017715_004005_055445_025159,
  1_087722_000001_000001_000007_000015_000015_000051_000087_000037_000059_000755_000763_000455_000711_013399_030999_061269_066037_202793,
  1_087739_000001_000001_000003_000005_000011_000057_000111_000135_000325_000553_000273_001533_003431_006427_024771_042143_056711_220873,
  1_087750_000001_000001_000001_000013_000003_000049_000053_000081_000491_000177_001543_001847_007907_007817_015417_009897_101597_160195,
  1_087790_000001_000003_000001_000015_000019_000015_000091_000123_000365_000113_000129_003371_005789_013553_006887_062317_084269_044777,
  1_087795_000001_000003_000007_000013_000015_000063_000043_000175_000449_000437_000597_001371_005101_013797_028025_015809_007645_021169,
  1_087797_000001_000001_000007_000013_000023_000063_000105_000069_000219_000153_001539_001537_006899_009363_027459_034551_062563_236679,
  1_087816_000001_000003_000007_000003_000009_000033_000003_000101_000135_000571_000127_003881_007017_013403_013817_055167_008645_000471,
  1_087884_000001_000003_000003_000013_000007_000053_000029_000089_000473_000135_000639_003137_000093_000965_004867_058265_114963_175295,
  1_087917_000001_000003_000001_000001_000009_000011_000045_000123_000129_000441_001601_000039_004657_003701_029581_016045_057173_075195,
  1_087930_000001_000001_000003_000011_000007_000021_000009_000073_000025_000891_001625_003019_000223_014351_030621_003075_079051_178127,
  1_087942_000001_000001_000007_000003_000007_000043_000069_000209_000009_000857_001539_002629_005277_014583_016443_028275_054143_206479,
  1_087953_000001_000003_000005_000009_000027_000015_000109_000237_000323_000103_000837_000597_003609_006249_000795_037191_020997_142079,
  1_087954_000001_000001_000003_000001_000027_000033_000123_000191_000055_000531_001707_002633_006717_009645_021377_051593_009017_178185,
  1_087984_000001_000001_000005_000015_000003_000003_000067_000225_000229_000161_002039_001499_000873_008803_029901_058809_035625_207797,
  1_087989_000001_000003_000003_000007_000003_000047_000099_000237_000221_000031_001043_001081_000837_001617_017323_043879_055615_238537,
  1_088008_000001_000003_000007_000001_000017_000037_000045_000211_000245_000657_000221_001067_001683_016127_000585_009067_025935_162469,
  1_088016_000001_000001_000005_000009_000023_000027_000005_000237_000137_000227_000129_000279_004171_005963_000349_012387_040701_177255,
  1_088038_000001_000003_000007_000015_000017_000011_000095_000069_000049_000901_000509_002541_003001_015501_024235_039863_095381_260793,
  1_088042_000001_000003_000003_000003_000029_000003_000125_000003_000423_000609_001401_002337_001093_011419_029735_009033_115977_210201,
  1_088044_000001_000001_000001_000009_000011_000021_000071_000033_000399_001005_001691_001501_002585_007361_021527_007535_087091_192319,
  1_088049_000001_000001_000001_000011_000005_000049_000065_000115_000239_000255_000381_002803_003447_005775_018243_016545_108901_081355,
  1_088083_000001_000003_000007_000015_000031_000005_000081_000213_000281_000903_000189_001807_003551_004423_003591_027449_071659_255357,
  1_088119_000001_000001_000001_000015_000011_000001_000025_000213_000259_000215_000435_003531_004889_009509_021391_021589_089871_085895,
  1_088134_000001_000003_000003_000009_000029_000029_000037_000127_000419_000631_001793_001547_001463_013265_017233_024627_003687_174179,
  1_088138_000001_000001_000001_000007_000027_000061_000105_000135_000439_000161_000721_002779_006731_014575_004565_025869_038981_191683,
  1_088143_000001_000001_000007_000013_000021_000041_000043_000005_000313_000407_000505_000231_005023_008971_015825_038461_038797_136027,
  1_088191_000001_000003_000007_000003_000007_000059_000011_000255_000327_000843_001179_000889_004505_010891_007901_014485_072297_255985,
  1_088216_000001_000001_000005_000003_000009_000037_000089_000059_000413_000051_000515_004009_006501_008443_014381_060917_043567_234431,
  1_088231_000001_000001_000003_000009_000009_000057_000065_000205_000367_000935_001975_002561_000225_012529_004721_056659_087901_219641,
  1_088232_000001_000003_000007_000015_000023_000055_000061_000015_000089_000267_001245_002703_007471_010499_000019_019357_072413_199289,
  1_088297_000001_000001_000001_000013_000001_000029_000065_000011_000353_000509_001831_002181_005265_014761_000913_017109_113613_037143,
  1_088300_000001_000001_000007_000005_000017_000037_000097_000249_000169_000223_000475_002091_003101_008541_000325_042359_016121_151739,
  1_088308_000001_000001_000003_000013_000001_000045_000013_000209_000395_000215_000015_002287_005365_009887_029799_051957_097483_109467,
  1_088317_000001_000003_000007_000001_000009_000035_000091_000051_000387_000833_000783_002483_003743_006155_005881_003047_086191_151867,
  1_088344_000001_000001_000001_000007_000015_000025_000013_000003_000119_000333_000761_003459_002555_015737_012945_015225_045487_078235,
  1_088350_000001_000003_000001_000003_000013_000055_000111_000045_000121_000593_000633_002705_001653_013275_013533_003559_100573_124363,
  1_088371_000001_000001_000003_000001_000029_000049_000065_000069_000133_000667_000653_002559_006335_008019_009251_005415_090125_197413,
  1_088469_000001_000001_000001_000007_000023_000053_000099_000149_000039_000453_000129_000185_001143_012799_023339_041293_094023_105581,
  1_088483_000001_000003_000003_000013_000005_000003_000005_000215_000425_000455_000421_003815_005983_003851_019569_017363_006411_060037,
  1_088485_000001_000003_000007_000001_000029_000007_000063_000207_000299_000017_001915_002041_008129_000661_032481_055475_072027_239683,
  1_088518_000001_000001_000005_000013_000029_000011_000039_000177_000177_000479_001291_003931_004353_000327_007827_009529_006967_006469,
  1_088586_000001_000001_000005_000003_000025_000039_000121_000015_000007_000715_000583_003997_001373_007747_001777_007269_105333_201511,
  1_088605_000001_000003_000003_000009_000011_000007_000081_000109_000129_000359_001281_001163_004895_010303_017801_043461_120271_173027,
  1_088621_000001_000003_000005_000001_000023_000059_000123_000075_000505_000925_000637_001713_000995_014031_013711_062569_090553_242345,
  1_088651_000001_000003_000003_000015_000019_000011_000039_000203_000229_000619_000735_001367_004963_005263_030229_017847_009623_003277,
  1_088656_000001_000001_000007_000013_000005_000027_000023_000223_000377_000335_001821_002481_004111_010373_018423_007237_075225_223433,
  1_088665_000001_000003_000007_000001_000021_000019_000071_000107_000019_000703_000945_003831_001099_006267_017489_027665_008861_127499,
  1_088668_000001_000003_000005_000001_000019_000049_000117_000181_000245_000939_001279_003127_004427_003061_023399_064805_043077_100789,
  1_088712_000001_000001_000003_000003_000031_000055_000053_000205_000097_000645_000215_002617_007419_007159_027373_062341_058121_248677,
  1_088717_000001_000001_000007_000005_000015_000041_000099_000075_000201_000187_000197_003773_003097_006803_005307_031375_026743_142723,
  1_088751_000001_000003_000005_000011_000023_000061_000127_000015_000089_000245_001345_001305_005937_015917_023867_050319_091921_248663,
  1_088754_000001_000001_000003_000009_000027_000007_000001_000075_000181_000155_001947_000577_002975_008855_005295_043403_112497_100679,
  1_088756_000001_000001_000001_000011_000029_000061_000035_000241_000207_000073_001747_001797_003665_014275_025359_028685_079367_081819,
  1_088785_000001_000003_000005_000009_000011_000001_000037_000079_000431_000157_001979_000159_003087_001731_026141_031411_056457_094293,
  1_088801_000001_000003_000007_000001_000017_000035_000107_000243_000279_000079_000227_001275_000761_011485_022181_016415_068801_004577,
  1_088807_000001_000003_000001_000009_000021_000043_000115_000131_000129_000123_001677_001875_007355_015927_000845_024101_048985_039703,
  1_088826_000001_000001_000007_000003_000017_000025_000105_000189_000317_000109_001629_003103_000615_001047_000621_062743_043631_009811,
  1_088848_000001_000003_000001_000003_000003_000045_000049_000073_000383_000761_000685_003211_003855_016307_030469_001393_052535_165503,
  1_088854_000001_000003_000005_000015_000001_000041_000089_000105_000213_000033_001477_000711_004823_000503_012533_056781_042825_223399,
  1_088864_000001_000003_000005_000009_000017_000045_000063_000113_000359_000927_001467_002811_004275_005193_006023_032689_087747_234697,
  1_088879_000001_000001_000003_000001_000021_000049_000073_000157_000097_000915_001689_003289_007515_010759_032253_063175_066175_125813,
  1_088939_000001_000001_000001_000005_000019_000001_000127_000229_000453_000617_000511_001515_003815_003125_026851_031635_035389_237483,
  1_088947_000001_000001_000001_000013_000027_000061_000075_000023_000289_000133_000975_003217_003777_012095_015235_033845_125503_088417,
  1_088987_000001_000001_000003_000013_000027_000049_000029_000115_000221_000995_001305_002717_002243_013391_020841_000863_063195_046829,
  1_088990_000001_000003_000001_000011_000031_000049_000043_000163_000503_000123_000657_001285_003695_008401_017087_048289_003947_041495,
  1_088996_000001_000003_000007_000009_000021_000017_000125_000075_000395_000979_000781_002501_006511_004619_028943_018295_087547_196289,
  1_089008_000001_000003_000003_000005_000003_000039_000107_000199_000007_000331_000077_000511_005787_003155_029605_044633_051041_089141,
  1_089011_000001_000001_000003_000007_000011_000037_000079_000069_000181_000623_000299_002321_004371_007449_003137_025753_116673_030441,
  1_089043_000001_000001_000005_000009_000011_000013_000049_000207_000179_000671_001469_001005_006887_012203_009365_062455_036283_042053,
  1_089045_000001_000003_000001_000001_000007_000031_000115_000079_000435_000101_001525_003695_003229_011401_023959_062055_037725_219753,
  1_089050_000001_000003_000003_000007_000025_000049_000123_000161_000275_000291_000255_002247_004271_010771_002449_026343_061169_030691,
  1_089097_000001_000001_000007_000001_000015_000003_000011_000015_000125_001021_001817_000417_002721_013985_019039_000451_032559_199407,
  1_089100_000001_000001_000005_000015_000011_000025_000023_000101_000427_000431_001353_001957_003529_000513_011937_014469_089539_242015,
  1_089106_000001_000001_000005_000013_000027_000005_000107_000029_000469_000003_001427_001949_007007_016339_003375_063545_100739_229487,
  1_089134_000001_000003_000005_000013_000015_000017_000059_000213_000417_000557_000011_000811_005041_004133_025735_046807_065669_148081,
  1_089178_000001_000001_000005_000013_000009_000047_000035_000173_000277_000805_001249_003707_001079_002833_029383_058995_021005_181567,
  1_089189_000001_000003_000005_000001_000005_000025_000125_000045_000157_000291_001329_003317_002311_009919_031001_065127_019451_117621,
  1_089202_000001_000001_000005_000009_000031_000021_000009_000193_000023_000879_000699_001135_007151_008635_020711_045207_067047_004397,
  1_089211_000001_000003_000001_000011_000011_000049_000119_000129_000409_000491_000463_000833_003661_000607_025961_006061_012747_160337,
  1_089224_000001_000003_000001_000015_000031_000035_000093_000095_000239_000695_001113_002371_002625_010371_010781_046209_067051_109923,
  1_089241_000001_000003_000005_000009_000005_000061_000025_000019_000099_000159_000055_000043_003679_001023_017951_044841_101653_195955,
  1_089251_000001_000001_000003_000011_000019_000045_000099_000047_000407_000115_000353_003537_007147_005837_027309_044539_030227_093183,
  1_089254_000001_000001_000007_000015_000013_000059_000083_000215_000079_000865_000269_002999_002415_010631_023655_051583_046105_043965,
  1_089258_000001_000003_000007_000005_000017_000001_000007_000119_000501_000025_001097_003639_007017_000381_004793_037263_060431_077323,
  1_089295_000001_000003_000007_000013_000001_000037_000099_000103_000459_000853_000005_003093_006167_014497_007003_036979_071919_064823,
  1_089328_000001_000003_000007_000005_000023_000007_000037_000255_000297_000115_000113_000579_004561_005245_011173_028645_023989_240777,
  1_089357_000001_000003_000005_000009_000029_000047_000043_000145_000481_000251_000737_002531_002425_000529_003953_013229_035933_187855,
  1_089403_000001_000003_000001_000015_000015_000015_000029_000073_000405_000091_001399_003599_001517_011075_011265_022817_026619_001183,
  1_089420_000001_000001_000005_000015_000021_000047_000093_000033_000047_000527_000877_003453_003867_004007_032503_011789_068333_187419,
  1_089426_000001_000001_000003_000013_000005_000003_000099_000021_000017_000779_000541_003919_001339_013507_028965_061145_050421_192319]

def dirRows18_2_1 : List Nat := [
  1_089465_000001_000001_000003_000007_000031_000063_000017_000009_000331_000681_000515_001067_000351_002471_031271_036015_072911_032383,
  1_089471_000001_000001_000003_000007_000001_000055_000097_000211_000409_000499_001207_002405_002291_001373_001263_065303_038655_159965,
  1_089475_000001_000001_000001_000005_000023_000011_000021_000023_000035_000019_001699_002325_006117_014971_032327_031369_028061_112819,
  1_089547_000001_000003_000003_000013_000029_000063_000019_000201_000173_000395_001437_000369_007045_014347_005393_011311_028415_161019,
  1_089549_000001_000003_000001_000005_000031_000015_000101_000013_000097_000865_001063_002129_000811_003337_007585_054803_122099_149531,
  1_089558_000001_000003_000003_000013_000019_000005_000047_000013_000497_000683_001197_003509_004375_003353_031847_000283_095281_007975,
  1_089564_000001_000001_000007_000005_000025_000019_000059_000105_000167_000775_000581_002679_003003_009345_020209_031487_025357_226341,
  1_089611_000001_000001_000005_000005_000031_000061_000013_000077_000189_000141_001157_000609_007245_015303_032743_050229_067391_173977,
  1_089616_000001_000003_000007_000013_000017_000011_000049_000135_000475_000303_001373_001437_006119_001729_021347_031643_086523_041223,
  1_089626_000001_000003_000007_000013_000003_000019_000103_000053_000209_000281_000077_002009_007911_008549_017655_033165_009685_002289,
  1_089650_000001_000003_000003_000009_000005_000031_000071_000113_000093_000255_000165_003465_006769_013047_020701_033669_022537_175209,
  1_089691_000001_000003_000001_000001_000015_000059_000089_000227_000275_000451_000869_001865_001327_003895_005459_047997_034287_095343,
  1_089718_000001_000003_000007_000013_000027_000001_000025_000099_000475_000421_000693_001955_004017_016037_029915_052415_099913_059151,
  1_089764_000001_000003_000005_000001_000009_000061_000107_000149_000465_001003_000891_002387_000407_005851_006287_056401_109693_072035,
  1_089776_000001_000001_000001_000011_000025_000053_000101_000125_000035_000949_001019_003087_002785_011271_025623_057313_115683_101923,
  1_089785_000001_000003_000005_000013_000019_000013_000097_000147_000149_000483_001727_001771_002089_008661_028223_030437_042565_013261,
  1_089813_000001_000003_000003_000011_000017_000009_000013_000013_000419_000531_001617_001459_000411_009953_025581_030305_120721_081113,
  1_089817_000001_000003_000003_000009_000009_000009_000083_000035_000367_000981_000911_001915_004937_016187_020441_030433_107605_119939,
  1_089861_000001_000003_000007_000011_000011_000047_000031_000007_000141_000905_001753_003069_000047_007347_010517_019515_126827_068669,
  1_089876_000001_000003_000003_000009_000017_000033_000121_000159_000265_000389_000261_002479_007705_006453_031963_014123_100201_077235,
  1_089889_000001_000001_000005_000005_000013_000063_000003_000001_000107_000383_000633_002183_001437_014525_029315_003277_002153_204061,
  1_089904_000001_000003_000003_000003_000017_000009_000047_000173_000017_000413_000451_001127_001807_005265_032543_008215_123601_138777,
  1_089939_000001_000003_000001_000001_000007_000057_000093_000029_000101_000955_001445_004017_002853_003551_022173_040355_034687_133063,
  1_089948_000001_000001_000005_000011_000019_000015_000095_000177_000049_000971_000015_002293_002627_007841_002103_064331_060481_182431,
  1_089952_000001_000003_000001_000015_000025_000057_000047_000085_000485_000011_001669_000995_006939_004125_019513_062397_062645_082213,
  1_089964_000001_000001_000001_000011_000001_000037_000101_000157_000017_000261_000997_000817_002195_004141_010505_060685_098165_167391,
  1_089969_000001_000001_000001_000001_000031_000009_000103_000097_000161_000013_001043_000307_007321_000671_012417_058661_023031_207833,
  1_089979_000001_000001_000007_000009_000015_000049_000069_000117_000093_000095_000507_000393_006169_002111_027179_047217_093699_067315,
  1_090009_000001_000003_000007_000001_000023_000041_000115_000125_000343_000615_000397_001199_003041_011019_001071_051069_075757_245765,
  1_090022_000001_000001_000001_000013_000007_000015_000111_000239_000029_000419_000203_002395_003995_000013_032341_017471_053259_003317,
  1_090031_000001_000003_000001_000011_000029_000027_000015_000217_000017_000163_001847_003549_004911_004539_004927_057157_044893_041669,
  1_090043_000001_000001_000007_000007_000025_000015_000101_000149_000433_000717_001827_003837_004565_014521_028857_027775_117429_136131,
  1_090045_000001_000001_000001_000003_000025_000035_000085_000003_000381_000253_000375_003967_003101_012727_031739_048885_035821_092229,
  1_090068_000001_000003_000003_000007_000029_000005_000051_000157_000067_000467_001957_003453_001353_004839_025379_042731_109385_052479,
  1_090071_000001_000003_000007_000013_000003_000055_000061_000073_000257_000313_000089_002557_007467_002223_002951_049265_126605_072007,
  1_090082_000001_000003_000007_000005_000005_000011_000083_000003_000347_000063_000479_000529_005059_007029_020523_058387_044891_168921,
  1_090087_000001_000003_000001_000011_000003_000051_000099_000005_000161_000279_001509_003659_003107_013925_005117_046153_048731_069767,
  1_090117_000001_000001_000005_000005_000003_000053_000049_000243_000383_000401_001205_000975_003305_012769_025533_028733_115161_160885,
  1_090127_000001_000001_000001_000007_000015_000005_000043_000143_000493_000527_001625_002115_003929_012425_016127_025045_055973_202359,
  1_090163_000001_000003_000007_000007_000011_000009_000069_000079_000417_000941_000473_001655_005763_009889_022443_012153_103489_074737,
  1_090166_000001_000001_000007_000009_000027_000031_000097_000253_000199_000099_001955_001481_002509_011923_006337_015899_122515_244721,
  1_090177_000001_000001_000005_000013_000029_000015_000035_000177_000261_000613_001279_002837_002945_004501_022865_036893_051979_245569,
  1_090211_000001_000001_000005_000009_000021_000005_000085_000005_000303_000165_000681_003965_002575_001493_010367_055845_092139_092539,
  1_090218_000001_000003_000005_000001_000023_000049_000049_000161_000481_000181_001991_001845_004541_014187_010893_064931_079943_057907,
  1_090225_000001_000003_000001_000005_000011_000027_000019_000193_000371_000463_001573_000271_001127_015091_009967_040337_104163_159339,
  1_090231_000001_000003_000001_000003_000013_000003_000057_000149_000465_000789_001155_002223_002007_013987_019057_040447_005217_086191,
  1_090235_000001_000003_000005_000005_000009_000045_000027_000155_000095_000171_000489_002539_000843_016125_007047_058541_084641_212013,
  1_090289_000001_000003_000005_000013_000013_000053_000101_000159_000007_000481_000143_003869_006629_003527_001555_006019_000155_230157,
  1_090344_000001_000003_000001_000001_000019_000059_000059_000129_000107_000887_001595_000093_006577_003947_014409_031081_068595_226741,
  1_090347_000001_000003_000003_000011_000013_000049_000081_000253_000363_000875_000489_002181_003487_001615_031157_032949_044809_119421,
  1_090379_000001_000001_000003_000001_000003_000019_000071_000093_000397_000521_002015_003829_003013_003941_029437_001959_070283_254361,
  1_090387_000001_000003_000001_000003_000027_000011_000095_000039_000299_000521_000389_003451_003047_008637_022537_011279_067407_101511,
  1_090418_000001_000003_000001_000001_000027_000043_000123_000237_000315_000503_001059_002185_003963_001593_019157_013909_058025_091649,
  1_090435_000001_000001_000007_000001_000005_000019_000079_000109_000459_000541_000521_000089_000389_013499_009769_001429_117357_153261,
  1_090444_000001_000001_000005_000003_000009_000029_000021_000097_000219_000915_002013_001955_001015_000549_009777_005005_110953_016915,
  1_090472_000001_000001_000001_000009_000029_000011_000103_000167_000465_000515_000843_000151_000769_012033_009451_014949_110075_113947,
  1_090478_000001_000003_000005_000001_000021_000001_000105_000049_000035_000737_000231_002761_001519_009997_000601_020883_042575_098081,
  1_090485_000001_000001_000001_000005_000013_000063_000047_000171_000187_000407_000643_001423_006325_010079_023781_036353_020655_010231,
  1_090486_000001_000001_000007_000013_000013_000013_000091_000031_000019_000305_000505_001937_002683_010791_007719_054797_009405_195819,
  1_090513_000001_000001_000001_000007_000017_000009_000021_000211_000085_000851_000211_001533_004035_000011_026873_016755_077809_044603,
  1_090514_000001_000001_000003_000001_000029_000047_000031_000141_000009_000881_001229_001261_003747_004603_022177_048937_021435_157029,
  1_090532_000001_000001_000001_000009_000011_000035_000109_000187_000319_000863_001339_002193_004147_003721_007243_018295_092461_088875,
  1_090567_000001_000001_000001_000001_000025_000041_000079_000191_000047_000819_002013_003133_002763_009231_010343_049693_026753_097465,
  1_090595_000001_000003_000001_000003_000017_000025_000063_000139_000179_000113_001681_001997_004561_014453_030721_007053_022937_183303,
  1_090597_000001_000001_000007_000003_000029_000011_000041_000157_000427_000887_000295_000443_005593_008633_009757_037595_121655_135739,
  1_090621_000001_000003_000001_000007_000029_000005_000023_000231_000085_000067_000103_001395_007821_009551_017019_001825_069963_254583,
  1_090631_000001_000001_000007_000009_000007_000023_000007_000205_000017_000111_001219_003101_007485_011579_011791_010203_119835_175985,
  1_090668_000001_000003_000003_000013_000003_000057_000101_000255_000331_000911_000491_003929_002519_002185_021107_024599_092831_075001,
  1_090706_000001_000003_000007_000001_000023_000053_000069_000229_000295_000881_000905_003727_003885_007967_002061_053595_016033_036443,
  1_090708_000001_000001_000007_000015_000021_000001_000127_000115_000191_000053_000929_001093_005447_001665_004409_022611_038157_139201,
  1_090715_000001_000003_000003_000013_000029_000031_000113_000215_000365_000041_001977_002839_004147_008321_001361_045717_080505_176631,
  1_090724_000001_000003_000005_000003_000003_000057_000025_000081_000041_000229_000669_003371_007505_001197_014921_034365_067571_027355,
  1_090769_000001_000003_000007_000009_000017_000035_000007_000169_000013_000163_002007_003697_005635_008003_026105_062917_019349_047029,
  1_090791_000001_000001_000005_000005_000029_000027_000089_000137_000069_000189_000871_003139_006383_014955_015349_060447_122291_026541,
  1_090792_000001_000001_000007_000013_000027_000049_000115_000111_000441_000865_001397_000161_000755_014461_008601_045533_105309_149799,
  1_090805_000001_000001_000007_000003_000009_000029_000091_000005_000239_000605_000491_001705_004099_009111_019821_056903_062815_040615,
  1_090810_000001_000001_000007_000015_000005_000045_000071_000225_000211_000539_001881_001201_005675_006061_012121_013289_030455_033131,
  1_090820_000001_000001_000005_000015_000005_000059_000035_000121_000185_000143_000165_002999_007907_005035_008337_011951_066403_219997,
  1_090844_000001_000001_000005_000009_000003_000007_000027_000129_000245_000093_000715_001249_001717_013381_031255_023153_022227_008077,
  1_090907_000001_000003_000005_000011_000019_000049_000021_000163_000157_000615_001475_002453_006315_012325_026565_058399_049385_252127,
  1_090925_000001_000003_000007_000011_000023_000003_000035_000061_000409_000795_001447_003461_000535_006533_025757_031783_009509_217589,
  1_090926_000001_000001_000005_000015_000009_000021_000067_000065_000399_000515_000777_003183_001155_016071_007339_059985_056659_200701,
  1_090934_000001_000003_000003_000001_000015_000033_000119_000145_000071_000517_001775_000163_005307_001549_031071_056289_128395_230381,
  1_090946_000001_000003_000001_000007_000007_000047_000097_000187_000193_000887_000515_001301_004841_012069_000413_041503_036421_045909,
  1_090981_000001_000001_000005_000003_000017_000021_000053_000227_000137_000865_000715_003601_005027_002983_024113_023349_106391_188193,
  1_090999_000001_000003_000007_000015_000029_000037_000091_000235_000351_000015_000425_000681_000187_001517_030079_041347_049691_066369,
  1_091003_000001_000001_000005_000005_000015_000025_000093_000245_000397_000517_001635_002475_005543_009597_027721_021475_079571_259011,
  1_091019_000001_000001_000001_000005_000021_000029_000005_000161_000037_000409_001661_003371_005663_004317_009951_023605_007393_090593,
  1_091022_000001_000001_000003_000015_000021_000051_000079_000159_000209_000891_001391_002895_005003_006601_017983_042359_104497_162181,
  1_091050_000001_000003_000007_000011_000023_000051_000099_000145_000021_000345_001389_001035_005939_008293_022765_023331_007789_115149,
  1_091055_000001_000001_000005_000011_000027_000061_000115_000123_000317_000607_000463_000779_005121_003861_018761_039407_125837_244163,
  1_091064_000001_000001_000007_000003_000015_000009_000033_000001_000437_000621_000031_000147_008157_003451_018223_061187_125297_211225,
  1_091078_000001_000003_000001_000011_000027_000055_000021_000251_000005_000057_001889_000071_003745_000499_009043_062683_021945_138615,
  1_091117_000001_000001_000003_000013_000025_000009_000001_000031_000277_000373_000507_000301_002341_001741_011997_047661_044121_183151,
  1_091120_000001_000003_000003_000005_000015_000051_000005_000233_000475_000397_001833_001267_007025_002593_015425_047053_016205_208007,
  1_091129_000001_000003_000003_000009_000031_000051_000123_000219_000493_000789_000659_000985_007283_011545_015383_025173_130423_196619,
  1_091140_000001_000001_000001_000015_000009_000017_000037_000145_000297_000933_001019_001699_002149_012391_017003_042157_126283_252231,
  1_091157_000001_000003_000005_000009_000017_000001_000091_000069_000335_000857_000925_003855_002225_006909_019101_012191_092117_229077,
  1_091161_000001_000003_000005_000013_000005_000021_000067_000017_000307_000879_001563_003169_000745_006799_027237_039621_001413_146295,
  1_091240_000001_000003_000007_000013_000017_000059_000023_000253_000415_000761_000451_002773_003523_010985_029853_007275_079521_133447]

def dirRows18_2_2 : List Nat := [
  1_091260_000001_000001_000001_000001_000015_000043_000089_000019_000085_000837_001335_001641_000105_005429_008317_045555_104447_102313,
  1_091270_000001_000003_000003_000005_000017_000021_000067_000235_000367_000265_001069_000835_005457_000177_026987_039477_006895_123283,
  1_091287_000001_000001_000005_000015_000019_000061_000005_000015_000487_000291_000661_000825_001569_008795_013035_057077_112847_160267,
  1_091321_000001_000001_000007_000009_000027_000021_000091_000133_000361_000007_000447_003035_003523_013167_015927_035555_035713_091291,
  1_091336_000001_000003_000007_000011_000017_000023_000077_000255_000437_000897_001185_001633_006451_013081_029097_061335_039671_177835,
  1_091341_000001_000001_000007_000005_000031_000049_000081_000221_000167_000241_001895_001813_001493_002475_000379_005685_116341_121823,
  1_091378_000001_000003_000005_000009_000025_000011_000117_000253_000337_000381_000743_000069_001641_003649_026335_059683_028729_083449,
  1_091398_000001_000003_000001_000007_000015_000017_000059_000009_000129_000233_001905_001371_006521_008953_026173_009707_070817_260035,
  1_091437_000001_000003_000001_000005_000019_000053_000023_000255_000305_000835_001387_002947_003013_009117_027571_047123_049881_047229,
  1_091440_000001_000001_000003_000005_000023_000037_000123_000193_000365_000049_001211_003083_008133_014205_011361_055945_023225_159109,
  1_091475_000001_000001_000007_000011_000005_000049_000043_000165_000097_000581_000617_003045_006187_008399_024045_046713_028389_156811,
  1_091494_000001_000003_000001_000005_000029_000017_000075_000231_000059_000143_002041_002319_002289_011805_004039_029895_091305_179091,
  1_091500_000001_000001_000007_000007_000029_000005_000013_000043_000409_000081_000751_002157_002543_013317_028275_060871_119833_036743,
  1_091511_000001_000001_000005_000013_000005_000005_000021_000101_000497_000993_000157_000647_003587_001495_020233_030889_112579_172009,
  1_091567_000001_000001_000007_000013_000007_000019_000101_000217_000305_000897_001305_001693_006881_002415_017373_056327_053971_019021,
  1_091572_000001_000001_000007_000015_000031_000061_000093_000099_000459_000999_000239_000969_002427_012295_023699_004839_073707_110365,
  1_091601_000001_000003_000005_000009_000015_000059_000029_000035_000015_000331_000093_000529_002651_005675_003039_025967_002907_222053,
  1_091617_000001_000003_000003_000001_000001_000017_000059_000081_000495_000917_001907_000003_001989_014339_021311_060909_039393_054115,
  1_091653_000001_000003_000001_000009_000001_000037_000031_000201_000251_000117_001753_002453_005007_006935_001165_049231_051495_200219,
  1_091678_000001_000001_000003_000003_000015_000047_000017_000175_000077_000363_001455_001417_001357_002295_031165_053337_097891_145621,
  1_091705_000001_000003_000003_000003_000027_000031_000041_000179_000047_000629_000005_002543_006817_008953_007151_020715_052363_251037,
  1_091723_000001_000003_000001_000001_000021_000011_000103_000087_000285_000189_001911_002979_007563_013405_002309_025695_106277_179493,
  1_091725_000001_000001_000001_000005_000007_000019_000001_000233_000261_000825_001071_003529_005617_011207_024559_047461_079753_041009,
  1_091733_000001_000001_000003_000001_000015_000035_000065_000157_000381_000509_001455_003117_000031_002251_029729_033687_074999_214765,
  1_091761_000001_000001_000007_000011_000031_000043_000011_000147_000509_000891_001929_000357_003905_016251_030169_027787_124003_142587,
  1_091768_000001_000001_000007_000011_000003_000031_000093_000161_000311_000377_001119_002177_004339_003889_024299_035167_087583_145611,
  1_091790_000001_000001_000005_000009_000023_000009_000073_000085_000233_000919_001319_000013_003353_001029_031251_017731_086759_011705,
  1_091804_000001_000001_000001_000007_000027_000023_000067_000235_000207_000161_000697_002433_000833_005305_032695_029327_025285_051289,
  1_091807_000001_000003_000003_000003_000031_000055_000107_000211_000061_000993_001443_000463_005029_005401_008821_029721_113939_194839,
  1_091808_000001_000001_000001_000011_000011_000033_000039_000167_000017_000863_000363_003967_002277_004053_015403_031887_098565_217953,
  1_091818_000001_000001_000007_000001_000021_000047_000097_000147_000155_000327_001417_003531_007649_008975_021221_057631_072611_097745,
  1_091840_000001_000003_000003_000001_000001_000063_000019_000091_000105_000991_000819_000673_007845_014947_001633_040517_091525_151041,
  1_091849_000001_000001_000007_000011_000025_000043_000057_000141_000065_000415_001045_003947_007099_011653_029321_051591_002591_044803,
  1_091869_000001_000003_000001_000009_000015_000019_000105_000037_000485_000003_000213_001217_000951_005637_001589_025501_095073_124683,
  1_091873_000001_000001_000005_000007_000013_000019_000055_000143_000507_000575_000715_001633_005201_010493_026041_018407_008097_152313,
  1_091876_000001_000001_000003_000005_000009_000051_000005_000171_000143_000877_001571_002997_004209_013423_009389_023015_006665_254799,
  1_091888_000001_000003_000005_000015_000031_000043_000087_000079_000089_000463_001075_001257_001631_013225_013529_053267_073651_089125,
  1_091891_000001_000003_000007_000013_000023_000017_000093_000113_000045_000225_001939_003301_006031_009749_016577_012857_068437_169861,
  1_091897_000001_000003_000003_000015_000031_000011_000091_000127_000227_000813_000105_000901_006861_010627_018425_002553_102503_083167,
  1_091911_000001_000003_000003_000013_000017_000063_000083_000163_000451_000659_001995_002283_006297_008097_020935_006017_004977_005045,
  1_091965_000001_000001_000005_000013_000027_000047_000103_000129_000259_000975_000391_002343_006639_001385_030187_035401_074321_024751,
  1_091971_000001_000003_000001_000013_000001_000057_000037_000065_000057_000413_000063_003819_005915_003925_020777_048539_003019_054965,
  1_091988_000001_000001_000007_000003_000007_000013_000091_000033_000143_000489_000657_003127_000707_010841_011307_037855_092697_119189,
  1_091992_000001_000001_000003_000011_000025_000047_000011_000057_000463_000693_000055_000501_003765_015443_012917_061677_097145_213637,
  1_092004_000001_000003_000001_000001_000013_000049_000013_000225_000101_000475_000627_001447_007587_011335_003599_020795_072915_174663,
  1_092021_000001_000003_000007_000005_000031_000015_000115_000255_000329_000365_000959_003399_004695_014537_001447_017391_088557_130213,
  1_092035_000001_000001_000001_000009_000025_000047_000029_000173_000029_000149_000291_000691_007621_007607_020769_007149_027323_057689,
  1_092068_000001_000003_000005_000015_000003_000061_000119_000247_000025_000495_001297_001119_008011_016077_021567_030559_088455_068763,
  1_092098_000001_000001_000007_000001_000011_000047_000109_000115_000313_000517_001951_003319_000337_011793_022345_033457_047383_213893,
  1_092104_000001_000001_000005_000011_000011_000053_000103_000237_000383_000927_000421_004085_003327_000169_009941_024753_065437_108173,
  1_092121_000001_000001_000005_000011_000017_000059_000107_000053_000479_000143_000825_002667_005219_006143_011573_033637_124981_098195,
  1_092127_000001_000003_000003_000013_000003_000017_000061_000129_000475_000585_001611_001791_007817_004099_020437_051411_130173_220085,
  1_092151_000001_000003_000003_000003_000027_000025_000033_000255_000361_000967_001415_003213_003341_015875_032359_053267_027665_178301,
  1_092162_000001_000001_000005_000003_000013_000009_000091_000187_000173_000525_001675_002217_004093_002009_016917_018485_104849_163233,
  1_092186_000001_000001_000001_000011_000003_000017_000125_000157_000009_000429_001573_002257_007943_009893_005611_064619_004509_200181,
  1_092191_000001_000003_000001_000001_000003_000009_000083_000053_000315_000085_001093_002621_000663_012369_000317_006089_016479_225071,
  1_092192_000001_000003_000003_000001_000025_000047_000057_000045_000219_000045_000945_003989_004889_008989_000381_052483_057029_253899,
  1_092207_000001_000003_000003_000005_000003_000061_000075_000189_000053_000489_000553_002381_007485_009941_029733_002611_074119_203647,
  1_092260_000001_000003_000001_000011_000027_000063_000053_000061_000059_000613_000465_000867_001985_007605_014301_053847_068547_014717,
  1_092282_000001_000003_000005_000011_000005_000041_000051_000011_000059_000761_000059_000267_007273_003061_011223_048825_117869_158551,
  1_092288_000001_000003_000007_000001_000031_000047_000111_000043_000435_000997_000135_003369_006439_005637_013629_013221_090607_086359,
  1_092297_000001_000001_000001_000011_000023_000051_000109_000223_000495_000765_001557_003545_000305_004949_023931_045115_012121_014487,
  1_092303_000001_000003_000005_000009_000005_000025_000041_000249_000027_000375_001339_003647_003529_002077_021091_045523_067191_001257,
  1_092315_000001_000001_000003_000007_000013_000015_000063_000045_000187_000761_001245_003381_001817_002491_016469_064417_087333_143103,
  1_092322_000001_000001_000003_000013_000011_000033_000087_000011_000279_000689_001047_003935_005359_011309_019735_033259_012347_183653,
  1_092327_000001_000001_000005_000007_000005_000049_000109_000221_000455_000167_000785_001859_004337_014937_000209_023435_022923_172985,
  1_092341_000001_000003_000007_000009_000013_000007_000127_000117_000147_000741_000531_002627_002565_011083_030577_042471_077065_120983,
  1_092389_000001_000001_000007_000001_000005_000061_000115_000203_000015_000305_001005_002085_002597_004371_011661_033219_053657_040325,
  1_092390_000001_000003_000007_000013_000013_000015_000069_000167_000369_000747_001115_001493_004881_002693_032281_027089_056821_121693,
  1_092422_000001_000003_000005_000003_000019_000051_000101_000029_000411_000509_000847_001033_004135_015561_007045_060757_048479_247295,
  1_092439_000001_000001_000005_000003_000027_000047_000103_000123_000413_000071_000689_002113_004347_001983_025727_020095_003271_133081,
  1_092452_000001_000001_000003_000003_000005_000039_000087_000027_000505_000631_000689_002591_001955_003205_012681_010821_013343_101505,
  1_092470_000001_000003_000007_000009_000031_000023_000103_000223_000499_000721_000013_001399_007369_003945_027727_007923_060265_197793,
  1_092473_000001_000003_000003_000005_000027_000007_000119_000023_000371_000495_001583_003913_005139_012151_017477_010907_121775_013369,
  1_092493_000001_000003_000007_000001_000019_000053_000091_000235_000161_000097_000037_001115_005909_001943_008137_001541_016253_252151,
  1_092508_000001_000003_000007_000005_000003_000001_000107_000241_000187_000253_001225_002827_004191_002749_025629_047465_019969_045035,
  1_092517_000001_000003_000001_000005_000001_000029_000047_000233_000175_000313_000793_002089_006235_006595_027599_020505_063379_008729,
  1_092529_000001_000003_000007_000011_000015_000009_000087_000113_000389_000001_001057_003307_003455_001847_001497_028115_092897_002383,
  1_092551_000001_000003_000007_000013_000019_000059_000045_000059_000049_000273_001619_001975_005949_009951_007685_052559_042377_029855,
  1_092557_000001_000001_000003_000009_000019_000007_000119_000035_000085_000037_000269_003443_008015_008061_006001_019123_070643_115513,
  1_092596_000001_000001_000003_000015_000003_000019_000083_000171_000259_000207_001495_000513_005455_004071_027471_015773_066301_228743,
  1_092611_000001_000003_000007_000009_000003_000027_000093_000003_000471_000013_000677_004067_001941_015345_026629_029419_121593_108669,
  1_092613_000001_000003_000007_000015_000029_000043_000097_000041_000015_000181_001969_001901_007237_003879_019337_017659_017957_164667,
  1_092642_000001_000003_000001_000001_000025_000033_000007_000041_000387_000469_000795_000781_000113_004161_029687_032225_073905_137879,
  1_092666_000001_000001_000003_000013_000009_000059_000089_000023_000393_000111_001957_000719_006179_016183_031331_048015_032147_031691,
  1_092684_000001_000003_000007_000005_000009_000045_000073_000219_000181_000051_000717_001813_002581_001395_017595_023689_089709_201451,
  1_092723_000001_000003_000007_000003_000001_000021_000015_000035_000131_000515_000803_001429_003855_000349_011795_026787_006109_117745,
  1_092732_000001_000003_000003_000009_000007_000011_000057_000015_000491_000371_001787_000085_000577_011455_027419_020687_002493_209993,
  1_092738_000001_000003_000007_000015_000005_000005_000087_000197_000093_000643_000247_000031_000357_007377_010509_029883_042747_248861,
  1_092783_000001_000003_000003_000003_000029_000033_000047_000253_000485_000025_002003_002953_001629_011549_005697_001135_117761_096411,
  1_092808_000001_000003_000005_000001_000029_000005_000027_000187_000235_000423_000041_001855_004359_015627_028409_049331_037735_068823,
  1_092816_000001_000001_000005_000005_000021_000061_000067_000085_000041_000671_001617_003867_007913_001693_018487_001831_100971_168191,
  1_092835_000001_000001_000007_000003_000001_000061_000111_000087_000055_000229_000217_002801_000563_013617_009641_022247_016039_113541,
  1_092847_000001_000003_000005_000007_000005_000029_000067_000099_000091_000561_001203_000643_002607_013421_029695_031925_082985_069031,
  1_092879_000001_000001_000001_000001_000027_000007_000063_000107_000269_000163_001711_000587_005657_015077_024709_010235_095483_094799,
  1_092881_000001_000003_000003_000005_000029_000005_000127_000137_000067_000609_001657_001131_000959_015773_017295_058575_096525_080529,
  1_092884_000001_000003_000007_000007_000025_000015_000089_000093_000145_000695_000367_002853_003073_004867_026823_031467_094769_009145,
  1_092932_000001_000001_000007_000015_000015_000005_000001_000225_000057_000381_001295_002525_001493_002401_000091_019809_032803_195289,
  1_092935_000001_000003_000003_000007_000029_000051_000029_000063_000249_000107_001689_003703_007227_006967_027861_039167_020043_218827,
  1_092960_000001_000001_000003_000013_000017_000001_000077_000143_000167_000255_001709_002089_007465_004805_016185_015167_020493_240855]

def dirRows18_2_3 : List Nat := [
  1_092990_000001_000001_000005_000001_000011_000043_000107_000175_000093_000955_000615_002923_003637_007451_018847_053467_012463_127249,
  1_093010_000001_000001_000003_000013_000031_000001_000061_000113_000479_000777_001805_003625_006299_012221_029599_060175_031165_122815,
  1_093025_000001_000003_000003_000011_000011_000029_000089_000129_000195_000337_001843_002769_001747_007137_009901_018459_025215_070609,
  1_093046_000001_000001_000003_000007_000017_000035_000055_000081_000413_000025_001505_002185_003121_011435_017885_012543_036767_064039,
  1_093085_000001_000003_000001_000013_000025_000009_000083_000025_000005_000049_001975_003967_004135_013213_026479_063913_014921_096193,
  1_093089_000001_000003_000007_000005_000017_000015_000101_000047_000245_000821_001275_003343_005471_005045_031741_003319_008141_095501,
  1_093096_000001_000003_000001_000013_000001_000005_000105_000039_000175_000439_001625_000249_004859_012449_030529_045669_049071_214037,
  1_093145_000001_000001_000007_000007_000017_000021_000083_000123_000261_000559_001967_002933_004417_008331_010119_021793_128729_187247,
  1_093155_000001_000001_000007_000009_000015_000043_000077_000231_000241_000419_000503_003335_000927_002567_031259_052453_114441_257449,
  1_093169_000001_000003_000003_000001_000009_000029_000021_000089_000311_000185_000519_000271_003595_008951_006105_064593_038209_120491,
  1_093179_000001_000001_000007_000009_000001_000057_000065_000005_000275_000615_000801_002839_002851_015609_028731_031223_087725_000437,
  1_093184_000001_000003_000003_000005_000029_000003_000067_000053_000017_000499_000263_000651_007963_005371_011593_034761_057427_084979,
  1_093204_000001_000003_000007_000011_000015_000009_000033_000165_000313_000659_000909_000969_002309_002197_027263_035273_052887_236107,
  1_093211_000001_000001_000007_000001_000013_000017_000029_000003_000329_000573_000619_001013_006947_007031_030773_041129_116481_184233,
  1_093213_000001_000001_000005_000009_000013_000005_000087_000235_000063_000759_001143_001861_003783_002735_026191_064387_003651_119447,
  1_093227_000001_000001_000003_000007_000015_000041_000117_000135_000273_000655_000251_001859_004363_014725_029385_006269_091505_082679,
  1_093285_000001_000003_000007_000003_000013_000021_000021_000009_000121_000899_000199_001973_007437_009771_026647_030909_118573_152913,
  1_093292_000001_000003_000003_000009_000031_000043_000005_000249_000109_000183_000161_001185_004025_010331_020983_028549_122687_183429,
  1_093320_000001_000003_000007_000007_000011_000045_000111_000099_000487_000971_000597_001555_000273_010403_025289_045483_035845_035791,
  1_093356_000001_000001_000001_000007_000011_000049_000125_000229_000279_000289_001945_003575_005683_015659_031123_012517_079303_255797,
  1_093371_000001_000003_000001_000015_000009_000023_000061_000053_000383_000855_001743_000407_004401_007507_026307_056205_110943_184183,
  1_093374_000001_000003_000005_000013_000023_000029_000101_000243_000417_000925_001267_000257_005893_004335_006309_043519_126035_099205,
  1_093385_000001_000003_000001_000005_000005_000035_000083_000025_000031_000455_001799_002919_007037_011829_012239_012969_108469_089513,
  1_093403_000001_000003_000005_000009_000017_000029_000061_000217_000183_000131_000425_004025_007141_005445_021497_010603_053423_005701,
  1_093406_000001_000001_000001_000015_000027_000035_000009_000139_000261_000043_000587_003835_004627_011689_015739_006031_073547_134271,
  1_093427_000001_000001_000003_000003_000025_000015_000007_000225_000029_000785_002047_002219_006083_007973_017053_056167_083915_087597,
  1_093451_000001_000003_000007_000015_000013_000043_000085_000121_000421_000867_001895_002437_006003_005269_008625_026877_100023_110229,
  1_093454_000001_000003_000003_000003_000025_000049_000121_000001_000125_000353_001811_001575_003925_013897_026087_024977_105995_242817,
  1_093472_000001_000001_000001_000009_000031_000055_000071_000241_000439_000927_000955_000109_007779_002397_018797_034177_001255_178671,
  1_093482_000001_000001_000007_000007_000005_000015_000099_000225_000049_000407_001711_004027_004845_009209_020983_033969_014205_009351,
  1_093507_000001_000003_000005_000001_000009_000013_000113_000143_000097_000189_000929_001163_002261_009761_030011_032911_117043_169493,
  1_093537_000001_000001_000003_000005_000009_000035_000095_000077_000005_000095_001745_002013_007009_005427_018969_002771_005099_052939,
  1_093562_000001_000003_000007_000009_000013_000019_000031_000189_000367_000569_000095_001665_006231_002169_022589_008427_116097_041077,
  1_093564_000001_000003_000007_000003_000031_000061_000045_000233_000327_000541_000087_003449_002767_012237_017747_053827_080389_121489,
  1_093608_000001_000003_000007_000015_000031_000001_000049_000073_000157_000131_000553_003417_005283_004737_031675_063213_043689_261869,
  1_093636_000001_000003_000007_000001_000003_000005_000113_000043_000343_000039_000135_001555_007955_009851_030983_021955_034871_147649,
  1_093640_000001_000003_000005_000003_000005_000027_000015_000179_000141_000983_000265_002651_005907_010501_006275_029629_115965_125745,
  1_093653_000001_000003_000007_000013_000001_000001_000081_000105_000309_000457_001817_003435_004615_001181_027835_026075_063447_044701,
  1_093654_000001_000001_000005_000005_000025_000019_000085_000103_000409_000323_002001_003719_003403_001301_019615_047829_109905_065777,
  1_093664_000001_000003_000005_000003_000021_000015_000047_000075_000467_000273_001885_003929_001877_005209_006881_034431_035663_100205,
  1_093676_000001_000001_000005_000003_000003_000009_000047_000143_000471_000653_001011_002263_003673_011921_031207_050365_027177_214377,
  1_093721_000001_000003_000001_000015_000003_000043_000081_000253_000495_000139_000679_002207_004603_005269_027133_046461_120783_185595,
  1_093740_000001_000001_000007_000003_000013_000003_000109_000197_000477_000101_000859_001035_000777_010153_015581_022715_017493_120851,
  1_093743_000001_000003_000001_000003_000023_000005_000121_000067_000265_000935_000741_003311_000541_001093_001639_005941_005587_150345,
  1_093745_000001_000003_000001_000005_000003_000013_000065_000173_000493_000303_000359_003813_006007_001105_012185_010431_017117_164899,
  1_093751_000001_000003_000003_000001_000025_000033_000071_000181_000149_000007_000333_001981_002981_014683_010997_063373_022605_119681,
  1_093770_000001_000001_000001_000015_000029_000035_000089_000021_000281_000175_000587_003117_007221_008239_026399_049133_065895_142175,
  1_093796_000001_000003_000007_000015_000009_000009_000035_000161_000065_000749_000421_003575_006307_002029_011423_063901_102049_026333,
  1_093820_000001_000003_000001_000013_000001_000045_000097_000041_000231_000245_000271_001497_003119_006225_021665_012113_067315_062779,
  1_093824_000001_000001_000001_000007_000003_000029_000119_000193_000179_000353_001015_002803_006869_007653_022309_053421_086969_115549,
  1_093833_000001_000003_000003_000005_000017_000037_000049_000129_000195_000537_001237_002775_006683_000699_019181_061125_027483_175645,
  1_093841_000001_000003_000007_000003_000007_000049_000107_000041_000285_000335_001415_004015_001301_006525_032429_009337_087923_176751,
  1_093847_000001_000001_000005_000009_000021_000043_000091_000025_000225_000311_000417_000303_002629_003609_029987_028647_104173_052383,
  1_093848_000001_000003_000005_000009_000013_000047_000075_000143_000109_000173_000503_003843_001767_009433_010009_005653_087339_212975,
  1_093854_000001_000003_000001_000013_000013_000055_000123_000095_000499_000245_001875_003661_007661_006927_021003_051729_088089_089063,
  1_093882_000001_000001_000003_000001_000031_000007_000093_000035_000169_000191_001079_002137_004401_001563_020021_009101_066881_231589,
  1_093943_000001_000003_000001_000015_000021_000041_000075_000231_000459_000701_001715_002581_004445_005877_004765_001037_015827_189529,
  1_093958_000001_000003_000005_000013_000017_000023_000041_000133_000143_000297_001335_003907_007745_005139_009397_005765_005347_243091,
  1_093972_000001_000001_000005_000013_000007_000015_000031_000183_000315_000153_000785_002723_000097_014361_010509_017717_046615_133289,
  1_093975_000001_000003_000007_000009_000013_000003_000075_000103_000445_000409_000603_000201_001873_009277_023953_006881_064327_196771,
  1_094003_000001_000001_000007_000013_000015_000021_000073_000183_000419_000997_000857_001373_003855_000417_010175_005253_066509_015731,
  1_094009_000001_000003_000003_000009_000019_000007_000015_000119_000497_000025_001165_000105_002605_015097_028241_002269_000519_235655,
  1_094020_000001_000003_000003_000009_000027_000009_000103_000205_000097_000317_001621_000971_000931_009099_024583_012695_122399_078021,
  1_094072_000001_000001_000003_000005_000027_000045_000041_000239_000087_000603_000317_003507_007677_009141_026721_040225_080515_205263,
  1_094081_000001_000001_000003_000001_000025_000003_000063_000165_000041_000783_000291_001997_003769_001881_030613_018821_086175_038837,
  1_094093_000001_000001_000003_000005_000017_000019_000095_000017_000357_000587_000689_003127_006999_006703_023923_055945_097629_210177,
  1_094102_000001_000001_000003_000015_000021_000055_000063_000229_000397_001007_000779_002105_000681_010659_026679_000681_115901_083627,
  1_094122_000001_000001_000007_000011_000025_000009_000047_000133_000109_000017_000697_000749_005529_009289_029675_002631_015247_013913,
  1_094135_000001_000001_000007_000007_000003_000055_000029_000013_000467_000889_000675_001187_003301_013721_013783_044559_078177_114219,
  1_094136_000001_000003_000005_000013_000015_000011_000077_000071_000313_000427_001385_002007_004003_001529_004797_012289_024897_129513,
  1_094150_000001_000001_000003_000011_000009_000047_000103_000253_000345_000659_001109_003493_002515_005669_030551_025077_097393_252689,
  1_094184_000001_000003_000007_000009_000025_000019_000069_000161_000365_000051_001365_001045_004319_010035_015529_023251_044359_062163,
  1_094187_000001_000003_000001_000007_000003_000025_000119_000033_000019_000561_000659_002741_006177_000899_030911_009627_083003_012939,
  1_094258_000001_000003_000007_000001_000013_000037_000019_000161_000427_000621_001045_001963_006067_004439_032507_032775_005201_144645,
  1_094264_000001_000001_000005_000007_000031_000017_000089_000239_000317_000109_001827_001395_001587_014813_029911_063545_022939_235383,
  1_094272_000001_000001_000007_000015_000001_000017_000041_000123_000405_000539_001063_001443_004611_001847_024107_029365_085859_218601,
  1_094278_000001_000001_000005_000013_000021_000027_000101_000223_000245_000705_001579_000679_005461_008955_015031_007731_031219_165033,
  1_094281_000001_000001_000007_000011_000019_000029_000013_000223_000179_000481_000761_001543_003195_010695_017147_037577_130901_044699,
  1_094317_000001_000001_000007_000003_000019_000053_000049_000001_000393_000583_001183_002817_001293_012949_015491_044467_086261_220439,
  1_094348_000001_000003_000007_000015_000015_000047_000007_000125_000467_000511_001207_003787_005575_005359_003859_029933_104627_243073,
  1_094376_000001_000001_000001_000013_000027_000025_000017_000243_000477_000457_001835_002859_001023_010107_026829_049853_114569_250471,
  1_094382_000001_000003_000001_000015_000011_000043_000015_000235_000431_000671_001935_001143_004121_015403_019313_015919_111961_050455,
  1_094387_000001_000003_000003_000003_000011_000045_000107_000143_000353_000671_001259_001599_006075_010645_009131_028133_058679_029883,
  1_094389_000001_000003_000005_000015_000015_000043_000029_000171_000303_000071_001751_000411_007615_012063_026829_031469_034335_003163,
  1_094393_000001_000001_000007_000007_000025_000063_000025_000025_000027_000671_000505_001235_001985_002593_030031_003251_094729_248911,
  1_094402_000001_000001_000003_000001_000019_000015_000125_000133_000133_000209_001749_002091_006325_001275_005675_002249_022631_056293,
  1_094421_000001_000001_000005_000001_000019_000027_000025_000099_000211_000739_000565_003903_007701_007547_012303_005421_024663_022807,
  1_094422_000001_000003_000005_000013_000005_000045_000099_000067_000021_000269_000851_003333_004555_012483_014645_044757_099047_198521,
  1_094431_000001_000001_000005_000013_000019_000001_000123_000087_000109_000799_000591_002997_001005_016369_010329_034541_100935_200397,
  1_094473_000001_000003_000005_000001_000013_000051_000093_000023_000019_000023_000965_000171_006865_003561_023255_044295_087405_222269,
  1_094487_000001_000001_000003_000005_000001_000053_000025_000129_000123_000737_000271_000061_000113_008481_027075_058633_021499_156689,
  1_094504_000001_000003_000003_000011_000003_000043_000011_000123_000243_001015_001389_003663_001725_006933_005315_007137_127705_056607,
  1_094510_000001_000001_000005_000013_000007_000023_000043_000103_000503_000173_000267_001509_003311_009553_028851_015771_028741_236427,
  1_094522_000001_000001_000005_000015_000027_000043_000119_000003_000013_000107_000317_003725_006669_004945_030485_010155_096893_154081,
  1_094532_000001_000003_000007_000005_000011_000021_000061_000099_000155_000045_000569_001325_000673_015803_012047_055431_009515_106969,
  1_094572_000001_000001_000007_000011_000027_000049_000121_000145_000105_000223_001471_001163_003889_004213_021195_045649_014663_082799,
  1_094589_000001_000001_000003_000003_000031_000021_000017_000085_000031_000695_001591_002465_000907_011621_029681_013131_077187_175913,
  1_094599_000001_000003_000005_000005_000021_000049_000077_000229_000359_000825_001851_001223_003351_005349_030971_020797_026975_094425,
  1_094603_000001_000001_000003_000001_000003_000063_000023_000219_000503_000047_001675_001641_005257_008035_029793_030093_044897_235691,
  1_094647_000001_000001_000007_000009_000027_000037_000109_000033_000511_000203_001195_003281_000407_015237_028485_021379_106325_231755]

def dirRows18_2_4 : List Nat := [
  1_094665_000001_000003_000001_000003_000009_000045_000019_000031_000255_000799_000909_000767_000421_003301_018557_015043_048505_036763,
  1_094695_000001_000003_000007_000013_000001_000045_000059_000233_000319_000265_000517_001571_004593_012813_030729_019517_070345_142411,
  1_094716_000001_000001_000001_000013_000017_000015_000079_000093_000265_000381_000285_000253_000919_003715_030555_038801_030439_051511,
  1_094738_000001_000001_000007_000015_000025_000039_000071_000057_000145_000487_001655_002589_007655_008413_024537_036761_036427_088929,
  1_094740_000001_000001_000003_000003_000029_000041_000061_000191_000097_000849_000911_003269_005425_013997_007749_000537_113705_179765,
  1_094778_000001_000001_000005_000009_000013_000055_000033_000221_000027_000521_000013_002847_006035_008397_006579_029353_101953_088983,
  1_094803_000001_000003_000003_000013_000031_000047_000097_000177_000373_000353_000159_000249_004741_007427_008353_038617_013857_122081,
  1_094810_000001_000003_000005_000015_000013_000021_000001_000239_000369_000253_001009_001927_005111_002219_028167_032013_051487_210521,
  1_094815_000001_000003_000005_000009_000017_000021_000037_000105_000405_000039_000321_001515_003759_015469_013643_060157_072127_233505,
  1_094821_000001_000003_000007_000005_000001_000003_000003_000125_000283_000757_000829_002303_003715_006027_017795_037359_054721_005891,
  1_094862_000001_000003_000007_000015_000027_000063_000117_000101_000341_000965_001543_000051_003397_014051_009889_064647_111169_249477,
  1_094886_000001_000001_000005_000013_000005_000029_000051_000061_000233_000685_000751_000163_002319_014691_029881_039029_057093_240147,
  1_094900_000001_000003_000005_000003_000009_000021_000107_000147_000263_000471_000621_003485_000197_013271_024689_064341_110163_142711,
  1_094924_000001_000003_000001_000007_000001_000023_000017_000031_000131_000631_000795_003751_005337_009151_002873_031113_065303_244969,
  1_094952_000001_000001_000005_000011_000003_000051_000093_000155_000389_000859_001181_002711_001375_006119_000229_047767_115521_114129,
  1_094963_000001_000003_000003_000015_000005_000007_000029_000187_000259_000911_001537_001885_006139_004549_021655_058771_001003_124609,
  1_094970_000001_000001_000003_000015_000025_000045_000097_000217_000331_000305_001105_003465_003651_010171_031601_006947_004545_232627,
  1_094980_000001_000001_000005_000005_000009_000053_000109_000201_000473_000201_001113_000973_001825_013089_001207_009947_092515_216199,
  1_094992_000001_000003_000007_000003_000001_000049_000025_000109_000249_000489_001663_003493_004615_013899_027851_060711_014351_041787,
  1_095017_000001_000003_000003_000007_000003_000015_000029_000053_000061_000669_000371_002187_006769_004623_025785_012997_052263_028387,
  1_095028_000001_000001_000001_000003_000009_000031_000069_000003_000441_000219_000285_000183_001971_010903_008271_019389_061913_203537,
  1_095031_000001_000001_000005_000003_000009_000063_000117_000131_000053_000525_001349_002701_001317_006047_001661_051785_093199_158645,
  1_095035_000001_000003_000005_000003_000021_000061_000011_000091_000317_000635_000061_001919_002139_012817_006587_063201_052659_008971,
  1_095040_000001_000003_000001_000009_000011_000047_000049_000035_000115_000711_000511_000835_003787_000837_015737_007467_053263_132047,
  1_095058_000001_000001_000005_000003_000027_000047_000121_000211_000065_000363_001067_003813_006353_013701_023943_007573_112721_219587,
  1_095079_000001_000001_000003_000007_000021_000039_000015_000199_000113_000517_001429_001399_006007_001389_016425_017709_001231_051803,
  1_095122_000001_000003_000005_000011_000005_000037_000035_000097_000215_000281_000517_001777_004171_010161_018369_023233_083005_075519,
  1_095149_000001_000003_000007_000009_000003_000009_000069_000111_000135_000351_000971_003551_003739_003571_022861_062669_083723_010707,
  1_095150_000001_000003_000003_000005_000031_000035_000103_000205_000321_000553_000409_000363_004085_007735_005513_064249_127883_147839,
  1_095167_000001_000001_000007_000003_000023_000035_000085_000231_000251_000237_000421_000757_007081_011247_024941_022649_051111_157383,
  1_095175_000001_000003_000007_000005_000023_000035_000007_000101_000491_000529_001437_000489_005057_012955_027543_060903_104151_042545,
  1_095205_000001_000001_000003_000015_000023_000053_000085_000089_000247_000269_001555_003789_000467_011145_011751_044343_120117_009975,
  1_095229_000001_000001_000005_000003_000029_000049_000123_000179_000311_000045_001839_002725_007307_005525_032075_007979_107751_133677,
  1_095321_000001_000001_000005_000003_000031_000021_000065_000229_000031_000597_000755_002653_002699_002075_011693_028953_055811_013653,
  1_095345_000001_000001_000001_000007_000025_000051_000119_000021_000245_000493_000407_002997_004255_015487_026359_024153_042955_142191,
  1_095364_000001_000001_000005_000003_000027_000061_000013_000209_000013_000401_000399_002909_003623_008057_021301_032273_112127_210221,
  1_095379_000001_000003_000005_000013_000003_000019_000121_000019_000057_000583_000947_003591_005283_010831_020429_054097_007559_112465,
  1_095386_000001_000003_000005_000001_000021_000001_000125_000245_000217_000165_001319_002119_004641_009481_004147_007079_119015_128401,
  1_095395_000001_000001_000005_000003_000003_000031_000025_000063_000017_000191_000497_000819_001515_011215_024961_007679_125801_239521,
  1_095416_000001_000001_000005_000001_000003_000025_000027_000043_000037_000863_000739_002585_000773_000799_017649_021171_123541_164777,
  1_095419_000001_000003_000005_000007_000007_000025_000015_000251_000305_000159_001941_003655_002881_015123_010911_035541_062221_175845,
  1_095433_000001_000001_000001_000009_000019_000005_000103_000001_000417_000951_000139_002413_002983_015471_009495_041349_110175_029501,
  1_095464_000001_000001_000001_000005_000029_000053_000095_000173_000211_000803_001599_004093_005559_015855_012271_012583_102221_203453,
  1_095490_000001_000003_000005_000005_000019_000043_000031_000175_000493_000289_001865_002925_003833_011327_023337_062669_099485_230583,
  1_095496_000001_000003_000003_000011_000011_000025_000095_000215_000501_000421_000725_001571_002133_002761_008649_045359_088851_055057,
  1_095504_000001_000001_000007_000007_000021_000045_000069_000063_000399_000929_001431_003397_003613_014595_010417_062913_106283_120869,
  1_095513_000001_000003_000007_000015_000013_000045_000011_000177_000125_000611_001115_002441_002689_012517_008989_034991_023789_051543,
  1_095523_000001_000001_000003_000001_000003_000015_000005_000125_000511_000137_001919_002953_005267_003543_005485_007463_130407_255945,
  1_095525_000001_000001_000003_000007_000007_000021_000095_000097_000051_000091_000813_002819_002839_012041_026197_020143_051403_171337,
  1_095558_000001_000001_000001_000001_000007_000027_000015_000125_000441_000387_001869_002157_005863_000581_000893_058827_104063_093735,
  1_095572_000001_000003_000003_000007_000027_000009_000079_000097_000465_000207_000931_002809_002225_013749_018819_030605_009829_130743,
  1_095591_000001_000003_000005_000013_000031_000041_000019_000147_000293_000725_000297_000397_001343_012669_015339_058599_012113_149835,
  1_095609_000001_000003_000003_000013_000027_000013_000121_000253_000349_000229_000915_001673_003819_000077_020691_053823_078265_138743,
  1_095619_000001_000001_000005_000005_000029_000041_000065_000235_000123_000871_001809_003013_003531_001551_008441_023481_058729_117639,
  1_095625_000001_000001_000007_000005_000023_000055_000089_000081_000201_000313_001307_002427_002025_008543_026631_058655_122095_247579,
  1_095633_000001_000003_000001_000005_000003_000063_000089_000219_000449_000009_001771_002915_005925_013773_026119_061309_065107_033001,
  1_095649_000001_000003_000007_000001_000027_000011_000025_000221_000139_000665_001543_002157_007617_009135_000567_064985_088749_054223,
  1_095652_000001_000001_000003_000009_000013_000041_000007_000099_000483_000115_001499_003343_007207_001805_016031_063707_008555_090959,
  1_095655_000001_000003_000001_000009_000015_000053_000041_000239_000295_000047_001645_001095_005163_007739_026635_028245_009315_100629,
  1_095696_000001_000003_000001_000005_000001_000019_000069_000005_000171_000669_000673_000633_006895_007571_011539_025133_099235_007991,
  1_095721_000001_000003_000005_000011_000021_000037_000063_000077_000281_000307_001711_002671_001315_014683_028757_022751_056477_190805,
  1_095766_000001_000003_000003_000005_000015_000001_000005_000021_000199_000161_000655_001263_003315_016051_002409_000773_009075_121265,
  1_095772_000001_000003_000003_000003_000007_000023_000071_000195_000011_000263_001845_000165_003489_000447_011315_023861_110949_078909,
  1_095775_000001_000001_000007_000005_000001_000053_000037_000009_000439_000135_000909_000457_006993_011401_014065_030795_056149_168013,
  1_095794_000001_000001_000001_000015_000023_000037_000013_000087_000113_000251_000233_000725_007757_014399_003023_054277_087879_054053,
  1_095796_000001_000003_000005_000011_000011_000057_000109_000171_000171_000017_000343_002749_006525_009735_011715_023783_054439_082819,
  1_095818_000001_000001_000001_000015_000003_000047_000073_000237_000399_000301_000947_002055_001909_014105_026893_047805_000025_172957,
  1_095820_000001_000001_000007_000007_000011_000027_000093_000167_000117_000637_000351_000319_004605_012897_031001_039655_053551_246113,
  1_095832_000001_000003_000005_000015_000003_000037_000025_000009_000421_000519_000257_003251_001649_004069_000999_059367_112383_032095,
  1_095842_000001_000003_000007_000007_000025_000057_000011_000037_000271_000545_001213_001927_006471_005145_022995_051051_126981_260457,
  1_095851_000001_000003_000005_000011_000001_000061_000077_000201_000395_000199_000477_000103_004069_007003_026371_049145_103839_195661,
  1_095854_000001_000003_000003_000009_000013_000041_000025_000125_000161_000371_000179_000351_007169_007179_021627_057793_104679_158583,
  1_095859_000001_000003_000007_000011_000005_000007_000111_000163_000201_000783_000189_000273_002751_013917_028501_018261_012755_015521,
  1_095868_000001_000001_000005_000007_000003_000037_000121_000209_000503_000299_001301_003703_002321_000099_014953_028087_085059_256911,
  1_095881_000001_000003_000003_000013_000003_000029_000095_000249_000383_000971_001291_000013_001587_003447_026477_015837_111141_073899,
  1_095895_000001_000001_000007_000001_000017_000057_000031_000001_000219_000329_000019_003841_001829_005179_014945_006625_003783_200583,
  1_095943_000001_000003_000001_000003_000001_000031_000023_000017_000209_000383_000297_003065_004323_007847_030189_056541_057535_024853,
  1_095949_000001_000001_000003_000011_000031_000035_000125_000141_000251_000079_000161_000775_002455_006959_026433_039145_026563_000665,
  1_095978_000001_000001_000007_000001_000011_000009_000009_000211_000231_000723_001337_001713_003779_002001_023451_027107_064297_254943,
  1_095980_000001_000003_000007_000015_000021_000055_000019_000159_000449_000837_001259_001851_005061_000355_021531_063479_114657_139265,
  1_096010_000001_000001_000001_000003_000011_000055_000103_000179_000363_000567_000421_000981_007221_002077_019339_001155_067019_218231,
  1_096020_000001_000001_000007_000011_000003_000043_000055_000161_000347_000995_001555_003251_001605_013313_004499_019361_060145_071593,
  1_096024_000001_000001_000005_000003_000009_000015_000119_000213_000455_000241_000857_000683_001247_013085_023919_020365_016303_073263,
  1_096063_000001_000001_000003_000013_000025_000017_000045_000193_000375_000289_001381_003629_003015_015883_020633_007431_108787_233297,
  1_096108_000001_000001_000001_000015_000021_000057_000105_000091_000233_000961_001623_003849_000711_003857_032657_005935_085113_038287,
  1_096125_000001_000003_000003_000003_000015_000031_000097_000217_000335_000385_001661_003927_006849_000137_028871_056485_032777_260033,
  1_096154_000001_000001_000003_000013_000005_000061_000019_000255_000123_000481_001865_001815_003047_000173_025363_001277_006453_174405,
  1_096172_000001_000003_000007_000013_000027_000009_000019_000021_000433_000857_001931_002927_000629_007733_013503_048263_067517_026495,
  1_096189_000001_000001_000001_000003_000005_000043_000061_000239_000081_000585_000187_001123_003319_008699_020925_040815_076575_169383,
  1_096204_000001_000003_000003_000003_000009_000049_000071_000225_000095_000365_000645_000237_007829_005727_017031_058971_071415_232423,
  1_096219_000001_000003_000005_000009_000025_000049_000113_000047_000105_000609_001557_002099_002129_008663_024811_025505_038153_185821,
  1_096256_000001_000003_000005_000013_000023_000055_000107_000017_000309_000807_000635_001007_006207_003363_007607_025013_004141_171509,
  1_096261_000001_000001_000001_000013_000027_000035_000031_000089_000109_000879_001845_003999_005415_008777_009605_029703_028149_036469,
  1_096289_000001_000003_000001_000003_000013_000003_000051_000031_000479_000549_001245_002033_000961_013893_021829_032791_109497_187425,
  1_096292_000001_000001_000005_000003_000019_000005_000025_000187_000173_000869_000201_003851_007369_006229_016577_045623_019859_209855,
  1_096296_000001_000001_000007_000009_000001_000009_000053_000047_000289_000557_000999_000141_003789_003087_030217_024221_081431_157507,
  1_096324_000001_000001_000003_000009_000001_000025_000011_000073_000155_000155_000621_004047_006759_005641_028147_008523_069439_092613,
  1_096345_000001_000003_000001_000005_000025_000023_000041_000079_000071_000793_001381_000307_007863_016289_028783_005299_128481_222799,
  1_096346_000001_000001_000007_000001_000017_000033_000117_000111_000015_000249_001397_001349_004883_006009_003179_033509_056355_031937,
  1_096358_000001_000003_000005_000013_000029_000015_000041_000185_000091_000501_000571_002889_006901_003875_003737_023657_101587_261181]

def dirRows18_2_5 : List Nat := [
  1_096386_000001_000001_000007_000009_000021_000049_000033_000143_000019_000203_000075_001353_000585_007719_011311_048989_010803_051743,
  1_096412_000001_000001_000007_000013_000023_000031_000103_000209_000375_000817_001461_003657_007931_015893_015065_028721_054299_071147,
  1_096428_000001_000003_000007_000007_000007_000025_000037_000173_000355_000499_000247_000459_007701_002219_011703_020631_128857_125367,
  1_096445_000001_000001_000003_000005_000025_000061_000043_000135_000451_000667_000547_000443_005071_012671_026975_020131_101545_115281,
  1_096446_000001_000003_000003_000005_000009_000019_000075_000133_000211_000585_001283_003397_003181_000065_020213_047725_101883_194749,
  1_096448_000001_000001_000001_000001_000019_000013_000075_000135_000111_000641_000765_001631_004711_000241_015125_038233_095535_177965,
  1_096458_000001_000001_000007_000013_000031_000001_000091_000061_000299_000035_001327_003903_006193_005589_006331_006321_105741_089639,
  1_096475_000001_000003_000003_000015_000001_000055_000011_000039_000171_000713_000973_001827_003487_013057_030775_016881_124989_208193,
  1_096482_000001_000003_000007_000001_000021_000029_000019_000075_000397_000755_001601_002907_006861_010377_023127_002443_086545_003841,
  1_096494_000001_000003_000001_000011_000025_000033_000053_000195_000343_000425_001523_003051_003115_003205_003457_020521_039187_033307,
  1_096502_000001_000003_000005_000001_000025_000023_000047_000005_000133_000511_001549_002691_007861_004987_002877_038693_037491_022481,
  1_096508_000001_000001_000005_000015_000005_000055_000125_000231_000011_000451_001443_003865_004115_002379_013675_029953_085721_114859,
  1_096511_000001_000003_000001_000015_000019_000037_000029_000075_000483_000785_001933_002435_001811_002787_032653_023159_080993_026867,
  1_096516_000001_000001_000001_000015_000007_000027_000053_000099_000011_000693_001085_000743_000939_006461_006391_045913_094037_217039,
  1_096520_000001_000003_000003_000009_000019_000037_000093_000077_000363_000125_001675_000347_005599_007771_023549_039945_106931_127959,
  1_096547_000001_000003_000001_000005_000027_000047_000107_000085_000031_000621_001529_002349_007055_000889_004663_001705_040011_214775,
  1_096556_000001_000003_000001_000005_000011_000047_000035_000013_000139_000783_001009_000845_004139_014713_024191_017597_124923_219657,
  1_096561_000001_000001_000007_000003_000003_000025_000063_000207_000361_000587_000763_003027_006523_006783_011203_057313_115397_149921,
  1_096568_000001_000001_000007_000001_000021_000055_000109_000183_000487_000869_000195_000083_003675_013103_012383_063519_048379_256443,
  1_096581_000001_000003_000007_000013_000009_000021_000029_000163_000105_000871_000747_002459_007383_000439_005223_001655_001469_050345,
  1_096582_000001_000003_000001_000001_000015_000063_000037_000159_000385_000795_001369_001973_006119_006027_023913_052475_080827_198261,
  1_096679_000001_000003_000003_000011_000015_000005_000121_000231_000043_000907_001621_003895_005075_010865_003123_049657_069827_215813,
  1_096683_000001_000003_000001_000015_000007_000041_000075_000105_000087_000899_000629_001699_005861_009279_030107_037443_007555_064461,
  1_096717_000001_000003_000001_000007_000009_000015_000119_000127_000121_000621_001117_001659_000605_013705_031181_040063_017257_077645,
  1_096754_000001_000001_000005_000005_000003_000037_000095_000237_000379_000375_000903_000257_004425_014191_009185_057133_082067_073521,
  1_096769_000001_000001_000007_000015_000001_000043_000063_000045_000121_000669_001775_000179_007385_003557_017261_000379_024759_214831,
  1_096799_000001_000001_000003_000009_000031_000005_000043_000153_000451_000573_001623_002831_004483_007219_027657_047111_058165_145799,
  1_096805_000001_000001_000003_000011_000003_000011_000111_000083_000329_000807_000779_001223_006095_007269_022425_019343_011937_010173,
  1_096809_000001_000001_000001_000013_000027_000015_000007_000111_000037_000663_000051_003759_006321_008253_000737_059501_109595_177827,
  1_096823_000001_000001_000003_000003_000029_000039_000079_000115_000307_000765_000331_000377_001873_014491_011065_011865_076717_029101,
  1_096829_000001_000003_000007_000003_000021_000045_000097_000213_000309_000003_000483_003933_001043_008519_022517_034675_078819_172479,
  1_096832_000001_000003_000005_000003_000031_000051_000027_000137_000405_000427_000815_000043_006551_010971_028589_053077_036639_167661,
  1_096850_000001_000003_000001_000003_000029_000005_000111_000019_000343_000021_000557_004067_001525_012793_011513_048869_078035_171531,
  1_096856_000001_000001_000005_000007_000025_000047_000053_000245_000135_000137_001697_002057_003147_015903_026979_002157_043967_207661,
  1_096906_000001_000001_000005_000003_000025_000011_000015_000059_000511_000307_000757_003275_001299_010373_011943_054169_032417_021645,
  1_096962_000001_000003_000003_000011_000015_000015_000005_000137_000237_000741_001613_003565_007359_006181_025953_018137_059759_186693,
  1_096974_000001_000003_000005_000003_000019_000013_000099_000167_000045_000071_001683_003635_007603_014879_023903_014795_058395_011853,
  1_096979_000001_000003_000001_000007_000015_000045_000111_000111_000175_000567_001031_002255_003895_011861_020195_015461_088411_225713,
  1_096997_000001_000001_000007_000003_000005_000005_000085_000065_000231_000643_001591_000219_002929_004845_029327_014769_046629_131367,
  1_096998_000001_000001_000005_000009_000029_000021_000047_000087_000113_000469_001647_002461_003663_005865_006647_041345_039539_220301,
  1_097002_000001_000001_000005_000011_000009_000055_000005_000147_000141_000181_000283_001695_006537_011095_010385_036013_111653_182273,
  1_097054_000001_000001_000003_000005_000017_000045_000103_000253_000407_000151_001585_001585_006661_014579_005723_037641_056813_258819,
  1_097064_000001_000003_000003_000003_000005_000063_000085_000201_000087_000419_001993_000737_005859_006049_017393_009453_065915_001731,
  1_097067_000001_000001_000003_000003_000003_000027_000097_000135_000137_000731_001559_003409_005973_015981_019833_008419_033273_044155,
  1_097110_000001_000003_000003_000009_000031_000055_000109_000191_000119_000059_000645_001047_007767_008379_013781_052289_031605_186667,
  1_097116_000001_000003_000001_000015_000009_000001_000023_000031_000023_000311_001879_001939_005509_014573_010501_038867_039131_231151,
  1_097137_000001_000003_000007_000001_000031_000033_000033_000019_000475_000723_000795_001793_006639_014349_016639_031473_110411_095703,
  1_097138_000001_000001_000005_000009_000011_000003_000039_000119_000455_000839_000513_002423_002219_006059_006125_060995_117701_204057,
  1_097143_000001_000001_000001_000009_000005_000023_000087_000033_000059_000241_001427_003867_001091_014683_021651_007091_038011_063809,
  1_097183_000001_000001_000007_000015_000015_000023_000075_000227_000415_001015_002033_001311_006659_005093_014799_065331_096989_170395,
  1_097187_000001_000003_000005_000015_000025_000061_000033_000179_000503_000875_001853_000257_006727_009117_016777_029585_110901_231617,
  1_097190_000001_000001_000001_000015_000013_000053_000073_000151_000315_000887_000669_003959_005279_001461_015497_040107_009595_252059,
  1_097202_000001_000003_000007_000013_000017_000045_000043_000061_000099_000555_000981_003255_006385_008723_024451_045243_068617_171911,
  1_097219_000001_000003_000003_000011_000001_000029_000097_000219_000341_000597_000503_000773_003777_005431_004581_037169_057269_186377,
  1_097239_000001_000003_000001_000011_000015_000049_000119_000189_000279_000821_001541_001343_004379_005833_026537_029769_121125_202553,
  1_097245_000001_000003_000005_000009_000019_000023_000005_000197_000323_000101_001155_000007_005933_003111_019595_036807_040147_000153,
  1_097246_000001_000001_000005_000011_000017_000009_000083_000051_000185_000415_000367_001431_007803_008253_016283_054545_099733_057777,
  1_097249_000001_000001_000005_000007_000005_000031_000041_000013_000033_000531_001381_000781_001699_006321_018125_034567_113253_104181,
  1_097264_000001_000003_000001_000005_000001_000059_000037_000239_000343_000395_000121_002181_002485_013825_019127_022689_103023_198213,
  1_097267_000001_000003_000001_000015_000029_000017_000011_000027_000413_000273_001805_002845_008147_010301_005423_029859_085243_190379,
  1_097269_000001_000003_000001_000015_000007_000061_000029_000135_000273_000951_000725_001345_004231_013651_031291_006081_085735_096023,
  1_097274_000001_000001_000003_000011_000015_000029_000081_000129_000245_000295_000527_003905_004323_005447_021253_051177_105105_048323,
  1_097282_000001_000001_000003_000013_000013_000045_000071_000043_000383_000095_001689_000639_004631_015113_028053_049247_128303_183999,
  1_097287_000001_000001_000001_000003_000019_000031_000093_000035_000369_000765_001201_001625_007683_008719_013843_042723_062323_049431,
  1_097294_000001_000003_000003_000011_000005_000039_000049_000217_000109_000063_001753_002489_006017_000403_016657_059577_080255_066071,
  1_097299_000001_000003_000005_000005_000011_000001_000079_000037_000261_000537_001845_003567_003233_016249_009795_002471_069661_118231,
  1_097306_000001_000003_000003_000001_000019_000061_000035_000253_000031_000019_000161_002597_005733_008231_026569_038613_121945_137391,
  1_097347_000001_000003_000007_000003_000015_000025_000125_000231_000187_000797_001237_001767_001557_001095_013613_043325_033801_127881,
  1_097361_000001_000001_000001_000009_000023_000063_000075_000107_000311_000493_000471_002985_001861_004285_027125_014961_122567_152033,
  1_097371_000001_000003_000005_000007_000009_000007_000043_000117_000203_000727_000101_003831_003201_002327_004675_012085_025131_211835,
  1_097435_000001_000001_000007_000011_000017_000001_000005_000087_000291_001023_001345_003879_007739_009201_019573_020037_128711_187263,
  1_097466_000001_000001_000003_000013_000025_000039_000071_000251_000365_000617_001539_002121_003803_008003_023393_056991_056143_223453,
  1_097473_000001_000003_000005_000013_000025_000061_000071_000139_000319_000399_000903_003063_003667_000275_013297_025285_120417_169613,
  1_097474_000001_000003_000001_000009_000009_000041_000059_000213_000195_000705_000313_002313_004993_000323_024049_030527_027287_080489,
  1_097559_000001_000001_000005_000001_000029_000057_000107_000161_000217_000295_000721_003857_001935_014981_012243_038541_051177_248889,
  1_097565_000001_000001_000001_000015_000005_000025_000095_000137_000011_000215_000971_001573_004341_004725_008201_033147_087687_187405,
  1_097587_000001_000003_000003_000009_000009_000013_000031_000003_000175_000309_000145_002265_004863_007199_023881_015445_123753_126653,
  1_097611_000001_000001_000007_000003_000007_000043_000051_000191_000021_000639_000939_000691_007823_010529_007757_009291_115045_051539,
  1_097622_000001_000001_000007_000013_000007_000045_000091_000173_000073_000779_001647_002059_001373_016027_004611_045787_000699_078905,
  1_097625_000001_000001_000005_000015_000005_000023_000123_000045_000265_001009_000235_001343_005779_000209_023263_063163_026079_240905,
  1_097632_000001_000001_000001_000011_000019_000031_000075_000105_000071_000021_001361_002125_006949_002111_010333_061881_112811_085723,
  1_097635_000001_000003_000005_000007_000027_000017_000095_000035_000503_000181_001885_001097_006019_013745_015009_026343_117727_093017,
  1_097652_000001_000001_000003_000011_000027_000041_000109_000023_000365_000283_001509_003269_005969_014567_027715_000429_065813_169391,
  1_097672_000001_000001_000005_000009_000011_000001_000023_000143_000401_000061_000993_003029_001901_012947_010439_048661_113863_009353,
  1_097678_000001_000003_000007_000003_000015_000027_000123_000051_000403_000569_000075_003837_008167_010875_029861_044133_052385_185515,
  1_097683_000001_000003_000003_000015_000015_000045_000003_000077_000439_000265_000103_003715_007889_009241_026511_019063_108239_237233,
  1_097695_000001_000001_000005_000013_000007_000047_000007_000185_000155_000833_001895_001103_006761_004307_019551_002371_041079_207663,
  1_097705_000001_000001_000003_000007_000001_000049_000079_000127_000149_000383_000919_003787_006703_008823_015551_028397_011497_144227,
  1_097713_000001_000001_000007_000015_000007_000005_000009_000161_000425_000275_001943_003003_003615_001417_000587_020949_009651_101257,
  1_097719_000001_000003_000005_000011_000031_000011_000113_000201_000113_000889_000867_003537_007173_003403_004713_029709_050127_055893,
  1_097757_000001_000003_000007_000011_000011_000017_000123_000097_000003_001009_001567_003261_008053_004639_024493_064085_073975_123965,
  1_097761_000001_000001_000007_000001_000031_000007_000111_000137_000427_000615_000865_002243_003603_005943_001639_022213_081977_077283,
  1_097762_000001_000001_000005_000011_000025_000063_000005_000019_000067_000469_000621_002831_001635_011859_023143_029189_043955_087475,
  1_097771_000001_000003_000007_000015_000007_000061_000125_000207_000401_000567_001943_002645_000641_015427_024467_041767_122591_048905,
  1_097795_000001_000003_000003_000005_000001_000061_000065_000169_000329_000489_000435_001719_000491_006189_018383_034973_090611_180991,
  1_097809_000001_000003_000007_000009_000025_000043_000115_000011_000289_000193_000263_003885_004881_015669_019757_020073_119873_067069,
  1_097826_000001_000001_000007_000011_000003_000045_000093_000115_000233_000891_001541_002557_002115_002237_004253_030445_032983_086185,
  1_097845_000001_000003_000007_000003_000029_000023_000105_000051_000157_000505_000773_002403_001237_005193_032725_053331_066377_025745,
  1_097877_000001_000003_000005_000011_000031_000005_000111_000251_000287_000225_000913_000097_003429_015111_010637_018843_102589_229667,
  1_097882_000001_000003_000007_000013_000021_000043_000027_000011_000265_000991_001645_001967_002675_003083_002957_065275_007757_201953]

def dirRows18_2_6 : List Nat := [
  1_097891_000001_000003_000007_000007_000023_000059_000037_000105_000113_000961_001585_000855_006037_008461_024057_046861_042421_021061,
  1_097903_000001_000001_000005_000001_000007_000045_000037_000147_000225_000793_000737_000753_000565_005347_015393_042611_039253_246455,
  1_097961_000001_000003_000003_000005_000029_000059_000125_000069_000283_000677_001615_003341_000219_010753_000445_043343_117035_137907,
  1_097970_000001_000001_000005_000001_000019_000041_000093_000137_000481_000093_000703_001211_004051_005591_005913_032831_062027_060519,
  1_097975_000001_000001_000007_000013_000017_000063_000065_000147_000361_000083_001383_001761_000579_009493_002611_006951_012197_081857,
  1_097996_000001_000003_000003_000015_000011_000003_000025_000007_000221_000211_001745_001173_005479_012063_005667_043443_004865_193345,
  1_098001_000001_000001_000005_000011_000031_000011_000071_000061_000057_000851_001089_001395_004525_001223_027681_014355_023125_257233,
  1_098014_000001_000003_000001_000011_000025_000059_000017_000193_000229_001005_000387_003993_002457_004185_018421_001315_125155_142277,
  1_098023_000001_000001_000005_000011_000013_000055_000123_000191_000005_001023_000705_003481_000367_012961_011917_012131_099109_105093,
  1_098035_000001_000001_000003_000011_000013_000029_000057_000057_000467_000019_001409_000971_003041_013487_024737_003377_097883_248893,
  1_098052_000001_000003_000007_000003_000003_000037_000109_000077_000201_000469_000039_001747_002027_014781_018821_034647_123865_195097,
  1_098059_000001_000003_000003_000005_000029_000027_000097_000217_000249_000141_000431_001621_000539_008945_003443_048227_027867_205355,
  1_098061_000001_000001_000003_000013_000007_000057_000065_000167_000103_000511_000239_000325_001793_002811_014223_040999_012589_149759,
  1_098086_000001_000003_000005_000011_000003_000001_000061_000087_000283_000029_000507_003473_002685_013829_032337_008413_012201_152309,
  1_098098_000001_000003_000005_000015_000001_000023_000103_000173_000423_000915_001519_001859_007341_008689_017141_053769_081189_144305,
  1_098117_000001_000001_000001_000005_000031_000041_000089_000117_000329_000245_000381_003357_001053_015079_003569_027665_065645_259279,
  1_098118_000001_000001_000007_000005_000003_000055_000091_000035_000463_000015_001195_000533_006013_010755_001919_061169_081285_082757,
  1_098132_000001_000003_000005_000011_000003_000029_000085_000169_000163_000733_000939_003401_003709_003307_017329_056873_010721_174235,
  1_098135_000001_000001_000005_000001_000011_000045_000075_000247_000435_000021_001985_002261_007013_004935_002457_041077_053121_143269,
  1_098145_000001_000003_000003_000013_000017_000059_000043_000149_000027_000001_000367_000957_005607_002591_022161_010095_073769_052455,
  1_098160_000001_000001_000003_000013_000015_000015_000121_000083_000469_000819_001973_003595_002313_001621_003105_042971_007243_098727,
  1_098194_000001_000001_000005_000007_000021_000053_000123_000009_000119_000437_001567_000431_003647_010967_022037_008523_081279_126473,
  1_098205_000001_000001_000005_000013_000005_000023_000125_000119_000195_000555_000341_002037_000313_006323_027201_008377_122793_197781,
  1_098210_000001_000003_000003_000005_000017_000025_000067_000237_000349_000443_001529_003541_003105_010105_013409_020165_064597_244513,
  1_098224_000001_000001_000005_000001_000011_000043_000077_000245_000359_000625_001171_000597_000003_000591_002457_020275_075995_204685,
  1_098227_000001_000003_000001_000011_000005_000013_000099_000107_000285_000617_001687_002959_004439_000771_003103_062363_089437_172221,
  1_098254_000001_000003_000001_000011_000001_000063_000043_000085_000023_000095_000501_001223_000669_016101_001071_053175_102101_000419,
  1_098271_000001_000003_000001_000005_000019_000023_000063_000105_000289_000419_000885_000441_005107_004213_008683_001847_113301_240821,
  1_098272_000001_000001_000001_000009_000009_000009_000111_000063_000053_000531_000517_003463_008171_002645_013883_052213_040707_024637,
  1_098302_000001_000003_000001_000005_000015_000043_000071_000215_000117_000685_001819_001105_005805_008875_031093_031077_093807_065631,
  1_098320_000001_000001_000007_000007_000017_000015_000031_000087_000013_000615_002003_003461_007585_001947_006693_026141_095059_052229,
  1_098346_000001_000001_000003_000005_000005_000055_000007_000041_000473_000541_000545_002901_000763_012731_024715_043301_007981_123961,
  1_098356_000001_000003_000001_000011_000013_000029_000065_000047_000511_000931_001681_003813_000995_004261_032243_021327_033749_052607,
  1_098360_000001_000001_000003_000001_000027_000051_000019_000119_000071_000989_000485_001483_004115_011743_005513_032447_062599_163185,
  1_098366_000001_000003_000007_000013_000007_000005_000127_000067_000221_000773_001641_003763_002061_002025_029813_064385_109219_070149,
  1_098478_000001_000001_000005_000015_000009_000029_000105_000245_000333_000011_000803_001877_006735_003797_001913_063837_023649_234721,
  1_098483_000001_000003_000007_000013_000011_000021_000113_000175_000385_000885_001259_000983_007715_011889_012515_035723_009897_063415,
  1_098486_000001_000001_000005_000009_000031_000063_000053_000051_000375_000133_002021_003173_003861_009885_004117_037505_073687_016411,
  1_098497_000001_000003_000007_000007_000011_000013_000099_000235_000285_000159_000489_000917_003033_007711_006545_052893_028549_068791,
  1_098528_000001_000001_000005_000011_000031_000015_000089_000157_000105_000347_000455_003391_005341_016035_011819_057679_048057_147673,
  1_098537_000001_000003_000001_000005_000021_000005_000001_000041_000213_000677_001745_002591_006237_014265_005963_030017_047293_199411,
  1_098551_000001_000003_000001_000015_000019_000009_000065_000103_000489_000977_000579_002571_002827_012971_024445_017963_068829_089781,
  1_098557_000001_000003_000005_000007_000003_000045_000009_000223_000137_000749_000919_002695_007569_006735_016649_055899_091531_010709,
  1_098572_000001_000001_000005_000011_000025_000051_000081_000243_000473_000085_001189_002317_000785_009307_025555_036623_066881_150945,
  1_098575_000001_000001_000003_000007_000009_000017_000099_000057_000333_000891_000071_002359_002067_013265_030077_017935_047343_022673,
  1_098600_000001_000001_000005_000007_000013_000017_000077_000109_000427_000667_001367_002383_007505_011239_014229_035431_035473_062447,
  1_098628_000001_000001_000001_000015_000027_000005_000051_000221_000471_000877_000449_003961_004197_015713_002955_058985_031431_241539,
  1_098635_000001_000001_000007_000001_000013_000061_000055_000199_000087_000679_000723_000271_001061_008043_013163_008079_081501_060467,
  1_098645_000001_000001_000003_000003_000011_000001_000085_000065_000445_000731_002017_003113_008085_007133_014789_002435_038459_234997,
  1_098652_000001_000003_000003_000009_000023_000031_000049_000137_000349_000651_001975_003429_007137_007841_028297_058209_036493_259097,
  1_098655_000001_000001_000007_000015_000023_000011_000087_000133_000245_000445_000151_004075_000141_015395_016649_036925_098421_217265,
  1_098665_000001_000003_000003_000005_000025_000053_000057_000177_000481_000177_000671_001249_002663_012855_024537_031867_110323_164113,
  1_098710_000001_000003_000005_000007_000023_000025_000019_000091_000447_001023_000373_003863_004399_012973_007475_037485_008567_053271,
  1_098719_000001_000001_000005_000007_000031_000033_000031_000075_000223_000299_001549_001863_000353_004339_008891_010365_003399_185807,
  1_098720_000001_000001_000007_000009_000031_000053_000023_000203_000319_000915_001923_000205_003119_007243_025251_012907_101921_102695,
  1_098786_000001_000001_000007_000009_000015_000001_000123_000173_000123_000215_000263_003003_005881_001117_015195_047457_066663_224177,
  1_098792_000001_000001_000007_000013_000011_000025_000061_000121_000173_000115_001897_002145_007783_009673_003321_001707_061475_053875,
  1_098806_000001_000003_000007_000003_000031_000021_000027_000099_000421_000225_001565_002351_002275_010583_007877_043505_027629_140919,
  1_098816_000001_000003_000005_000005_000011_000045_000071_000105_000487_000867_000361_003995_002039_001495_027481_004753_020657_067077,
  1_098836_000001_000001_000005_000001_000019_000033_000001_000077_000377_000353_000719_001463_007053_007409_032165_015557_117673_069887,
  1_098859_000001_000001_000005_000007_000025_000005_000015_000231_000023_000213_001627_001801_007793_000651_009903_051745_111611_039679,
  1_098864_000001_000003_000003_000005_000023_000043_000037_000199_000437_000019_001853_002119_000461_012641_015865_039941_122545_213443,
  1_098879_000001_000003_000003_000011_000031_000045_000019_000227_000507_000909_001501_002021_000905_001763_001897_003735_081475_030005,
  1_098905_000001_000001_000005_000005_000029_000009_000055_000025_000023_000059_000593_002197_006029_008235_008397_027521_096221_168837,
  1_098917_000001_000003_000001_000015_000005_000033_000075_000121_000433_000557_001011_003785_002545_000953_017295_014407_094871_060445,
  1_098929_000001_000003_000003_000007_000007_000053_000029_000075_000171_000587_001701_003815_002761_004403_000039_017291_034897_187257,
  1_098969_000001_000003_000001_000015_000017_000057_000011_000095_000335_000013_000265_001161_007945_006419_026723_031907_089995_082265,
  1_098975_000001_000001_000007_000005_000009_000059_000027_000153_000037_000165_000823_003525_000621_004777_003485_009109_116567_034691,
  1_098976_000001_000001_000005_000013_000023_000027_000011_000063_000035_000039_000995_002101_002611_014139_002683_063787_019813_097497,
  1_098981_000001_000003_000007_000015_000031_000015_000003_000163_000167_000053_000071_001881_004213_003485_021525_000705_122345_203549,
  1_098999_000001_000003_000005_000005_000021_000033_000085_000133_000021_000505_001639_003989_000771_007171_021953_034503_031247_247459,
  1_099020_000001_000001_000007_000007_000031_000001_000027_000039_000469_000243_000679_004091_007137_008505_013329_034139_069485_259795,
  1_099026_000001_000003_000005_000005_000031_000043_000031_000161_000413_000657_001407_001417_007349_003301_007691_049355_022929_068043,
  1_099054_000001_000001_000007_000011_000015_000061_000073_000217_000163_000503_000193_003795_000041_016251_001187_065363_113211_100337,
  1_099083_000001_000003_000001_000011_000009_000015_000109_000187_000109_000865_000845_001579_000321_001269_020613_005693_058421_254959,
  1_099093_000001_000003_000001_000013_000011_000003_000019_000135_000093_000779_001383_000219_002737_000377_001125_035663_130815_103797,
  1_099103_000001_000001_000005_000011_000025_000025_000071_000249_000201_000679_001677_001817_007619_010327_014821_047847_033629_250979,
  1_099131_000001_000001_000007_000015_000023_000019_000069_000039_000025_000843_000099_003499_002457_011681_030009_017609_046653_162427,
  1_099156_000001_000003_000003_000007_000023_000025_000077_000135_000061_000501_001381_003977_001957_011255_016053_030297_058835_097589,
  1_099159_000001_000003_000005_000003_000009_000031_000009_000055_000421_000109_001823_001921_007349_002661_004503_036691_048843_182631,
  1_099165_000001_000001_000001_000011_000007_000023_000107_000125_000393_000105_001407_003461_004539_006121_007881_032407_083749_098831,
  1_099170_000001_000003_000003_000013_000005_000059_000005_000003_000185_000959_000241_000819_001443_001789_012771_026703_025399_182583,
  1_099189_000001_000001_000001_000003_000003_000047_000007_000045_000093_000373_000175_000087_000649_012903_005029_001945_111967_140889,
  1_099223_000001_000003_000001_000011_000009_000047_000025_000191_000215_000845_001557_000009_003451_005837_011763_029127_113115_099039,
  1_099227_000001_000001_000001_000005_000023_000053_000045_000001_000361_000751_000807_001765_000685_002109_028437_060489_065739_234511,
  1_099271_000001_000003_000003_000007_000015_000057_000071_000061_000195_000123_001745_003249_000351_014309_002017_015653_110803_045937,
  1_099277_000001_000003_000007_000009_000025_000011_000025_000029_000467_000313_001927_002423_007311_014299_008145_008123_115103_213881,
  1_099278_000001_000001_000003_000015_000001_000035_000111_000099_000507_000417_001433_000129_005565_013365_018853_008607_109739_120623,
  1_099313_000001_000001_000001_000007_000013_000031_000093_000003_000327_000067_001101_001965_005939_006505_003117_003021_033707_079353,
  1_099314_000001_000001_000003_000007_000015_000021_000023_000117_000367_000137_000287_000903_004685_013943_026779_024607_070853_099743,
  1_099345_000001_000001_000007_000011_000025_000043_000067_000181_000459_000737_001567_003491_005085_006487_023115_062341_102943_077301,
  1_099361_000001_000001_000003_000015_000007_000035_000081_000199_000455_000851_000835_003421_004675_015173_009205_007305_109849_015183,
  1_099367_000001_000003_000005_000011_000009_000055_000003_000053_000235_000271_001265_003681_003627_003485_011591_053097_085949_158173,
  1_099386_000001_000003_000007_000003_000015_000027_000057_000183_000487_000009_001797_002973_003687_012987_009133_014595_052067_131217,
  1_099394_000001_000001_000005_000003_000007_000025_000019_000215_000291_000325_000813_000577_004249_010373_017233_029557_072979_070721,
  1_099417_000001_000003_000001_000007_000025_000001_000107_000167_000367_000303_000883_000993_004189_006557_013697_015251_077065_116127,
  1_099418_000001_000003_000005_000011_000013_000059_000009_000121_000489_000593_001503_000601_005263_013837_020991_035761_045867_155905,
  1_099453_000001_000001_000003_000003_000019_000047_000127_000115_000267_000261_000969_000961_005919_010085_029363_004935_100485_075561,
  1_099454_000001_000003_000001_000015_000011_000053_000039_000187_000053_000011_001951_000913_000965_002565_005457_003237_024923_245681,
  1_099477_000001_000001_000007_000003_000015_000005_000025_000045_000017_000045_001317_001853_006627_015879_029935_024749_118149_035359]

def dirRows18_2_7 : List Nat := [
  1_099518_000001_000001_000007_000001_000021_000045_000067_000071_000025_000743_000925_003441_003013_001613_006321_012491_119931_164701,
  1_099544_000001_000001_000007_000001_000013_000015_000035_000187_000091_000995_000401_002443_004183_010823_020589_027413_117095_020359,
  1_099559_000001_000003_000003_000007_000015_000051_000055_000167_000409_000859_000719_003223_002457_016013_013639_004027_079339_225113,
  1_099592_000001_000003_000001_000009_000003_000029_000105_000193_000279_000027_001093_002199_006983_000619_010163_040365_071015_102191,
  1_099597_000001_000001_000003_000009_000029_000005_000033_000247_000027_000299_002017_000379_006199_015047_018329_003493_047679_076703,
  1_099603_000001_000003_000005_000005_000009_000019_000051_000129_000157_000831_001373_000653_007489_013125_001815_010915_088679_050269,
  1_099621_000001_000003_000003_000009_000009_000049_000079_000011_000181_000679_001697_003707_000205_013305_006293_056653_042619_116257,
  1_099646_000001_000001_000005_000009_000023_000041_000017_000135_000145_000715_000257_001561_006941_002411_031459_025055_035807_051579,
  1_099693_000001_000001_000001_000007_000011_000013_000049_000155_000403_000569_000751_002959_000425_013949_022047_049829_071925_101647,
  1_099722_000001_000001_000003_000015_000015_000015_000017_000213_000113_000395_001999_002039_003623_013255_024435_054487_078773_202637,
  1_099760_000001_000003_000007_000009_000005_000021_000061_000165_000097_000349_001131_002677_000333_013129_002137_022909_095795_143081,
  1_099780_000001_000001_000001_000005_000031_000041_000109_000179_000295_000475_000639_003929_001841_007545_019411_052573_010173_236769,
  1_099789_000001_000001_000001_000005_000027_000051_000009_000217_000393_000671_000931_000433_007303_016295_006727_005703_088241_132665,
  1_099804_000001_000001_000007_000013_000021_000033_000019_000241_000497_000519_001413_000489_004975_001345_024925_040383_110815_136217,
  1_099823_000001_000003_000001_000009_000007_000051_000079_000015_000015_000601_000997_003713_007829_000903_012393_060059_042057_175141,
  1_099826_000001_000001_000005_000015_000009_000063_000107_000063_000495_000591_000207_000779_008069_003013_023839_003075_127481_193885,
  1_099832_000001_000001_000001_000007_000013_000017_000121_000171_000099_000059_001043_001109_001337_001179_027635_034063_012945_001431,
  1_099842_000001_000003_000001_000003_000005_000047_000101_000205_000157_000595_000263_003887_007015_004693_015211_025381_128803_227233,
  1_099851_000001_000001_000003_000011_000017_000033_000001_000019_000153_000603_000119_002305_004041_004011_019849_000761_052807_129811,
  1_099862_000001_000003_000007_000015_000021_000007_000013_000225_000497_000459_000389_000911_006349_005059_006363_041915_090687_214501,
  1_099871_000001_000003_000001_000015_000001_000039_000031_000083_000147_000629_000185_001913_003217_000959_000651_065267_108613_020391,
  1_099899_000001_000003_000001_000007_000009_000011_000029_000201_000245_000815_001869_002597_005693_015669_023293_030885_004029_225737,
  1_099940_000001_000003_000005_000011_000007_000029_000119_000207_000499_000023_001563_003645_003839_002509_024043_064231_022509_221835,
  1_099983_000001_000003_000003_000007_000011_000049_000013_000201_000353_000217_000831_002803_001521_012989_025339_041035_002125_165271,
  1_099985_000001_000001_000005_000011_000001_000045_000093_000029_000055_001007_001919_000241_005931_009211_017291_039849_025453_096077,
  1_100025_000001_000003_000001_000001_000029_000043_000011_000105_000331_000693_001363_000291_008191_007813_014135_038287_015469_256913,
  1_100043_000001_000003_000005_000011_000019_000021_000023_000117_000253_000111_000733_003785_005835_000423_030251_027283_079561_162095,
  1_100070_000001_000003_000003_000001_000009_000019_000083_000013_000037_000725_001597_001117_008067_008085_001315_041813_008973_175525,
  1_100076_000001_000001_000005_000003_000013_000039_000003_000213_000335_000907_001143_001729_000601_011255_024351_041045_011335_186221,
  1_100084_000001_000003_000003_000009_000017_000011_000029_000033_000303_000815_001607_002403_008095_004213_016697_064733_024439_093081,
  1_100096_000001_000001_000001_000003_000013_000037_000035_000181_000243_000645_001915_003521_000569_003005_007271_032755_064575_119813,
  1_100105_000001_000001_000005_000013_000025_000059_000077_000121_000459_000755_000385_001893_001227_009957_005069_040063_027261_004703,
  1_100108_000001_000003_000001_000003_000029_000041_000095_000255_000219_000021_000317_003021_002615_005101_019413_025795_006521_157749,
  1_100123_000001_000003_000003_000005_000007_000033_000007_000205_000415_000023_001431_000117_001605_009541_011825_049195_086341_099673,
  1_100132_000001_000003_000003_000005_000017_000037_000033_000209_000049_000161_000321_003697_006483_012859_000895_000675_001899_260289,
  1_100141_000001_000001_000003_000015_000001_000027_000083_000125_000309_000553_000505_002209_004931_002593_028253_012879_074971_009047,
  1_100181_000001_000003_000007_000003_000015_000003_000105_000019_000041_000119_000149_003847_006593_000875_023777_004547_057717_139387,
  1_100191_000001_000001_000001_000003_000009_000043_000025_000015_000067_000609_000951_000273_008095_000621_024819_017233_053423_192757,
  1_100202_000001_000003_000005_000003_000009_000049_000107_000215_000245_000217_000545_002285_002075_000401_026599_032967_130457_203755,
  1_100216_000001_000001_000005_000001_000007_000031_000087_000181_000135_000155_000009_001431_000307_013367_031147_010327_002817_063327,
  1_100246_000001_000003_000003_000003_000029_000017_000055_000201_000033_000275_002005_003037_003439_001513_007563_046491_103319_005279,
  1_100256_000001_000003_000007_000011_000031_000063_000105_000169_000257_000225_000711_002041_001519_011801_018543_035173_092125_072729,
  1_100271_000001_000001_000003_000003_000011_000013_000127_000231_000229_000809_000303_001167_000047_004281_002373_010455_074685_131775,
  1_100285_000001_000001_000005_000015_000001_000005_000097_000139_000189_000039_000037_003513_002119_001453_011477_045477_075613_169915,
  1_100294_000001_000003_000005_000001_000015_000027_000031_000087_000311_000785_000489_001331_005259_006963_026441_041675_107187_060723,
  1_100305_000001_000001_000003_000005_000013_000009_000033_000003_000273_000357_000841_001421_005993_012449_006821_004283_009437_215035,
  1_100321_000001_000003_000003_000001_000015_000043_000101_000035_000023_000743_000029_003953_003095_014355_025977_012513_054565_020199,
  1_100331_000001_000003_000003_000001_000011_000053_000099_000095_000063_000503_001361_003231_002445_005073_004667_033033_004575_139475,
  1_100334_000001_000003_000003_000005_000019_000057_000015_000115_000125_001017_001913_000907_002461_003229_016591_006591_026385_228661,
  1_100345_000001_000003_000001_000011_000027_000019_000007_000121_000245_000997_001743_002571_001333_009603_027811_042081_044365_094943,
  1_100346_000001_000003_000001_000001_000013_000005_000127_000217_000063_000137_000989_001441_001133_008273_018091_022243_122931_028867,
  1_100369_000001_000001_000007_000015_000023_000039_000057_000083_000321_000817_000819_000223_004803_006935_002027_020373_119683_029781,
  1_100372_000001_000001_000007_000007_000009_000001_000055_000211_000455_000283_001647_000471_004351_014119_006945_063117_109687_200165,
  1_100382_000001_000001_000007_000007_000029_000045_000113_000253_000135_000375_001091_000959_001423_001241_031689_033751_073459_091769,
  1_100403_000001_000003_000005_000011_000023_000063_000055_000181_000453_000267_000995_001309_002847_003791_021683_059809_081891_132635,
  1_100451_000001_000001_000001_000013_000017_000037_000087_000017_000061_000689_001895_003877_004717_006447_022329_001619_030069_190887,
  1_100488_000001_000003_000001_000007_000027_000061_000017_000051_000099_000909_000085_000951_000107_001923_000035_063389_090273_152643,
  1_100499_000001_000001_000001_000001_000015_000039_000077_000255_000191_000613_000655_001881_000267_003927_018025_013825_015381_169193,
  1_100501_000001_000003_000003_000001_000031_000017_000073_000069_000231_000221_000501_003755_001671_002049_022493_016353_001775_181783,
  1_100511_000001_000001_000007_000005_000031_000045_000125_000189_000287_000487_001911_003133_003257_008967_021295_001247_072297_068269,
  1_100536_000001_000003_000003_000001_000007_000009_000123_000147_000007_000381_001597_001289_007831_014493_021145_015487_070353_147891,
  1_100629_000001_000001_000005_000009_000015_000017_000043_000087_000101_000425_001819_000163_006741_008255_002591_017719_112871_110793,
  1_100652_000001_000001_000003_000009_000003_000027_000007_000041_000043_000743_000131_000705_002607_009963_026367_041191_126347_164291,
  1_100655_000001_000003_000003_000015_000007_000017_000097_000153_000283_000461_001723_002421_004973_016369_030633_062299_119425_003591,
  1_100669_000001_000001_000001_000013_000007_000033_000095_000255_000429_000693_000849_003783_005985_008551_023227_001015_109023_042493,
  1_100687_000001_000003_000001_000007_000003_000043_000053_000137_000413_000265_002033_001347_000335_000529_024751_016443_122195_158951,
  1_100692_000001_000001_000005_000009_000027_000021_000083_000185_000325_000557_001247_002739_006925_005459_026027_062217_061113_197743,
  1_100696_000001_000001_000003_000013_000009_000057_000079_000133_000137_000851_000863_001605_007839_011809_029941_020473_006687_164479,
  1_100701_000001_000001_000003_000009_000009_000051_000123_000029_000139_000043_001329_002701_003413_003875_019673_062369_010529_226525,
  1_100706_000001_000003_000001_000005_000025_000047_000007_000201_000119_000623_000009_000025_001713_010817_008201_005847_077477_237883,
  1_100711_000001_000001_000005_000013_000015_000053_000039_000093_000235_000619_001695_002389_002571_002389_004619_045769_017245_069973,
  1_100726_000001_000001_000007_000001_000031_000009_000075_000143_000001_000067_000809_001037_002801_016129_022443_026021_119683_014681,
  1_100754_000001_000003_000001_000009_000023_000049_000069_000071_000139_000953_001053_003059_001061_005881_026207_015907_079389_095341,
  1_100759_000001_000003_000005_000001_000019_000039_000069_000183_000095_000289_000847_000393_001649_001275_021187_034715_067553_123239,
  1_100790_000001_000001_000001_000005_000021_000039_000119_000193_000347_000087_000731_003327_006089_013781_020389_052303_011869_048975,
  1_100838_000001_000003_000005_000001_000019_000017_000093_000033_000215_000457_000687_001325_001997_002655_021195_054997_036877_057991,
  1_100878_000001_000001_000001_000003_000017_000045_000091_000045_000231_000611_000413_002321_007181_013765_007791_006973_024497_231795,
  1_100880_000001_000003_000003_000015_000007_000029_000103_000031_000295_000637_001775_002293_008001_004175_001257_016881_093695_180591,
  1_100885_000001_000001_000001_000013_000031_000007_000047_000051_000267_000231_000463_000939_007977_008593_015329_036871_050449_222341,
  1_100886_000001_000003_000007_000003_000027_000031_000057_000135_000507_000177_001455_001963_004473_006449_000727_049853_065275_237531,
  1_100943_000001_000003_000007_000011_000031_000021_000111_000231_000269_000027_000719_003275_002489_003689_003425_023763_039413_064565,
  1_100948_000001_000001_000001_000011_000023_000027_000031_000153_000201_000985_001553_003061_007663_004079_013549_048765_064169_068223,
  1_100957_000001_000001_000007_000015_000011_000053_000125_000023_000073_000799_000591_000665_000127_003941_011251_012649_002657_230923,
  1_100962_000001_000001_000007_000015_000029_000043_000095_000081_000337_000367_000779_001237_007627_000997_003355_001245_070477_159097,
  1_100968_000001_000003_000001_000013_000019_000031_000011_000091_000179_000425_001395_001439_002723_000401_026779_036723_115743_179653,
  1_100981_000001_000001_000003_000001_000029_000035_000011_000217_000301_000421_000765_001949_005475_002247_003953_027091_016895_194821,
  1_100986_000001_000001_000005_000009_000011_000021_000095_000135_000127_000065_000609_003893_007143_013231_029199_036205_038711_159599,
  1_101001_000001_000003_000005_000013_000025_000025_000101_000221_000495_000993_000961_002575_000907_005277_018415_001797_022043_129889,
  1_101012_000001_000001_000001_000015_000021_000021_000099_000003_000175_000735_000659_000543_007573_015549_014067_060009_065785_112927,
  1_101015_000001_000003_000007_000007_000003_000039_000061_000203_000143_000581_000487_002097_003943_006869_014435_046431_101781_233067,
  1_101019_000001_000001_000003_000001_000013_000027_000021_000147_000295_000089_001845_001017_004621_010029_003517_025371_104531_225179,
  1_101037_000001_000001_000003_000011_000025_000051_000045_000179_000299_000487_002039_000085_004643_008211_012051_064819_093481_159511,
  1_101063_000001_000001_000005_000003_000021_000007_000073_000193_000415_000007_000125_002487_007369_002043_007633_019265_065337_057399,
  1_101105_000001_000001_000005_000003_000003_000053_000051_000169_000313_000973_001549_000243_003155_013827_024971_061393_015147_187397,
  1_101144_000001_000003_000003_000003_000029_000033_000091_000041_000367_000077_001259_001703_002105_014473_017763_029809_047777_205553,
  1_101147_000001_000003_000007_000003_000023_000061_000059_000235_000051_000041_000417_000691_002953_015577_032283_002793_109557_064729,
  1_101154_000001_000001_000005_000009_000013_000017_000093_000201_000151_000323_001481_003645_003039_005131_000503_042055_114939_198755,
  1_101163_000001_000003_000005_000001_000021_000053_000075_000029_000283_000541_000499_000309_001923_000995_021479_056183_103743_152113,
  1_101166_000001_000003_000001_000003_000021_000051_000067_000097_000481_000509_000805_000213_005157_013573_016187_008199_028025_208445,
  1_101173_000001_000001_000007_000007_000015_000025_000107_000127_000355_000249_000707_001287_006831_005317_015613_012837_048091_027611]

def dirRows18_2_8 : List Nat := [
  1_101174_000001_000003_000003_000007_000031_000053_000127_000239_000017_000709_000979_004023_007149_004239_020015_044365_113245_075873,
  1_101219_000001_000003_000005_000011_000027_000037_000049_000123_000137_000967_001857_003961_007429_008355_030733_064587_073903_188581,
  1_101240_000001_000003_000003_000007_000019_000051_000069_000121_000345_000637_001987_000335_007071_013849_022369_046895_020761_148227,
  1_101250_000001_000001_000003_000011_000009_000001_000093_000151_000487_000889_000919_002429_005425_015303_012583_057627_042683_098265,
  1_101259_000001_000003_000005_000003_000001_000029_000087_000189_000285_000805_000933_001381_002789_000107_014215_033171_110573_250983,
  1_101273_000001_000003_000001_000001_000027_000043_000063_000115_000317_000401_000885_001029_007003_010041_015299_042251_058675_177545,
  1_101274_000001_000003_000005_000007_000011_000033_000119_000005_000185_000777_001795_001585_003543_001801_017681_001041_044513_105435,
  1_101285_000001_000003_000001_000009_000019_000033_000015_000253_000299_000925_000241_001333_000615_012501_000499_044449_016595_070357,
  1_101300_000001_000001_000003_000013_000013_000031_000017_000123_000215_000805_001177_003683_000027_011881_007645_025575_063057_089547,
  1_101309_000001_000001_000005_000005_000017_000001_000057_000183_000267_000825_001987_000329_005603_001295_000425_061871_027859_157109,
  1_101310_000001_000003_000003_000011_000019_000045_000037_000079_000191_000017_000017_003379_007941_003159_020351_026341_034687_116281,
  1_101321_000001_000001_000003_000007_000011_000007_000061_000199_000459_000993_001729_003751_001067_014965_014669_040281_012579_154601,
  1_101324_000001_000003_000003_000013_000019_000053_000017_000039_000137_000219_001645_002899_000505_010057_022891_032317_081201_126291,
  1_101363_000001_000003_000005_000007_000021_000053_000065_000125_000069_000781_000761_001683_005817_011859_011543_062853_057149_212261,
  1_101366_000001_000003_000005_000009_000013_000025_000081_000119_000439_000025_000239_002867_000421_012631_022705_031039_096105_079023,
  1_101377_000001_000003_000005_000003_000019_000009_000051_000135_000437_000393_001711_001205_005195_010927_028583_007513_110227_139295,
  1_101380_000001_000003_000007_000009_000031_000015_000005_000143_000049_000013_001143_002325_005437_014289_031555_058777_102675_064559,
  1_101389_000001_000001_000007_000003_000003_000021_000065_000127_000341_000109_000167_001835_006687_001695_015631_047047_127543_051413,
  1_101407_000001_000001_000003_000001_000031_000049_000103_000147_000059_000701_001251_003391_001935_005371_028585_050023_073839_118205,
  1_101411_000001_000003_000003_000001_000005_000049_000091_000023_000091_000663_001369_001437_002657_011369_029857_053875_127045_242323,
  1_101432_000001_000003_000001_000003_000023_000033_000007_000105_000353_000863_001211_001175_001347_012913_011973_055255_027145_175539,
  1_101476_000001_000001_000001_000013_000009_000029_000071_000071_000509_000571_002005_003125_002731_006829_026863_016459_113195_080247,
  1_101488_000001_000003_000005_000001_000007_000011_000045_000177_000281_000695_001197_002035_002137_011833_012417_005805_077211_045553,
  1_101494_000001_000001_000007_000007_000027_000059_000091_000183_000267_000373_000677_002431_000903_004229_031997_019843_125089_242871,
  1_101514_000001_000003_000003_000013_000023_000023_000053_000101_000225_000247_002013_000853_000279_002161_030045_028255_130907_057157,
  1_101534_000001_000003_000005_000013_000005_000011_000063_000137_000219_000661_000773_001991_004081_005963_025207_050461_085293_159441,
  1_101537_000001_000003_000001_000015_000005_000059_000043_000087_000429_000077_000073_001275_002619_016133_020009_026089_038129_157267,
  1_101543_000001_000001_000005_000015_000009_000059_000037_000127_000127_000733_001703_001331_004293_003555_022739_049513_034533_143225,
  1_101547_000001_000001_000007_000007_000011_000051_000121_000059_000505_000147_001855_001661_005539_003421_028863_014811_039811_228927,
  1_101584_000001_000001_000005_000005_000001_000031_000057_000167_000107_000753_001835_002491_003311_008639_008743_017279_077071_008673,
  1_101589_000001_000001_000003_000003_000015_000039_000001_000223_000395_000603_001095_000435_001225_004045_021721_040767_048971_001583,
  1_101590_000001_000001_000003_000013_000009_000017_000047_000175_000229_000827_000769_002901_000137_009931_011115_025337_105811_068413,
  1_101629_000001_000001_000001_000005_000029_000055_000043_000039_000319_000919_000749_000931_001973_013147_000913_048353_040955_189783,
  1_101678_000001_000003_000005_000005_000013_000033_000081_000213_000079_000781_001069_003117_005859_009061_030963_017307_006281_208707,
  1_101683_000001_000001_000005_000013_000027_000063_000041_000091_000123_000763_001115_003193_004571_004573_008235_024291_040911_225985,
  1_101700_000001_000001_000001_000007_000013_000005_000077_000215_000067_000183_001447_001571_000213_003481_028349_022451_044951_240257,
  1_101712_000001_000003_000007_000007_000003_000021_000039_000233_000263_000019_000489_001511_002313_001799_025173_017913_070593_002969,
  1_101748_000001_000003_000007_000015_000003_000001_000093_000101_000393_000911_001055_000953_001279_011947_011963_053443_029105_226057,
  1_101757_000001_000001_000003_000007_000007_000053_000119_000039_000439_000629_001845_003411_003633_016345_027501_059565_039581_085373,
  1_101762_000001_000001_000005_000007_000019_000039_000019_000191_000509_000239_000359_000645_008107_013721_021289_020763_067727_045957,
  1_101771_000001_000001_000001_000013_000005_000013_000113_000041_000135_000351_000311_001099_002391_016165_015805_054737_102645_224417,
  1_101785_000001_000003_000003_000009_000017_000047_000095_000249_000045_000749_000313_000317_002413_015861_027221_035537_006407_050111,
  1_101795_000001_000001_000007_000005_000029_000057_000081_000007_000233_000393_000307_001089_001367_012275_011861_029119_027271_036351,
  1_101822_000001_000003_000005_000015_000009_000015_000023_000241_000233_000305_001025_002035_004897_010321_017345_042873_109045_129533,
  1_101851_000001_000003_000005_000009_000021_000033_000111_000081_000311_000829_001851_001437_005935_007847_015493_028531_074879_040567,
  1_101863_000001_000003_000007_000007_000013_000021_000043_000119_000507_000701_001385_000745_000799_001567_013271_040267_130843_059951,
  1_101894_000001_000003_000003_000001_000019_000043_000045_000119_000087_000263_001475_003897_002811_002711_004949_048043_125237_230897,
  1_101903_000001_000001_000007_000001_000001_000053_000017_000071_000313_000373_000005_002359_001643_009867_018365_005011_040675_105371,
  1_101924_000001_000003_000007_000011_000023_000049_000123_000255_000033_000241_000473_000959_001859_006109_005433_027625_046839_090727,
  1_101939_000001_000001_000001_000003_000031_000043_000033_000129_000159_000445_001831_001005_000587_002091_005749_033271_050909_065057,
  1_101980_000001_000001_000007_000013_000003_000021_000017_000125_000357_000097_001255_000669_001583_007433_032287_061795_005915_211593,
  1_101993_000001_000001_000007_000007_000031_000019_000071_000211_000213_000731_001491_003315_003633_014953_021369_004977_033533_012115,
  1_101994_000001_000003_000001_000001_000031_000001_000087_000253_000211_000057_001431_002613_004075_014463_011287_038671_100129_004241,
  1_101996_000001_000001_000001_000005_000021_000013_000027_000029_000031_000285_000179_003861_005319_015683_002579_015663_063357_081849,
  1_102007_000001_000001_000003_000007_000023_000029_000029_000079_000263_000865_001237_003871_002097_005337_002387_059277_028831_057957,
  1_102044_000001_000003_000007_000015_000015_000031_000083_000195_000087_000691_000071_001025_003145_000675_014619_022399_088885_222969,
  1_102086_000001_000001_000005_000007_000019_000003_000121_000105_000383_000675_000777_002073_000643_014439_019467_013159_115421_250561,
  1_102097_000001_000003_000005_000009_000013_000041_000119_000023_000355_000765_000579_000849_003313_002443_029521_042965_102559_227707,
  1_102113_000001_000003_000003_000007_000023_000055_000115_000083_000331_000873_000797_000621_001197_015299_026307_034287_120459_260603,
  1_102123_000001_000001_000003_000005_000007_000011_000113_000119_000065_000691_001169_002291_007283_001391_010737_003801_040649_191009,
  1_102155_000001_000001_000007_000009_000003_000023_000095_000109_000457_000277_000871_003013_002833_004131_021081_043635_019875_162173,
  1_102157_000001_000001_000003_000015_000025_000007_000045_000109_000195_000935_001487_001603_001663_015595_010687_004073_034863_045851,
  1_102169_000001_000001_000001_000005_000021_000019_000037_000141_000377_000553_001225_002485_001235_013179_002587_043659_001405_052023,
  1_102181_000001_000003_000001_000009_000005_000027_000001_000219_000397_000555_000533_000941_002755_001295_016157_030733_054279_168455,
  1_102182_000001_000003_000003_000001_000027_000041_000093_000177_000119_000581_000167_003943_005765_015455_000555_017419_033117_160599,
  1_102185_000001_000001_000003_000007_000015_000025_000029_000177_000503_000529_000229_002535_001493_000805_030983_026309_123453_118441,
  1_102199_000001_000001_000007_000015_000013_000033_000083_000151_000183_000433_000823_004003_001991_006563_018743_061835_056535_191193,
  1_102208_000001_000001_000001_000013_000009_000031_000091_000063_000455_000067_000243_001573_003507_009491_004677_013835_121603_241781,
  1_102213_000001_000001_000005_000005_000029_000013_000045_000029_000289_000909_001923_003371_003675_013119_024599_058511_109467_126865,
  1_102226_000001_000001_000005_000009_000021_000041_000041_000179_000025_000463_000949_000819_000397_012329_003461_034773_061337_023579,
  1_102290_000001_000003_000003_000011_000001_000025_000017_000165_000077_000455_001983_000143_002763_008165_014849_001601_030093_054599,
  1_102296_000001_000001_000007_000003_000007_000001_000117_000117_000053_000611_001405_003357_001717_008157_000247_017501_030201_192485,
  1_102306_000001_000001_000001_000005_000023_000047_000095_000173_000133_000603_001627_004039_005599_010575_030275_060287_003313_077551,
  1_102317_000001_000001_000001_000009_000031_000049_000087_000169_000221_000561_001045_000365_001955_009905_013057_033717_091203_057513,
  1_102337_000001_000003_000003_000001_000019_000025_000113_000231_000415_000717_001767_000755_004825_007541_010121_009351_072093_255877,
  1_102344_000001_000003_000001_000007_000001_000035_000003_000231_000345_000375_000809_002753_000849_013915_016127_007575_045259_028917,
  1_102350_000001_000003_000003_000011_000023_000043_000013_000037_000305_000765_000517_000333_000473_014949_011939_035171_063963_181825,
  1_102378_000001_000003_000003_000003_000005_000043_000035_000089_000293_000913_001325_002097_000603_014365_004005_038935_023837_034271,
  1_102383_000001_000001_000003_000015_000001_000047_000067_000199_000167_000909_001167_001513_007087_005017_023469_002621_024961_226679,
  1_102391_000001_000003_000007_000015_000023_000037_000111_000217_000033_000423_000457_001767_004821_010233_027045_033397_085351_156751,
  1_102400_000001_000003_000003_000007_000031_000025_000067_000065_000291_000169_001505_001707_004833_011541_001189_062959_059831_048729,
  1_102409_000001_000001_000005_000007_000027_000027_000015_000023_000189_000819_000709_003591_002781_014807_020303_027795_088349_210251,
  1_102427_000001_000003_000007_000015_000001_000019_000049_000103_000219_000085_001281_003981_007229_010427_011689_001547_090747_012283,
  1_102434_000001_000001_000001_000013_000031_000049_000081_000121_000287_000851_000333_000353_007373_010165_001157_011713_089445_210709,
  1_102453_000001_000003_000007_000005_000031_000035_000003_000229_000443_000973_001971_001861_005695_006725_006405_045927_115313_228667,
  1_102472_000001_000003_000003_000011_000029_000017_000105_000203_000069_000945_001239_003213_006005_010095_031233_037421_062911_091371,
  1_102502_000001_000001_000007_000001_000021_000059_000007_000043_000391_000299_001225_000283_003351_011495_025071_016619_065127_114033,
  1_102525_000001_000001_000003_000009_000017_000011_000071_000073_000377_000437_000311_001083_006941_001039_001047_055647_021239_209201,
  1_102547_000001_000003_000007_000005_000029_000051_000113_000163_000215_000511_000615_002427_002747_014389_001005_027015_031809_030603,
  1_102554_000001_000001_000001_000003_000009_000061_000009_000201_000259_000411_000175_001003_000401_013695_013103_003075_043695_177139,
  1_102560_000001_000001_000005_000003_000017_000047_000125_000173_000277_000017_000619_002295_003091_005615_004529_054065_081875_097279,
  1_102578_000001_000003_000003_000009_000003_000061_000097_000151_000287_000671_001439_001129_006343_008161_024593_040371_109705_106279,
  1_102580_000001_000003_000003_000001_000005_000061_000021_000031_000041_000855_001541_003351_000575_003195_017155_046913_001797_146401,
  1_102597_000001_000001_000007_000013_000011_000043_000027_000097_000479_000117_001873_003103_001947_009273_029171_035719_010601_209629,
  1_102616_000001_000003_000001_000009_000021_000047_000053_000129_000085_000505_000165_003437_005687_010289_006615_046719_050731_025271,
  1_102625_000001_000001_000003_000001_000001_000033_000037_000239_000045_000565_001907_003831_002177_010967_012689_049395_036289_247507,
  1_102632_000001_000001_000005_000001_000019_000057_000075_000245_000059_000967_001319_003971_005267_011713_015417_060503_063431_157267,
  1_102663_000001_000001_000005_000007_000007_000015_000099_000087_000331_000261_001973_000219_003063_004071_019273_048637_128089_055511,
  1_102669_000001_000003_000005_000013_000023_000043_000007_000171_000173_001023_001145_003551_005127_006365_018013_001613_051997_107265,
  1_102681_000001_000003_000005_000003_000007_000007_000023_000195_000251_000387_001889_003645_004221_006025_027291_024831_123749_231403]

def dirRows18_2_9 : List Nat := [
  1_102694_000001_000003_000001_000001_000029_000049_000107_000215_000093_000211_001349_001925_007149_001015_027465_034139_126149_121349,
  1_102706_000001_000001_000005_000005_000019_000015_000121_000189_000167_000801_000483_001955_008031_004749_026665_064791_018671_123221,
  1_102715_000001_000003_000003_000015_000023_000057_000015_000249_000197_000103_002021_001897_005975_012821_006441_062719_081415_232417,
  1_102723_000001_000001_000003_000009_000017_000045_000111_000225_000103_000121_001259_002849_002235_002041_013261_007929_076325_038677,
  1_102730_000001_000001_000003_000009_000025_000017_000063_000063_000369_000387_000031_001423_005699_012519_027407_053193_000963_123473,
  1_102743_000001_000003_000003_000013_000003_000059_000059_000003_000367_000357_001391_001519_002619_002291_001349_028275_021655_008763,
  1_102856_000001_000001_000007_000001_000031_000051_000121_000049_000157_000509_001513_003247_003439_008691_020729_017585_049013_228695,
  1_102870_000001_000001_000005_000009_000011_000029_000103_000049_000209_000035_000673_001409_002483_004561_012435_046139_031019_050929,
  1_102898_000001_000001_000003_000009_000011_000045_000077_000143_000277_000769_001151_003705_007901_003735_031155_046135_084061_254357,
  1_102926_000001_000003_000003_000003_000005_000051_000095_000007_000155_000121_001899_002261_002915_006637_006557_020535_020937_257275,
  1_102931_000001_000001_000007_000009_000013_000049_000125_000135_000007_000535_001171_003501_001701_005791_010121_009845_021645_056451,
  1_102938_000001_000001_000007_000005_000009_000001_000115_000027_000229_000813_000133_000753_001959_013121_030425_031059_114619_132257,
  1_102947_000001_000001_000005_000003_000023_000025_000041_000165_000021_000551_001751_003563_000731_015811_014777_022327_082853_116699,
  1_102968_000001_000003_000001_000009_000003_000025_000095_000211_000457_000025_000349_000921_000213_005721_026725_019541_102473_200845,
  1_102976_000001_000003_000001_000013_000005_000001_000031_000049_000493_000785_000061_002603_005997_012545_009793_032521_099859_256105,
  1_102993_000001_000003_000003_000007_000031_000019_000031_000121_000507_000079_000685_000197_004027_012909_030533_038427_038993_014581,
  1_103005_000001_000003_000007_000013_000013_000023_000063_000015_000223_000025_001957_002527_006061_011753_004835_034553_045579_205805,
  1_103019_000001_000003_000003_000003_000005_000039_000055_000123_000275_000185_000749_003227_008137_012959_007243_020613_046247_106127,
  1_103022_000001_000001_000007_000013_000001_000021_000049_000145_000237_000291_001721_002981_000267_001255_021817_039553_021937_115307,
  1_103057_000001_000001_000001_000015_000005_000063_000003_000201_000117_000991_001049_001975_005117_005799_028211_037907_046799_240847,
  1_103080_000001_000003_000003_000005_000025_000015_000029_000111_000201_000857_000319_002695_004251_004303_028495_012481_031979_107503,
  1_103100_000001_000001_000003_000011_000003_000027_000081_000055_000489_000983_000293_003181_004593_004759_018437_051185_047701_075469,
  1_103106_000001_000003_000001_000003_000011_000025_000113_000243_000365_000299_001717_000561_005173_005983_007453_033563_098519_162451,
  1_103126_000001_000003_000001_000005_000001_000021_000003_000087_000267_000483_001397_000791_004807_004649_013713_019861_110471_051443,
  1_103173_000001_000003_000007_000005_000031_000009_000013_000251_000351_000609_000841_003267_004201_008771_006673_044867_105221_189399,
  1_103202_000001_000001_000003_000001_000013_000043_000047_000153_000331_001013_000705_001867_000563_006361_007407_046243_030521_213831,
  1_103207_000001_000003_000003_000007_000029_000041_000003_000179_000319_000877_000905_003803_002775_009729_005673_009521_117887_037605,
  1_103219_000001_000001_000005_000005_000011_000049_000111_000195_000467_000931_000849_002785_007829_002291_029031_052019_086493_213971,
  1_103226_000001_000001_000003_000011_000013_000011_000081_000081_000419_000621_000181_001203_007305_007857_016885_002531_053127_035553,
  1_103228_000001_000001_000005_000001_000019_000035_000075_000131_000159_000211_000319_002805_006497_014759_028997_062347_004013_233821,
  1_103248_000001_000003_000003_000015_000001_000055_000107_000105_000035_000369_001259_000665_006717_002555_007149_010373_033153_105915,
  1_103274_000001_000003_000007_000005_000031_000013_000027_000207_000359_000355_002047_001777_005555_012659_030547_003655_086189_000961,
  1_103288_000001_000003_000007_000009_000009_000055_000007_000117_000057_000115_000745_000501_002341_003899_008229_010625_066905_187959,
  1_103291_000001_000003_000003_000013_000025_000043_000087_000197_000303_000405_001459_003385_004109_008325_024747_018405_048845_096673,
  1_103293_000001_000003_000005_000003_000021_000037_000109_000009_000183_000585_001287_003851_004939_001057_019489_042603_032447_117957,
  1_103324_000001_000001_000005_000013_000003_000047_000109_000115_000073_000733_001189_003773_007471_010339_005093_050253_122665_254381,
  1_103358_000001_000001_000005_000005_000021_000033_000113_000187_000051_000245_000241_003887_004075_011945_020883_018817_043567_000851,
  1_103372_000001_000003_000007_000003_000001_000029_000087_000101_000029_000093_000643_002659_001753_004797_017477_016087_043453_110383,
  1_103375_000001_000001_000007_000013_000017_000051_000075_000091_000445_000171_001369_000499_003753_014035_004445_021437_086205_231163,
  1_103390_000001_000001_000007_000013_000017_000041_000067_000049_000225_000659_001181_001751_005211_006847_020339_034271_060273_052315,
  1_103414_000001_000001_000005_000005_000005_000017_000087_000223_000025_000773_000053_002447_006805_006547_004429_046809_051171_066457,
  1_103432_000001_000001_000005_000003_000029_000049_000011_000205_000279_000821_000725_002425_000443_000211_006347_059845_090763_237911,
  1_103446_000001_000001_000003_000009_000031_000007_000049_000001_000229_000755_000517_000809_002955_003571_002385_033097_019659_055397,
  1_103455_000001_000003_000005_000003_000005_000021_000067_000227_000359_000401_001697_002131_004585_002661_003659_022621_051639_245877,
  1_103471_000001_000001_000007_000005_000011_000007_000057_000133_000009_000917_000427_002777_006009_011393_029473_059311_077095_176215,
  1_103474_000001_000001_000007_000005_000013_000029_000101_000015_000293_000007_000797_000437_003739_003369_016917_019047_017773_219541,
  1_103476_000001_000003_000001_000009_000013_000051_000015_000019_000209_000991_000413_000787_003797_014029_023699_008591_040429_056115,
  1_103515_000001_000003_000007_000003_000031_000009_000077_000033_000487_000155_001903_003023_008163_000385_004703_057511_102083_085785,
  1_103527_000001_000001_000005_000011_000017_000059_000115_000073_000089_000723_001523_002671_001755_003463_019861_031573_126405_090215,
  1_103542_000001_000003_000003_000013_000017_000027_000123_000037_000071_000173_000203_001245_007905_008955_022589_056705_120473_090129,
  1_103562_000001_000003_000003_000001_000017_000063_000055_000225_000259_000531_001493_002639_001319_010865_017993_011205_013253_111261,
  1_103569_000001_000001_000001_000011_000025_000017_000041_000045_000385_001009_001573_001797_000527_000543_014743_035789_063871_112183,
  1_103572_000001_000001_000007_000015_000015_000057_000109_000127_000143_000955_001091_002585_003429_011763_005849_053805_116865_068895,
  1_103581_000001_000001_000007_000015_000009_000011_000001_000009_000491_000765_001835_003825_005043_013091_004123_019621_017687_241015,
  1_103609_000001_000003_000005_000007_000025_000051_000117_000193_000091_000451_001871_003819_001881_008065_025809_036257_107955_037109,
  1_103612_000001_000003_000001_000015_000005_000005_000101_000007_000059_000859_000977_002673_002825_003291_026283_023467_028383_257775,
  1_103618_000001_000003_000003_000015_000017_000043_000087_000191_000085_000829_000653_000327_001773_010101_002707_018341_061435_242215,
  1_103637_000001_000003_000007_000013_000027_000043_000127_000253_000403_000081_000505_002841_001509_004951_023791_018099_046747_192717,
  1_103644_000001_000001_000001_000009_000031_000015_000127_000029_000171_000999_001919_004059_002781_002475_008997_015459_037003_217141,
  1_103653_000001_000003_000003_000001_000031_000041_000067_000031_000171_000719_000789_000645_003925_011117_001241_063221_001087_059789,
  1_103663_000001_000001_000001_000009_000017_000041_000107_000013_000405_000879_001955_003309_001281_010601_013883_043987_111691_130555,
  1_103671_000001_000003_000007_000009_000021_000017_000127_000243_000051_000689_001945_003769_007121_007703_016825_034893_032167_020167,
  1_103678_000001_000001_000001_000005_000007_000007_000061_000149_000075_000289_000717_001951_005917_013375_015683_027507_010897_199009,
  1_103695_000001_000003_000007_000009_000025_000061_000043_000167_000045_000299_000005_000125_003289_013685_010843_025535_098383_143401,
  1_103698_000001_000001_000003_000015_000021_000027_000037_000045_000233_000179_000611_003025_007887_009421_016791_017147_049013_033249,
  1_103720_000001_000003_000007_000015_000019_000043_000043_000009_000255_000295_000649_000811_001303_001989_005401_053891_042679_066879,
  1_103723_000001_000001_000007_000007_000025_000031_000089_000199_000455_000733_000295_001157_004375_007341_007823_006025_056311_257579,
  1_103738_000001_000001_000007_000003_000001_000051_000015_000029_000035_000917_001839_000741_001089_008615_004967_034047_032981_200693,
  1_103743_000001_000003_000003_000011_000021_000013_000071_000053_000315_000801_001015_003829_002297_006649_028501_018173_083121_107195,
  1_103745_000001_000001_000007_000007_000001_000005_000127_000103_000435_000707_000007_001045_000187_010927_032395_024999_058463_094069,
  1_103757_000001_000001_000007_000009_000011_000025_000073_000057_000231_000455_001033_002899_002861_008811_021671_016115_097807_221791,
  1_103810_000001_000003_000005_000011_000011_000019_000105_000037_000181_000001_001231_002275_004789_013071_024843_025901_123711_145609,
  1_103822_000001_000003_000007_000013_000007_000007_000021_000215_000393_000043_001713_002921_001959_014417_017109_055793_036285_081731,
  1_103855_000001_000001_000005_000015_000029_000015_000005_000115_000015_000795_001535_002473_003663_010123_020721_032739_021141_217731,
  1_103887_000001_000001_000003_000001_000015_000013_000021_000049_000293_000689_000985_003949_003329_007167_016925_015069_047345_192749,
  1_103905_000001_000003_000003_000007_000005_000027_000085_000011_000337_000651_000777_001775_005279_015229_021473_036561_085293_027893,
  1_103915_000001_000003_000007_000001_000015_000029_000007_000199_000071_000893_001587_001831_003891_003299_014323_023165_028199_084055,
  1_103925_000001_000001_000001_000007_000009_000027_000015_000075_000497_000127_000433_001781_003711_012659_003765_040827_112425_036281,
  1_103929_000001_000001_000005_000001_000031_000059_000009_000091_000301_000217_002013_002015_000265_003795_014609_013389_005451_260169,
  1_103945_000001_000001_000001_000015_000019_000043_000085_000037_000033_000687_001253_002615_004027_003741_013971_021261_106261_204233,
  1_103954_000001_000001_000007_000009_000031_000045_000105_000111_000207_000433_000633_003949_008057_005049_023657_012227_086251_218077,
  1_103969_000001_000003_000005_000011_000013_000033_000001_000067_000117_000595_001835_000287_002509_014841_001525_015761_061319_182531,
  1_104011_000001_000001_000003_000009_000007_000043_000105_000085_000017_000349_001769_003945_000031_004907_009373_022447_070905_029189,
  1_104055_000001_000001_000005_000005_000009_000019_000093_000179_000095_000255_001807_002717_004757_015025_019479_063499_042441_236519,
  1_104111_000001_000001_000001_000001_000021_000035_000001_000101_000343_001023_001311_000347_000301_008419_023367_031543_051661_148277,
  1_104116_000001_000001_000007_000011_000023_000037_000113_000207_000147_000743_001905_001683_003733_005659_022491_062129_111671_227019,
  1_104125_000001_000001_000003_000013_000027_000005_000021_000207_000445_000319_001355_002541_002853_000583_001261_064477_018337_091611,
  1_104145_000001_000003_000005_000003_000001_000031_000051_000055_000487_000735_001599_000523_005323_010855_028717_062103_018671_143885,
  1_104162_000001_000003_000001_000001_000015_000005_000079_000107_000173_000747_001213_001151_000875_012759_027115_016403_031349_208909,
  1_104176_000001_000003_000005_000009_000013_000057_000035_000121_000135_000237_001707_003655_008109_003623_005119_027645_049401_046453,
  1_104193_000001_000003_000007_000011_000027_000003_000103_000231_000043_000515_001279_000499_001355_002605_011587_033641_081661_029441,
  1_104199_000001_000003_000005_000007_000013_000027_000055_000191_000081_000185_000527_000519_004555_003349_024533_060635_040009_230761,
  1_104224_000001_000001_000005_000003_000013_000035_000075_000211_000067_000305_000705_000543_003819_016265_009867_064309_035047_024873,
  1_104236_000001_000003_000001_000001_000011_000037_000075_000003_000145_000327_001243_003291_007127_005009_007757_059567_090459_098035,
  1_104247_000001_000003_000005_000009_000009_000005_000071_000029_000243_000041_000447_002597_001243_012899_019681_030523_090799_142279,
  1_104254_000001_000003_000003_000003_000015_000021_000025_000101_000451_000651_000143_003899_003377_004855_023843_025047_087951_239229,
  1_104289_000001_000001_000001_000001_000023_000029_000025_000031_000227_000043_000399_000723_000693_012379_011343_046123_105435_224997,
  1_104325_000001_000001_000007_000003_000021_000047_000077_000057_000397_000689_000267_000813_001279_001727_007451_034025_090273_111663,
  1_104332_000001_000001_000005_000003_000025_000061_000007_000137_000271_000723_000495_002575_003695_004947_031973_047835_107003_221839,
  1_104335_000001_000003_000001_000007_000005_000025_000021_000095_000323_000003_000613_001721_002551_008803_006803_052765_034543_110945]

def dirRows18_2_10 : List Nat := [
  1_104353_000001_000003_000005_000009_000027_000023_000123_000193_000063_000161_001395_000679_000161_013719_029321_019243_051947_229547,
  1_104363_000001_000003_000005_000015_000015_000037_000127_000103_000439_000513_000989_001393_003761_009109_020649_018171_069939_117447,
  1_104371_000001_000001_000007_000009_000007_000057_000087_000159_000195_000821_000057_002469_007693_006759_032595_041109_094785_053381,
  1_104373_000001_000003_000003_000007_000017_000063_000041_000007_000437_000469_001453_003741_007591_005563_011819_023861_129777_119731,
  1_104406_000001_000001_000003_000003_000027_000055_000021_000145_000243_000991_000687_000909_002105_004485_009095_003677_053819_183027,
  1_104412_000001_000001_000001_000015_000013_000061_000027_000081_000095_000037_001439_000973_007613_005749_016811_026801_105745_008847,
  1_104440_000001_000003_000001_000009_000015_000017_000111_000061_000027_000373_000089_002729_006397_004899_011297_004403_030657_207379,
  1_104459_000001_000003_000005_000015_000019_000009_000019_000019_000497_000667_000105_000601_006715_006355_004231_019241_101771_105651,
  1_104461_000001_000001_000003_000009_000011_000011_000115_000109_000177_000753_000997_002119_005969_013377_013285_025373_105023_158393,
  1_104469_000001_000003_000005_000015_000027_000023_000019_000117_000129_000457_001973_002171_008071_002093_013407_009295_082967_184753,
  1_104479_000001_000001_000007_000005_000001_000045_000009_000025_000307_000629_001169_002859_003987_011411_013609_044993_026019_107003,
  1_104483_000001_000001_000001_000013_000029_000015_000013_000163_000203_000885_000281_001605_008001_000899_004081_065467_061283_198963,
  1_104490_000001_000001_000003_000005_000027_000009_000089_000193_000375_000633_001807_002069_003467_003167_023751_039115_090093_190365,
  1_104500_000001_000003_000003_000005_000001_000001_000019_000161_000021_000745_000493_002227_007993_003337_027041_004817_058963_237015,
  1_104536_000001_000003_000005_000015_000015_000045_000051_000145_000299_000787_001059_002407_001143_000775_017473_022235_018241_103897,
  1_104560_000001_000001_000001_000009_000011_000035_000075_000195_000281_000935_000113_003009_004797_007221_012475_018563_010315_255541,
  1_104569_000001_000001_000005_000007_000025_000009_000121_000179_000303_000511_002041_001485_000529_013843_029013_028139_063237_021259,
  1_104588_000001_000003_000007_000011_000009_000021_000061_000177_000063_000179_000679_000017_004069_008929_014499_053913_027925_048449,
  1_104591_000001_000003_000005_000003_000009_000027_000111_000247_000253_000175_001591_003583_003351_009039_000597_023859_126585_157367,
  1_104621_000001_000001_000007_000009_000001_000009_000029_000001_000273_000089_000767_001873_000039_010487_029857_023577_067457_044571,
  1_104661_000001_000001_000007_000005_000005_000023_000013_000181_000283_000333_000021_001409_005937_008981_007445_061267_021729_032677,
  1_104675_000001_000003_000001_000015_000031_000005_000045_000253_000179_000091_000341_000359_004269_007567_023699_030589_042909_126171,
  1_104684_000001_000003_000007_000007_000023_000045_000015_000093_000115_000873_000049_000845_000827_014357_020163_041565_037105_120331,
  1_104713_000001_000001_000007_000007_000015_000025_000055_000175_000011_000457_001537_001937_000807_011399_027751_016935_075231_204039,
  1_104747_000001_000003_000007_000013_000001_000037_000067_000145_000471_001013_001273_004093_004449_004433_029063_000205_093249_140383,
  1_104750_000001_000003_000001_000013_000001_000057_000085_000223_000349_000125_000863_002179_007813_008817_001767_019169_041367_065883,
  1_104757_000001_000003_000003_000015_000021_000039_000003_000031_000067_000505_000271_000505_005495_004183_003631_004567_048061_149565,
  1_104775_000001_000001_000007_000011_000013_000039_000109_000201_000287_001013_001505_003105_003845_001963_004361_061753_029145_146235,
  1_104782_000001_000003_000005_000003_000029_000039_000071_000099_000501_000053_000835_003295_005335_001017_025913_063637_115353_210509,
  1_104803_000001_000003_000001_000013_000009_000053_000033_000177_000419_000063_000793_001329_002261_011633_018805_049771_047533_074949,
  1_104820_000001_000003_000007_000011_000007_000049_000123_000237_000195_000017_001919_001911_004135_011829_026307_034905_114361_228655,
  1_104824_000001_000003_000005_000003_000005_000057_000065_000161_000195_000857_001187_002303_001975_002555_026065_017963_057403_136193,
  1_104829_000001_000001_000003_000011_000001_000005_000105_000217_000229_000769_001393_002419_007751_014293_009407_004569_030663_089345,
  1_104830_000001_000003_000003_000007_000023_000015_000015_000189_000067_000863_000485_002435_005145_010537_016485_050369_118245_253201,
  1_104836_000001_000001_000001_000005_000027_000027_000047_000129_000383_000227_000115_003027_001575_015765_010207_004885_125707_184703,
  1_104851_000001_000003_000005_000005_000017_000009_000045_000055_000151_000751_000415_002139_008071_002309_027641_029743_047183_021437,
  1_104882_000001_000003_000003_000007_000009_000047_000051_000031_000261_000237_001695_001065_004503_007167_025791_039659_090145_130481,
  1_104920_000001_000001_000003_000003_000021_000027_000053_000249_000407_000779_001315_001005_006953_014959_002265_061645_118623_254067,
  1_104941_000001_000003_000001_000009_000013_000025_000033_000225_000467_000325_001513_001237_001569_008749_001587_004699_019893_163597,
  1_104963_000001_000003_000005_000005_000029_000029_000001_000055_000437_000575_000149_000791_004243_004405_022963_064125_021631_025819,
  1_104989_000001_000003_000005_000003_000025_000009_000019_000027_000419_000139_002035_002065_001925_011499_020053_013161_015115_120891,
  1_104999_000001_000001_000005_000009_000007_000009_000113_000003_000195_000555_000863_000595_006569_009819_014727_038285_013737_130903,
  1_105006_000001_000001_000003_000007_000019_000017_000035_000107_000489_000285_000247_003103_002919_011163_002811_062081_042989_024495,
  1_105040_000001_000003_000001_000015_000017_000005_000123_000221_000117_000689_001567_003803_005801_014121_023263_008851_041559_226271,
  1_105066_000001_000001_000001_000015_000021_000039_000087_000135_000485_000059_001899_002483_002599_008783_006129_055407_007291_217117,
  1_105089_000001_000001_000003_000011_000027_000053_000045_000241_000051_000829_000121_003047_006785_015127_013923_047913_009087_112005,
  1_105120_000001_000001_000001_000013_000005_000009_000045_000037_000235_000497_000871_001471_002895_000247_009085_039611_063445_218391,
  1_105125_000001_000001_000005_000003_000005_000029_000023_000155_000339_000293_000535_001569_002625_002867_004639_053049_088721_096903,
  1_105137_000001_000001_000003_000015_000005_000025_000017_000045_000047_000683_000949_001381_005929_009539_003345_059883_019071_200411,
  1_105179_000001_000001_000001_000011_000011_000005_000071_000015_000469_000749_001763_000541_007109_011731_008463_035145_121795_219441,
  1_105215_000001_000003_000007_000011_000005_000017_000063_000159_000069_000993_001519_001531_006913_003901_022131_042909_041299_261813,
  1_105244_000001_000001_000003_000005_000021_000027_000027_000197_000339_000275_002011_002263_000855_001939_021561_030577_006515_124417,
  1_105258_000001_000003_000005_000015_000025_000035_000091_000031_000269_000857_000327_003643_003211_014401_018399_009007_012897_025555,
  1_105263_000001_000001_000007_000015_000019_000047_000127_000157_000407_000867_000943_001509_003113_000049_032131_046975_130013_066457,
  1_105280_000001_000003_000003_000013_000031_000045_000059_000135_000067_000825_000157_002441_002851_002355_028115_014075_106317_145945,
  1_105286_000001_000001_000001_000015_000027_000027_000005_000211_000085_000749_000671_001341_006865_010027_014419_020159_126647_147893,
  1_105380_000001_000001_000001_000007_000025_000049_000115_000231_000065_000161_001409_000573_002859_000639_012567_058459_073781_136893,
  1_105397_000001_000001_000001_000007_000011_000057_000097_000141_000327_000975_001799_003051_000365_009331_014583_016723_113153_224127,
  1_105409_000001_000003_000001_000013_000013_000017_000105_000109_000151_000041_001903_001685_002285_005697_016559_034133_106045_203217,
  1_105427_000001_000001_000001_000003_000029_000061_000043_000255_000269_000277_001847_003781_007991_000131_009833_034305_010763_041869,
  1_105452_000001_000001_000007_000003_000011_000001_000085_000089_000247_000099_000419_002041_003729_010301_005291_036033_031749_261871,
  1_105469_000001_000003_000007_000009_000027_000027_000041_000003_000303_000893_000697_001631_005015_004233_022827_003913_022245_121193,
  1_105472_000001_000003_000003_000013_000019_000011_000015_000239_000419_000123_001213_000185_004465_004909_025421_018363_072537_167939,
  1_105477_000001_000001_000003_000005_000013_000049_000057_000197_000019_000877_001465_002933_005909_007147_001039_037035_091209_126013,
  1_105490_000001_000001_000003_000005_000023_000007_000063_000179_000059_000047_001501_001863_002949_013959_028131_029705_107975_155251,
  1_105505_000001_000001_000001_000005_000025_000051_000077_000169_000327_000585_001531_003367_003075_006313_026725_000453_068635_173787,
  1_105529_000001_000003_000007_000009_000005_000015_000043_000045_000311_000367_000297_002249_007507_004785_022685_037279_121683_141453,
  1_105530_000001_000003_000007_000015_000017_000033_000043_000251_000281_000345_001659_003729_007629_006179_026107_064255_088003_002545,
  1_105604_000001_000003_000007_000009_000017_000013_000071_000049_000341_000495_001975_000173_005773_003821_006615_050917_053781_075557,
  1_105614_000001_000001_000005_000013_000017_000021_000121_000035_000195_000367_001191_001331_006423_008425_007705_059117_044575_225431,
  1_105622_000001_000001_000001_000005_000025_000039_000089_000065_000449_000491_000211_002949_004493_000023_022571_004801_050525_222563,
  1_105625_000001_000001_000007_000005_000007_000021_000015_000171_000443_000225_000577_001841_008139_015071_006095_060185_071957_244753,
  1_105652_000001_000001_000005_000009_000031_000033_000021_000195_000415_001003_000441_000627_002339_008245_011187_055933_059045_177455,
  1_105687_000001_000001_000003_000009_000031_000029_000007_000015_000031_000577_001435_001317_002923_003807_029693_045857_061787_213565,
  1_105693_000001_000003_000007_000015_000017_000051_000065_000087_000295_000811_000753_001113_007695_000275_028331_046363_053247_166993,
  1_105707_000001_000001_000005_000011_000015_000031_000031_000047_000273_000383_001831_003821_001337_013257_000415_035453_015293_173095,
  1_105721_000001_000003_000001_000013_000019_000021_000063_000199_000159_000475_001257_003119_007083_002861_021099_016873_083583_186289,
  1_105730_000001_000001_000007_000013_000015_000023_000011_000103_000387_000899_000261_002863_003681_005683_005587_064655_007411_148633,
  1_105736_000001_000003_000001_000013_000001_000045_000005_000173_000379_000287_001451_002253_003811_010963_020285_059681_081285_048523,
  1_105753_000001_000001_000005_000009_000027_000017_000057_000025_000499_000289_001083_003057_000793_005251_010519_036647_067751_237487,
  1_105759_000001_000001_000003_000001_000017_000013_000023_000073_000001_000951_000111_003769_003611_004827_010081_055919_021411_127303,
  1_105760_000001_000003_000001_000001_000029_000035_000093_000139_000179_000217_001839_001907_004365_001813_031985_028927_039319_233413,
  1_105802_000001_000001_000001_000007_000007_000047_000037_000127_000449_000473_000311_003833_003263_004163_015985_050159_082685_073273,
  1_105822_000001_000001_000001_000003_000003_000005_000069_000095_000101_000115_001575_000063_001897_013733_022149_008793_082983_192553,
  1_105832_000001_000003_000001_000005_000003_000057_000121_000013_000291_000975_000505_003105_006929_012737_025869_029173_016757_017733,
  1_105865_000001_000001_000003_000013_000013_000023_000051_000051_000239_000795_000877_001547_006533_011497_014309_032941_128109_187313,
  1_105873_000001_000001_000003_000005_000019_000037_000057_000223_000509_000379_001235_001881_004133_013219_005479_036781_056155_231001,
  1_105874_000001_000001_000001_000005_000025_000045_000111_000183_000037_000875_001487_003771_005593_006835_010921_040697_114455_259491,
  1_105880_000001_000001_000003_000011_000013_000005_000043_000047_000007_000435_001543_003835_001631_008889_023567_024705_026687_014261,
  1_105899_000001_000003_000003_000011_000001_000013_000051_000171_000433_001011_000679_001307_001683_007379_007163_029727_040209_259973,
  1_105902_000001_000003_000001_000005_000025_000033_000111_000011_000303_000815_001883_000263_007907_012637_019203_064151_055739_240509,
  1_105909_000001_000003_000005_000007_000023_000051_000003_000183_000425_000047_000231_000807_001891_010943_017873_020209_060871_030269,
  1_105919_000001_000001_000001_000001_000001_000023_000011_000183_000351_000005_000037_003883_001291_015933_011379_053057_061389_240547,
  1_105922_000001_000003_000001_000005_000007_000053_000097_000029_000239_000805_001929_001001_005103_000011_024695_007825_109755_254717,
  1_105946_000001_000003_000003_000011_000015_000037_000115_000117_000391_000313_001761_003627_003931_010277_001767_025401_123827_060463,
  1_105975_000001_000001_000007_000009_000009_000061_000023_000065_000473_000579_001979_000415_000629_003613_027409_046909_003281_003883,
  1_105992_000001_000003_000003_000013_000025_000017_000071_000247_000297_000451_000153_001949_002727_006427_019815_054013_129363_248237,
  1_106005_000001_000001_000007_000007_000029_000009_000057_000171_000159_000287_000693_001365_004665_005255_015013_021225_125409_005893,
  1_106057_000001_000003_000003_000001_000009_000043_000013_000139_000359_000267_000115_002025_000693_004789_010353_060459_030835_056575,
  1_106081_000001_000001_000001_000007_000023_000035_000035_000077_000245_000705_000075_002841_001683_006109_019661_049021_025019_007297]

def dirRows18_2_11 : List Nat := [
  1_106093_000001_000003_000001_000005_000001_000019_000049_000053_000019_000435_001471_000409_007051_007057_003621_042925_059551_070941,
  1_106117_000001_000003_000007_000005_000021_000027_000039_000221_000389_000255_000537_000597_007729_010473_006657_013261_011303_112409,
  1_106127_000001_000003_000007_000013_000029_000029_000081_000107_000329_000025_000537_000561_002247_010371_030031_020537_028437_113319,
  1_106135_000001_000001_000005_000009_000009_000007_000089_000155_000337_000829_000755_003259_003563_011849_031179_043297_079601_187545,
  1_106141_000001_000003_000003_000005_000011_000063_000101_000159_000357_000627_000587_003233_000405_004083_005953_044541_110723_240573,
  1_106189_000001_000001_000003_000015_000005_000039_000087_000231_000455_000195_001603_000315_003869_006375_000745_028349_056469_119033,
  1_106190_000001_000001_000007_000001_000011_000007_000079_000047_000391_000585_001299_003237_007345_015959_004293_043285_111737_215923,
  1_106197_000001_000001_000003_000015_000021_000053_000113_000073_000265_000589_000299_000289_003983_001653_017407_015287_053199_044221,
  1_106214_000001_000003_000001_000003_000001_000013_000031_000041_000509_000523_000401_002647_002731_005699_015649_051737_081249_230865,
  1_106237_000001_000003_000005_000003_000015_000053_000091_000209_000249_000243_001119_002531_000319_009259_026555_059579_028767_235073,
  1_106245_000001_000001_000001_000013_000029_000025_000057_000003_000413_000945_000841_001151_007167_002545_007283_003947_109375_148677,
  1_106257_000001_000003_000003_000007_000029_000027_000081_000141_000021_000771_000577_000897_000073_013081_030035_049213_090627_007483,
  1_106300_000001_000003_000001_000013_000023_000011_000019_000159_000183_000789_000683_002071_007107_003025_027333_009571_069621_048529,
  1_106335_000001_000003_000001_000009_000005_000043_000007_000123_000341_000075_001709_000135_007929_014563_006849_032783_091971_223789,
  1_106351_000001_000001_000007_000003_000019_000013_000045_000229_000007_000559_001895_002649_007593_001063_017715_045019_029743_037819,
  1_106370_000001_000001_000005_000003_000011_000025_000011_000169_000249_000415_000249_000209_002223_005947_023381_012109_037697_131729,
  1_106375_000001_000001_000001_000007_000019_000047_000125_000117_000235_000825_000801_000921_002363_001261_020529_065445_055315_173561,
  1_106376_000001_000001_000001_000001_000005_000039_000031_000011_000239_000333_000727_003991_001453_002201_018129_003513_112057_109673,
  1_106384_000001_000001_000007_000005_000021_000059_000037_000255_000261_000001_001401_001101_001233_003813_022809_039389_066263_191623,
  1_106403_000001_000003_000001_000007_000005_000051_000073_000085_000319_000671_001149_001631_006021_010711_003813_036485_106147_202021,
  1_106405_000001_000003_000003_000013_000007_000063_000059_000253_000337_000453_000061_000209_002809_010429_028069_055971_057985_244779,
  1_106406_000001_000001_000001_000009_000027_000059_000045_000101_000427_000713_001667_002965_006161_001235_008793_002387_066031_085151,
  1_106429_000001_000001_000003_000001_000005_000025_000101_000007_000449_000149_000823_000725_006803_011949_013009_014785_045633_241957,
  1_106447_000001_000003_000007_000015_000029_000045_000103_000151_000159_000023_001353_003541_005909_004173_031391_016179_038289_206603,
  1_106466_000001_000001_000007_000007_000023_000003_000097_000029_000141_000383_000379_003189_004399_004545_030797_055827_126223_097049,
  1_106495_000001_000003_000003_000007_000025_000035_000061_000015_000349_000929_000065_003697_007637_012239_029051_036001_114513_151069,
  1_106532_000001_000003_000003_000011_000019_000001_000023_000245_000009_000689_001251_001043_002393_015817_031561_021059_003435_228091,
  1_106542_000001_000003_000007_000003_000023_000017_000121_000147_000427_000047_000905_003877_002301_015709_013599_048895_108955_053219,
  1_106547_000001_000003_000007_000003_000025_000031_000053_000143_000001_000841_001691_000749_006713_005373_023487_025749_013911_240923,
  1_106564_000001_000003_000005_000003_000007_000039_000101_000083_000159_000187_000583_000721_007745_001119_000061_027319_035157_241729,
  1_106576_000001_000001_000005_000011_000027_000021_000079_000199_000179_000463_000987_003909_001741_000503_012339_015323_004063_180337,
  1_106586_000001_000003_000007_000011_000023_000043_000007_000115_000489_000215_000209_003213_004057_013221_027061_052037_034921_036385,
  1_106592_000001_000001_000007_000001_000015_000013_000113_000055_000207_000839_001939_004095_005629_007647_012753_059739_060779_196589,
  1_106597_000001_000001_000001_000005_000005_000013_000113_000243_000297_000513_001615_001513_001247_004025_020901_044775_086987_075437,
  1_106610_000001_000001_000003_000007_000007_000035_000077_000115_000223_000929_001683_000949_002191_015533_029471_024103_102475_173027,
  1_106612_000001_000003_000001_000011_000023_000037_000007_000179_000287_000267_000319_003147_001481_012297_028185_051423_007505_236225,
  1_106635_000001_000001_000003_000005_000027_000005_000071_000095_000289_000121_000939_003543_000365_004903_010091_003903_111155_083517,
  1_106640_000001_000001_000007_000009_000029_000003_000087_000245_000313_000973_001181_003389_003697_013237_013703_031557_017269_017329,
  1_106673_000001_000001_000005_000011_000005_000041_000117_000051_000239_000907_000809_000741_005327_003403_011825_046981_093485_038053,
  1_106691_000001_000001_000007_000001_000025_000041_000005_000169_000011_000599_001451_002189_007255_008441_011169_058313_004387_000069,
  1_106724_000001_000003_000001_000013_000005_000021_000075_000229_000153_000355_001511_000175_004793_012111_025321_039983_084205_195003,
  1_106731_000001_000001_000007_000001_000017_000061_000067_000181_000069_000149_000921_001107_006319_000431_029481_012507_013109_029527,
  1_106741_000001_000001_000005_000005_000027_000047_000069_000119_000469_000193_000513_001573_007421_002723_020997_059585_049645_261259,
  1_106748_000001_000001_000003_000009_000027_000041_000041_000003_000181_000803_001281_002937_006745_005629_008403_018987_098411_128321,
  1_106765_000001_000003_000003_000009_000005_000029_000055_000223_000309_000841_001049_001163_003497_008935_008529_051367_090693_077463,
  1_106789_000001_000003_000005_000003_000003_000059_000023_000031_000309_000907_000107_003471_004365_014463_024093_035435_024587_151163,
  1_106822_000001_000003_000003_000001_000011_000037_000099_000095_000485_000601_001797_000891_005645_008927_022085_005185_018495_260455,
  1_106856_000001_000003_000007_000015_000031_000061_000005_000177_000159_000287_000311_001377_001419_004387_025297_022505_100937_223785,
  1_106861_000001_000003_000003_000003_000027_000031_000045_000171_000095_000507_001475_004013_002781_000133_006857_003367_103455_069559,
  1_106870_000001_000003_000003_000007_000009_000051_000047_000247_000213_000665_001929_002799_005513_009183_020197_014831_075277_187565,
  1_106883_000001_000003_000001_000009_000013_000011_000015_000253_000145_000031_000847_001579_005513_000009_003327_046049_016709_056353,
  1_106895_000001_000003_000003_000003_000009_000017_000059_000131_000003_000621_001209_003415_002999_000127_000629_007925_006109_059743,
  1_106928_000001_000001_000005_000015_000029_000035_000087_000197_000495_000671_000051_000293_003943_007969_004739_010161_119943_097217,
  1_106938_000001_000001_000001_000009_000025_000057_000061_000197_000139_000899_000783_003835_003407_016301_019033_033359_056309_016237,
  1_106979_000001_000001_000005_000011_000025_000047_000095_000121_000197_000511_000227_002281_005805_010581_014885_019685_028075_025431,
  1_106985_000001_000001_000003_000009_000001_000043_000059_000105_000319_000045_001567_000905_007641_002199_003979_013717_022829_044777,
  1_107005_000001_000003_000007_000001_000019_000049_000105_000053_000227_000293_000989_000697_002553_004561_014851_008999_074815_207475,
  1_107012_000001_000001_000005_000011_000023_000003_000085_000029_000419_000847_001385_003857_000641_014951_025629_018019_002497_024723,
  1_107019_000001_000003_000005_000015_000005_000011_000051_000225_000179_000695_000787_000663_007051_003595_004987_053315_088693_007915,
  1_107045_000001_000003_000001_000013_000017_000051_000051_000247_000431_000555_000603_003301_000443_000629_026509_032047_054433_208297,
  1_107052_000001_000003_000007_000007_000013_000041_000095_000105_000135_000443_000377_001259_003301_006945_011677_033869_107799_186567,
  1_107082_000001_000001_000005_000007_000031_000017_000085_000129_000409_000781_000983_000025_006877_000083_012625_031919_041989_055195,
  1_107089_000001_000001_000003_000003_000007_000045_000037_000045_000237_000967_001371_000657_007983_003121_032707_025757_049987_092683,
  1_107118_000001_000003_000001_000001_000019_000057_000063_000025_000355_000893_002017_001671_007343_004451_028243_022157_103901_178017,
  1_107163_000001_000003_000007_000013_000017_000059_000081_000099_000329_000117_001395_002565_005725_002371_000343_004713_035077_049793,
  1_107202_000001_000003_000007_000015_000031_000019_000087_000243_000411_000339_001063_000117_001827_001583_012571_023153_003363_081695,
  1_107238_000001_000003_000007_000001_000003_000049_000095_000133_000295_000433_001885_000843_006679_013673_032277_059085_046957_217037,
  1_107242_000001_000001_000003_000009_000023_000053_000045_000183_000079_000055_001267_000283_003249_004101_008107_054473_126141_127235,
  1_107244_000001_000003_000005_000007_000019_000057_000113_000205_000037_000817_000929_003643_002231_015725_001733_007877_116741_254529,
  1_107264_000001_000003_000001_000009_000009_000007_000075_000045_000083_000203_001401_000445_001043_000239_030865_032189_091081_180681,
  1_107273_000001_000001_000007_000007_000001_000003_000061_000255_000483_000599_000897_001601_005189_013279_004981_037235_117505_066625,
  1_107291_000001_000001_000003_000013_000029_000043_000065_000073_000213_000307_000959_002735_005155_016063_015745_006225_050159_182445,
  1_107293_000001_000001_000003_000009_000031_000061_000073_000185_000457_000687_001887_004041_003455_004739_016399_040929_032631_179031,
  1_107312_000001_000003_000003_000015_000005_000045_000001_000241_000187_000023_000063_002497_007759_009175_011003_040579_045769_107133,
  1_107318_000001_000003_000003_000007_000005_000063_000007_000067_000031_000917_001825_002037_002527_009767_002665_018573_014289_021583,
  1_107335_000001_000001_000005_000015_000015_000025_000051_000127_000261_000925_001651_000769_007779_007327_007239_020437_009947_144697,
  1_107349_000001_000001_000005_000001_000005_000013_000099_000007_000269_000135_000345_001851_007963_000457_024573_032529_127359_157755,
  1_107350_000001_000003_000005_000015_000021_000017_000031_000115_000321_000351_000117_001301_002455_003363_014213_062903_075273_261119,
  1_107363_000001_000003_000007_000001_000001_000009_000053_000209_000319_000489_000827_001365_004709_007419_028213_056095_009611_234877,
  1_107390_000001_000001_000005_000005_000001_000007_000049_000015_000377_000309_001701_001775_005571_012437_027521_054753_068977_138549,
  1_107405_000001_000001_000003_000011_000009_000029_000067_000021_000411_000647_000983_001075_002387_013355_001781_056129_087235_260133,
  1_107408_000001_000003_000001_000011_000005_000057_000071_000159_000345_000853_000745_003733_001607_007265_020097_018911_101141_070495,
  1_107427_000001_000001_000003_000009_000001_000043_000127_000127_000471_000465_001777_001879_004655_012925_024935_058445_078303_200463,
  1_107433_000001_000001_000001_000015_000005_000033_000063_000017_000401_000831_001559_003547_007869_013901_018185_009399_065859_185315,
  1_107444_000001_000003_000007_000001_000025_000021_000017_000175_000401_000833_000847_003593_001283_014745_011827_001987_089299_187369,
  1_107514_000001_000001_000007_000013_000029_000031_000045_000219_000177_000369_001313_003015_005859_001829_008793_049109_097581_233179,
  1_107522_000001_000003_000003_000015_000017_000031_000061_000215_000231_000495_001307_003067_003187_008813_022505_014055_030773_177955,
  1_107545_000001_000003_000007_000015_000009_000061_000057_000105_000089_000267_000233_000905_003727_001841_031875_032499_027003_208491,
  1_107582_000001_000003_000001_000011_000031_000009_000063_000055_000213_000209_001625_002635_004335_015201_006127_011097_037991_062813,
  1_107590_000001_000001_000001_000005_000013_000049_000127_000249_000339_000525_001943_002935_003255_005199_006869_006325_000731_051085,
  1_107593_000001_000001_000005_000007_000007_000029_000059_000187_000463_000409_001321_000377_007361_008303_020385_039649_081379_235555,
  1_107599_000001_000001_000005_000013_000015_000045_000099_000057_000217_000535_001747_004081_004781_001005_025197_023853_090587_189579,
  1_107604_000001_000001_000007_000007_000023_000031_000001_000151_000339_000447_000523_002609_005917_006965_025815_062797_104083_245917,
  1_107608_000001_000003_000005_000003_000007_000037_000079_000253_000423_000511_001477_003121_005557_001413_031075_022249_117639_243543,
  1_107627_000001_000001_000003_000007_000005_000031_000093_000117_000135_000235_000745_003287_004451_002487_015179_062229_018247_150277,
  1_107638_000001_000001_000007_000015_000031_000057_000125_000219_000433_000629_001809_002499_006083_007631_031495_063183_028533_120579,
  1_107666_000001_000001_000001_000013_000031_000047_000077_000073_000343_000867_001055_001121_003035_015693_006971_050231_016527_190795,
  1_107678_000001_000003_000007_000007_000011_000001_000005_000215_000087_000885_001429_001277_003831_009341_022011_034585_056167_065301,
  1_107701_000001_000003_000001_000015_000013_000053_000091_000059_000277_000819_000453_003191_000757_004729_020605_004283_110745_233655,
  1_107720_000001_000003_000003_000005_000017_000047_000069_000117_000113_000775_000935_001879_002239_005877_018337_050895_044891_002759]

def dirRows18_2_12 : List Nat := [
  1_107723_000001_000003_000005_000001_000027_000031_000077_000065_000355_000405_000825_002419_003337_010179_027665_035459_013721_154227,
  1_107725_000001_000003_000003_000007_000023_000061_000009_000241_000239_000085_000485_002659_005371_016175_028691_049109_124433_167033,
  1_107731_000001_000003_000003_000003_000011_000057_000037_000155_000443_000249_001913_001347_006569_005357_004231_058273_050707_057097,
  1_107737_000001_000001_000003_000003_000001_000007_000087_000115_000259_000807_000045_002997_000063_016313_012507_039925_017699_024411,
  1_107767_000001_000003_000003_000001_000019_000059_000097_000209_000247_000395_000021_001803_002547_011607_015703_058099_111907_196101,
  1_107779_000001_000001_000007_000013_000027_000061_000073_000183_000493_000953_000445_000567_007373_015275_030081_000539_089365_003455,
  1_107788_000001_000003_000001_000003_000025_000035_000003_000105_000243_000781_001937_002781_007849_002159_002221_058005_089313_182183,
  1_107799_000001_000001_000007_000015_000021_000007_000067_000163_000179_000453_000581_002245_003915_008985_016809_035113_093605_079009,
  1_107819_000001_000001_000007_000005_000029_000057_000013_000075_000387_000511_000331_001119_000307_006145_003841_049987_067335_120419,
  1_107833_000001_000003_000001_000005_000013_000021_000119_000207_000453_000943_000137_002245_007771_005737_009541_029209_106867_110513,
  1_107881_000001_000003_000007_000013_000007_000003_000099_000129_000245_000687_000883_001321_001131_006661_007437_001345_128247_167877,
  1_107901_000001_000001_000003_000011_000007_000057_000059_000003_000217_000549_000085_002607_000215_002249_003963_042931_033747_226265,
  1_107911_000001_000001_000005_000005_000029_000023_000115_000215_000103_000427_001689_000831_003293_014055_003735_049521_017703_182887,
  1_107930_000001_000001_000001_000015_000005_000043_000027_000181_000217_000955_000225_002731_007347_014123_026169_004371_026907_015017,
  1_107936_000001_000001_000007_000007_000031_000055_000063_000223_000061_000063_000431_002779_003169_014323_002945_063913_085407_076511,
  1_107980_000001_000001_000003_000011_000005_000027_000113_000075_000313_000697_000013_001853_007467_005701_016749_017939_013475_039807,
  1_108004_000001_000001_000007_000005_000013_000053_000055_000115_000125_000341_000321_003291_002675_013659_016819_045397_042917_104361,
  1_108008_000001_000003_000003_000015_000027_000047_000019_000213_000441_000605_000593_002287_004847_010505_022185_036157_010881_087799,
  1_108016_000001_000001_000001_000011_000015_000039_000109_000003_000469_000371_001743_002789_000199_008703_007407_003353_103417_073319,
  1_108066_000001_000003_000007_000005_000025_000061_000077_000111_000263_000399_001579_003447_006205_005945_028099_039183_077003_115001,
  1_108071_000001_000001_000001_000003_000001_000007_000057_000193_000379_000923_000151_002227_007285_002371_024567_034037_080655_125499,
  1_108107_000001_000003_000005_000007_000013_000015_000005_000193_000055_000319_001851_002439_008071_005329_003155_064669_018547_238997,
  1_108110_000001_000003_000003_000011_000007_000023_000001_000203_000333_000951_000153_001249_005093_000407_000361_014175_045149_186291,
  1_108124_000001_000003_000001_000011_000013_000019_000089_000229_000139_000981_000455_000907_005109_008513_023823_054933_069985_227679,
  1_108145_000001_000003_000005_000013_000023_000047_000065_000123_000115_000759_000375_001283_000729_011045_022015_018287_112603_075911,
  1_108148_000001_000001_000003_000001_000005_000043_000091_000123_000219_000409_000517_003999_001409_005949_015727_062705_073573_198447,
  1_108158_000001_000003_000003_000003_000005_000023_000095_000051_000275_000455_001831_002427_003779_010209_030839_023393_025681_008715,
  1_108164_000001_000003_000005_000003_000009_000005_000061_000097_000497_000397_000695_000517_003313_004911_001961_045805_099135_216657,
  1_108197_000001_000001_000001_000007_000013_000041_000019_000031_000103_001005_000073_001855_000405_012395_019979_017663_105183_028493,
  1_108198_000001_000003_000001_000011_000027_000027_000069_000149_000001_000225_001809_001367_003663_006545_008475_040837_064459_066705,
  1_108219_000001_000003_000003_000001_000029_000021_000113_000149_000215_000443_001069_003437_001793_013573_028285_033707_029127_040715,
  1_108222_000001_000003_000003_000005_000021_000009_000053_000181_000455_000283_000245_003999_000875_009799_010963_031603_034907_064977,
  1_108224_000001_000003_000001_000011_000031_000051_000029_000103_000061_000529_000777_001097_000445_009169_006305_004513_060189_164103,
  1_108227_000001_000001_000001_000003_000021_000005_000087_000011_000461_000637_001283_001471_001429_002401_012163_029401_030089_041745,
  1_108290_000001_000001_000003_000003_000017_000043_000013_000153_000073_000419_000747_000279_007195_004383_026345_028365_097753_208989,
  1_108302_000001_000003_000007_000001_000017_000055_000103_000151_000327_000575_001923_001533_004699_002171_015447_064047_059007_054523,
  1_108329_000001_000003_000007_000007_000003_000051_000079_000039_000403_000599_000161_002465_004911_010327_023599_003267_044177_184231,
  1_108335_000001_000003_000003_000015_000005_000019_000057_000083_000507_000927_000665_003471_005037_002051_022923_036813_097393_102715,
  1_108338_000001_000003_000003_000013_000011_000019_000091_000179_000113_000295_000855_002071_003265_004089_008627_007461_023855_053675,
  1_108362_000001_000001_000003_000005_000021_000041_000011_000227_000087_000417_000209_002013_004849_005291_022073_040235_071283_140785,
  1_108398_000001_000003_000003_000005_000029_000057_000095_000065_000177_000177_001973_000563_005249_000337_007611_045099_015443_046583,
  1_108405_000001_000001_000007_000003_000003_000005_000107_000075_000031_000293_000821_001837_002363_013621_008793_029841_127201_131707,
  1_108409_000001_000001_000001_000005_000001_000045_000069_000061_000157_000999_000183_003431_003487_009461_017545_026973_115527_058419,
  1_108431_000001_000001_000007_000007_000027_000005_000125_000153_000191_000745_000125_002807_005043_010657_024487_019517_031735_042421,
  1_108449_000001_000001_000007_000009_000025_000037_000073_000255_000141_000229_001723_001331_006089_013109_030683_002335_111517_105411,
  1_108474_000001_000001_000005_000007_000003_000061_000079_000203_000423_000669_001757_001725_004239_007013_028591_061853_081103_039813,
  1_108488_000001_000001_000003_000007_000021_000027_000023_000119_000441_000113_001019_000285_000053_008643_031689_002629_126573_060835,
  1_108530_000001_000001_000005_000011_000029_000049_000023_000055_000441_000809_001177_001371_005945_006461_011537_012287_085637_232065,
  1_108545_000001_000003_000001_000015_000005_000013_000019_000209_000105_000897_000565_003209_000487_009837_022169_026317_039907_185193,
  1_108551_000001_000001_000001_000005_000023_000045_000049_000055_000501_000213_001217_003159_000733_005889_005475_004953_037317_100369,
  1_108558_000001_000001_000005_000001_000019_000005_000057_000137_000361_000605_001077_002015_005511_004667_018457_045979_120253_203397,
  1_108585_000001_000001_000007_000009_000019_000019_000011_000187_000005_000647_000275_001265_007587_016183_000369_031885_058347_036829,
  1_108613_000001_000003_000005_000003_000031_000031_000007_000105_000359_000839_000641_003215_004807_013397_000885_052867_057125_180607,
  1_108638_000001_000001_000007_000009_000019_000045_000043_000211_000429_000757_001637_001569_000935_008899_024823_018599_111373_190979,
  1_108642_000001_000001_000007_000007_000013_000047_000003_000241_000467_000209_000323_003467_004397_015395_015373_014499_092443_065931,
  1_108653_000001_000003_000003_000005_000005_000009_000067_000115_000045_000279_001753_001575_008127_009651_005169_025643_029671_214383,
  1_108671_000001_000003_000007_000007_000029_000007_000037_000205_000495_000445_001771_001439_003577_010423_010865_026851_015251_063373,
  1_108675_000001_000003_000001_000009_000029_000013_000045_000061_000153_000193_001407_001075_004023_002367_001147_051277_052975_123061,
  1_108684_000001_000003_000003_000003_000031_000025_000113_000173_000345_000565_000145_003437_007051_012557_027919_041733_076717_192645,
  1_108687_000001_000003_000003_000007_000003_000055_000035_000219_000055_000467_000635_003833_003753_001099_015301_053121_120807_070481,
  1_108696_000001_000003_000007_000007_000013_000001_000121_000191_000071_000193_001891_002303_001401_009143_031297_038979_043093_138941,
  1_108786_000001_000003_000007_000005_000017_000051_000083_000201_000231_000423_000511_001301_006075_000475_002603_049327_078565_220827,
  1_108792_000001_000003_000001_000007_000005_000061_000023_000011_000009_000711_000251_001383_000613_006213_008921_027267_066009_028575,
  1_108795_000001_000003_000001_000003_000013_000013_000061_000211_000353_000883_000343_001089_002041_007781_025285_009053_076801_153009,
  1_108818_000001_000003_000007_000005_000017_000061_000067_000069_000361_000937_000949_001483_002825_003753_016533_017277_016539_140521,
  1_108830_000001_000003_000005_000009_000007_000019_000031_000239_000357_000561_001583_003059_002023_002213_011283_018603_083487_162415,
  1_108836_000001_000001_000003_000015_000015_000059_000009_000043_000353_000203_000765_001907_002733_003747_030617_032671_119005_072131,
  1_108839_000001_000003_000001_000007_000017_000061_000055_000113_000439_000075_000703_002741_001059_004561_015923_017153_032563_079681,
  1_108851_000001_000001_000001_000015_000011_000057_000091_000245_000187_000185_001859_001209_003247_010863_022421_047287_026831_200935,
  1_108875_000001_000001_000003_000013_000011_000039_000061_000211_000051_000197_000861_002965_004691_009955_002289_028795_061537_235359,
  1_108883_000001_000001_000007_000001_000031_000037_000121_000107_000079_000521_000371_000983_006189_004515_025691_026933_123189_070033,
  1_108895_000001_000003_000003_000015_000019_000033_000031_000237_000035_000877_001013_003445_000573_001145_027781_026327_117451_142339,
  1_108908_000001_000003_000003_000015_000015_000009_000017_000185_000151_000499_000493_001331_001587_012657_022577_007957_126253_057971,
  1_108953_000001_000003_000007_000015_000003_000029_000043_000105_000423_000601_000793_001011_006657_007287_018561_046993_072945_233051,
  1_108956_000001_000001_000007_000005_000015_000017_000125_000141_000075_000877_000281_002011_004217_009785_007587_042863_035585_212795,
  1_108963_000001_000001_000003_000003_000003_000037_000067_000129_000433_000233_000115_000687_006253_012805_010935_049963_091675_241951,
  1_108989_000001_000003_000001_000005_000003_000041_000003_000233_000317_000959_001407_001251_000743_004165_015561_041165_022393_111633,
  1_109001_000001_000003_000003_000015_000017_000015_000053_000245_000109_000413_001149_000035_002931_011635_027091_063659_033973_016867,
  1_109009_000001_000003_000007_000013_000003_000043_000083_000201_000367_000275_000235_001795_004041_013539_022345_031451_083985_003527,
  1_109052_000001_000003_000003_000009_000031_000047_000063_000117_000195_000497_000453_001183_003857_014075_028057_013205_054331_054641,
  1_109083_000001_000001_000007_000011_000011_000039_000037_000183_000213_000537_001371_000901_005255_011791_018993_058785_114113_229815,
  1_109090_000001_000003_000005_000005_000013_000045_000077_000165_000329_000439_002011_001845_004577_012457_016959_045943_037715_169775,
  1_109104_000001_000001_000003_000011_000005_000007_000021_000245_000365_000371_001291_002569_001791_006003_018619_018661_098551_089645,
  1_109121_000001_000003_000001_000007_000003_000051_000049_000245_000151_000919_000489_003967_003157_007159_017207_019749_094455_112403,
  1_109128_000001_000003_000007_000005_000009_000015_000017_000201_000273_000669_001571_003915_001859_002569_028855_027225_116711_148377,
  1_109141_000001_000003_000007_000003_000019_000045_000115_000071_000201_000085_001349_003897_004941_010839_014781_036487_107037_109185,
  1_109146_000001_000003_000005_000013_000011_000011_000035_000019_000213_000041_000045_004075_003163_012937_017487_028911_021289_198489,
  1_109155_000001_000001_000001_000011_000007_000035_000067_000023_000451_000235_000717_000181_006697_009359_024561_036187_125179_035119,
  1_109162_000001_000001_000007_000015_000007_000047_000055_000125_000465_000251_000211_003137_004101_001341_002287_022149_045089_094173,
  1_109209_000001_000003_000001_000015_000019_000007_000015_000207_000007_000759_000869_002337_006805_008287_013447_009963_007177_173505,
  1_109216_000001_000003_000007_000013_000015_000003_000065_000143_000291_000511_000939_000669_004095_001931_026015_018253_102461_093837,
  1_109243_000001_000003_000001_000005_000023_000003_000019_000121_000489_000583_001425_000627_004229_005343_003759_017845_105369_132239,
  1_109265_000001_000003_000003_000009_000029_000009_000017_000153_000111_000879_001225_000979_002687_010477_010105_018091_037825_028077,
  1_109282_000001_000001_000007_000009_000003_000051_000075_000101_000197_000551_000089_001441_000607_014025_030411_026887_003435_032977,
  1_109306_000001_000001_000007_000003_000025_000029_000095_000123_000197_000767_001513_000721_004149_010873_032247_004469_042297_049651,
  1_109316_000001_000003_000005_000015_000011_000003_000077_000161_000309_000923_000513_000161_006447_009811_009209_021413_008611_237557,
  1_109334_000001_000003_000001_000003_000023_000011_000061_000107_000317_000771_001469_003367_006607_011495_012271_059989_052483_194761,
  1_109359_000001_000003_000007_000007_000023_000001_000037_000047_000185_000863_001153_003517_006165_003921_019311_037339_112477_204915,
  1_109373_000001_000003_000007_000007_000015_000061_000009_000113_000175_000305_001759_002933_002139_003591_015303_054479_126511_255205,
  1_109386_000001_000001_000001_000003_000029_000043_000019_000183_000121_000577_001329_001737_004373_005577_024023_040103_022333_123423]

def dirRows18_2_13 : List Nat := [
  1_109394_000001_000003_000005_000001_000029_000001_000005_000177_000271_000431_000139_000705_004319_009301_015887_013253_013275_233317,
  1_109403_000001_000001_000003_000007_000021_000003_000013_000051_000459_000359_001721_000193_004887_007805_020615_028813_082427_057853,
  1_109409_000001_000003_000003_000013_000003_000029_000043_000095_000339_000993_000979_002323_007505_010203_009475_016513_021651_104871,
  1_109412_000001_000001_000003_000015_000011_000005_000097_000127_000397_000025_000507_001839_002313_013399_000899_025713_094363_178287,
  1_109427_000001_000001_000005_000005_000009_000053_000095_000171_000107_000129_001041_003583_005479_000943_021435_036481_085519_169651,
  1_109439_000001_000001_000001_000001_000001_000011_000017_000249_000277_000805_001827_002705_003015_009033_025019_038593_059235_021145,
  1_109464_000001_000001_000007_000003_000007_000059_000107_000213_000109_000213_000555_003463_000953_003173_018947_002863_027889_032493,
  1_109467_000001_000003_000005_000015_000021_000011_000099_000131_000287_000513_001393_003327_007347_004343_008805_029571_097151_097313,
  1_109476_000001_000003_000005_000003_000017_000053_000023_000021_000227_000291_000111_001951_006593_016325_031725_031997_116907_181027,
  1_109488_000001_000001_000005_000003_000015_000057_000093_000153_000345_000257_000169_000795_003907_005669_025447_028775_001489_216417,
  1_109497_000001_000001_000001_000005_000019_000019_000113_000055_000431_000685_001839_000711_004909_010211_025765_000037_072657_079769,
  1_109523_000001_000003_000005_000007_000019_000017_000093_000145_000099_000799_001615_001583_007705_001069_030259_037951_078965_016203,
  1_109551_000001_000003_000007_000013_000023_000061_000119_000049_000413_001021_000415_000465_007395_000031_016415_001009_009843_086531,
  1_109556_000001_000001_000003_000015_000017_000021_000083_000069_000411_000001_000269_001391_000295_013649_021649_062453_011457_215375,
  1_109566_000001_000003_000003_000007_000025_000053_000095_000099_000447_000323_000027_001595_003771_016099_031523_014405_066999_065733,
  1_109598_000001_000001_000003_000011_000025_000029_000019_000095_000101_000661_000537_000641_001455_016151_029087_054009_089395_002223,
  1_109628_000001_000001_000001_000011_000011_000033_000091_000227_000449_000661_001621_001743_002859_009797_032397_041767_116325_006839,
  1_109643_000001_000003_000003_000007_000031_000041_000015_000139_000053_000789_000025_000067_001131_005987_014091_037259_070313_006633,
  1_109663_000001_000003_000007_000013_000021_000029_000071_000245_000497_000493_000207_003221_003695_003045_001497_029235_065113_082015,
  1_109674_000001_000001_000007_000005_000029_000029_000087_000197_000123_000323_000773_000157_002925_009235_031625_058187_121457_025561,
  1_109688_000001_000001_000001_000009_000003_000015_000099_000055_000133_000757_001405_000997_005201_008971_006095_033309_035587_254545,
  1_109691_000001_000003_000005_000009_000019_000057_000085_000045_000429_000823_001369_000933_001971_013753_011351_045805_016527_129907,
  1_109704_000001_000003_000003_000015_000023_000015_000035_000089_000477_000875_001087_002837_001093_000617_018687_053269_063447_226393,
  1_109715_000001_000001_000007_000009_000027_000037_000023_000107_000265_000485_001975_003159_004065_010089_026975_045067_004241_049051,
  1_109717_000001_000003_000003_000001_000029_000053_000089_000129_000149_000717_000749_001481_007829_015887_023185_030667_011749_188963,
  1_109746_000001_000003_000005_000009_000013_000047_000119_000135_000407_000099_001773_002307_007885_004013_025723_053519_037487_205671,
  1_109789_000001_000001_000005_000001_000011_000027_000121_000213_000147_000669_000799_000485_004275_015909_030583_045925_090365_226901,
  1_109794_000001_000001_000003_000005_000001_000019_000081_000109_000217_000949_001637_003413_005957_007293_017337_063857_103815_080805,
  1_109868_000001_000003_000007_000003_000009_000043_000119_000251_000345_000003_000203_000829_003391_002575_006859_050849_022221_227581,
  1_109886_000001_000001_000007_000015_000013_000043_000007_000023_000101_000089_001747_001231_001883_013363_010981_059179_059555_242021,
  1_109888_000001_000001_000005_000005_000023_000015_000093_000183_000231_000891_001745_002665_001689_008515_011717_035643_113067_233757,
  1_109903_000001_000003_000007_000011_000029_000021_000013_000059_000103_000105_000483_000863_002711_007917_029279_053931_007011_060075,
  1_109908_000001_000001_000003_000015_000005_000037_000101_000163_000031_000575_002029_001625_004545_012579_015175_032667_059497_063653,
  1_109912_000001_000003_000005_000007_000023_000037_000061_000101_000273_000049_001943_003381_000491_004079_020341_026463_122261_077965,
  1_109927_000001_000001_000003_000015_000009_000051_000053_000089_000175_000487_001583_001797_004353_001339_019613_026913_078955_166523,
  1_109936_000001_000003_000003_000009_000027_000057_000025_000207_000233_000675_000661_002629_006971_008723_031199_047215_036931_028347,
  1_109979_000001_000003_000001_000003_000031_000015_000123_000017_000211_000883_001861_002747_008075_005373_023521_046217_086629_171777,
  1_110005_000001_000003_000005_000009_000011_000043_000045_000171_000465_000835_000603_002121_000409_001643_020327_063211_129479_223113,
  1_110010_000001_000001_000005_000007_000013_000057_000083_000233_000307_000489_000941_001723_006149_005557_002053_017377_031597_176051,
  1_110017_000001_000001_000007_000003_000011_000011_000085_000163_000169_000989_001289_002749_007681_004679_000645_036589_085907_194713,
  1_110041_000001_000001_000001_000007_000003_000057_000039_000149_000463_000947_000481_001163_007171_008539_028991_061235_074487_107051,
  1_110042_000001_000001_000003_000007_000009_000057_000089_000101_000231_000163_001355_001393_005823_007565_026285_013523_130329_026099,
  1_110047_000001_000001_000007_000015_000013_000059_000111_000035_000265_000927_000125_001881_005397_000757_023845_009677_076077_163361,
  1_110048_000001_000001_000007_000009_000001_000063_000061_000157_000389_000143_001445_000881_003609_009955_011159_059677_045831_138345,
  1_110053_000001_000003_000005_000007_000005_000045_000065_000023_000257_000589_000905_003651_000743_000117_030307_007415_103331_252889,
  1_110054_000001_000001_000007_000013_000003_000057_000113_000091_000217_000967_000481_000989_004795_003549_023717_060793_080281_019977,
  1_110057_000001_000003_000003_000001_000015_000037_000113_000245_000239_000575_000197_002803_007743_013447_003601_056981_076381_013321,
  1_110091_000001_000003_000001_000011_000027_000033_000099_000151_000043_000835_001951_001957_002983_006781_009319_002119_040533_118325,
  1_110093_000001_000003_000003_000007_000027_000019_000023_000243_000347_000477_001661_001891_002439_002485_031743_001427_020317_090803,
  1_110112_000001_000003_000001_000001_000003_000059_000071_000129_000021_000003_000449_000629_003657_004045_008305_040461_060927_038529,
  1_110127_000001_000003_000003_000007_000009_000011_000085_000185_000369_000451_000887_003709_006931_000111_001379_008741_058777_188045,
  1_110178_000001_000003_000007_000011_000023_000013_000077_000141_000099_000543_000725_002439_006825_001361_002785_005345_005941_234751,
  1_110183_000001_000001_000005_000005_000017_000055_000069_000009_000431_000585_001049_000165_001705_014907_008655_012485_022783_091195,
  1_110184_000001_000001_000007_000011_000029_000041_000091_000137_000017_000785_001151_002033_007031_015077_002241_021453_117947_128891,
  1_110195_000001_000001_000001_000011_000017_000053_000113_000195_000409_000275_001757_000245_006263_014785_029159_043827_065027_248403,
  1_110307_000001_000003_000003_000003_000005_000015_000023_000041_000261_000891_001021_001999_004883_009233_010385_021953_050711_004247,
  1_110334_000001_000001_000001_000013_000023_000047_000033_000077_000317_000251_000617_002265_007549_000327_002317_041209_041063_120863,
  1_110336_000001_000001_000007_000011_000015_000017_000025_000105_000253_000713_001147_000415_005777_002215_004207_033857_017001_260533,
  1_110354_000001_000001_000001_000011_000031_000045_000003_000025_000329_000045_001563_000121_001413_016229_032485_054477_101025_064847,
  1_110356_000001_000003_000005_000001_000015_000059_000113_000203_000481_000545_000371_001357_005549_003043_000397_061483_059779_058159,
  1_110390_000001_000003_000003_000003_000025_000039_000029_000193_000379_000293_001173_003389_004231_011519_006681_028813_063609_013029,
  1_110419_000001_000003_000001_000001_000027_000057_000037_000249_000441_000905_000463_003543_007203_010075_005373_046103_006685_146943,
  1_110452_000001_000003_000005_000007_000031_000051_000021_000139_000209_000219_001663_000837_003351_006291_000735_008715_033751_199485,
  1_110461_000001_000003_000005_000011_000019_000057_000041_000163_000287_000327_000243_002891_001095_003959_005067_002867_016207_213089,
  1_110465_000001_000001_000005_000011_000021_000059_000097_000239_000309_000371_000797_000453_002595_004277_003771_005665_010075_056101,
  1_110466_000001_000001_000003_000015_000017_000029_000103_000033_000449_000525_000961_003551_003611_014057_015971_026981_035169_130213,
  1_110468_000001_000001_000003_000001_000005_000013_000039_000211_000387_000797_001051_003287_003737_012953_003387_035107_078809_162907,
  1_110486_000001_000001_000007_000009_000007_000063_000127_000115_000173_000981_000623_000737_007625_012245_004195_061873_104301_250333,
  1_110511_000001_000001_000001_000005_000019_000005_000123_000043_000209_000741_000747_001057_002683_015359_024121_038413_005823_062213,
  1_110531_000001_000001_000007_000001_000023_000013_000063_000165_000309_000323_000247_003827_005451_004823_023925_056957_069765_259923,
  1_110561_000001_000001_000005_000001_000005_000049_000051_000065_000031_000257_001363_003031_005765_003645_016383_006347_030429_130557,
  1_110573_000001_000003_000005_000013_000009_000063_000031_000003_000317_000379_001345_002161_007787_002055_021507_020347_097021_183377,
  1_110593_000001_000003_000005_000011_000015_000059_000013_000139_000415_000821_000639_001249_006349_015861_021377_022813_042839_076595,
  1_110611_000001_000001_000007_000009_000023_000011_000025_000115_000393_000153_001269_000871_001323_001891_011619_003103_079813_039811,
  1_110614_000001_000003_000001_000015_000027_000037_000063_000253_000001_000855_001651_003111_006693_001825_022549_064189_018347_253425,
  1_110651_000001_000003_000001_000011_000023_000027_000119_000059_000421_000343_000831_002679_005899_012087_015953_018601_109551_033895,
  1_110661_000001_000003_000001_000013_000029_000003_000091_000227_000301_000491_001045_002105_005189_013717_001095_006039_016229_215687,
  1_110665_000001_000001_000007_000003_000011_000053_000085_000025_000023_000293_000841_003569_005335_008949_028665_015139_100807_155587,
  1_110701_000001_000001_000001_000009_000031_000001_000077_000149_000181_000005_000915_001155_004717_002837_017545_003235_026811_124901,
  1_110730_000001_000001_000003_000005_000025_000027_000047_000215_000425_000195_001575_003961_003521_004197_009565_032523_125091_165543,
  1_110735_000001_000003_000007_000003_000017_000057_000007_000137_000507_000303_001123_001511_002465_004277_019959_031951_083157_062843,
  1_110738_000001_000003_000003_000001_000027_000043_000079_000191_000265_000167_000665_004017_006613_001175_005427_047139_091517_032071,
  1_110759_000001_000001_000001_000011_000029_000063_000009_000039_000303_001021_000415_002157_005227_013557_004931_012541_074101_013189,
  1_110763_000001_000001_000003_000009_000015_000041_000045_000163_000301_000315_001433_001449_003589_015783_016069_016155_010527_069335,
  1_110768_000001_000003_000001_000001_000001_000005_000075_000169_000215_000115_000939_001285_000043_001941_027847_005245_051211_244817,
  1_110774_000001_000001_000001_000015_000007_000033_000031_000023_000397_000537_001415_000329_006705_015015_018883_062895_021435_233075,
  1_110783_000001_000003_000003_000005_000011_000049_000073_000147_000183_000317_000011_001997_001045_006015_029159_055195_105711_134727,
  1_110785_000001_000003_000003_000009_000021_000041_000005_000213_000421_000539_001269_001929_003701_002165_014997_021933_058167_239719,
  1_110809_000001_000003_000001_000005_000023_000063_000037_000027_000021_000547_001499_001621_000141_005309_032257_047241_123617_243853,
  1_110812_000001_000001_000001_000013_000031_000045_000047_000091_000165_001007_001295_004035_001461_010423_007747_007329_114599_169375,
  1_110840_000001_000001_000005_000003_000021_000009_000075_000061_000035_000745_000031_004085_003645_016239_014979_015725_108859_056745,
  1_110853_000001_000001_000005_000015_000011_000031_000013_000229_000417_000147_001993_004043_007757_013507_015297_056119_002223_142275,
  1_110905_000001_000003_000005_000013_000003_000057_000045_000109_000135_000829_000159_000769_000865_002583_015755_044343_084561_098621,
  1_110933_000001_000001_000007_000011_000017_000011_000115_000045_000371_000411_000863_002139_003897_013981_016771_004587_025195_066077,
  1_110961_000001_000003_000007_000015_000017_000047_000051_000133_000133_000475_001363_003325_004287_004837_022077_060225_003097_246805,
  1_110962_000001_000003_000005_000009_000029_000051_000127_000125_000353_000519_000129_001409_001497_003167_014163_024921_081343_129835,
  1_110974_000001_000003_000005_000005_000019_000039_000095_000109_000229_001015_000367_002373_000709_006169_004089_013533_022399_118977,
  1_110987_000001_000001_000005_000005_000017_000021_000091_000131_000309_000739_001373_003723_006659_001119_027521_055589_034967_070831,
  1_110989_000001_000003_000001_000011_000005_000007_000085_000215_000425_000947_000589_000375_005943_013399_018307_027007_018919_200617,
  1_111007_000001_000001_000003_000015_000011_000037_000111_000179_000259_000517_001679_000225_003493_015025_021751_040687_073001_214477]

def dirRows18_2_14 : List Nat := [
  1_111011_000001_000001_000007_000015_000017_000041_000109_000129_000427_000847_001965_003269_005871_012331_026899_049791_103471_213789,
  1_111043_000001_000003_000003_000003_000009_000041_000025_000115_000095_000737_000717_001545_000841_014923_007409_045365_100139_077787,
  1_111070_000001_000001_000003_000015_000011_000003_000063_000023_000425_000433_000537_001599_002691_011271_001695_040579_053507_073033,
  1_111088_000001_000003_000007_000013_000009_000021_000085_000031_000337_000583_001883_003877_007197_007715_021525_053273_011263_041907,
  1_111127_000001_000003_000007_000001_000007_000053_000061_000045_000299_000885_001391_003109_006851_006079_018857_044537_095713_146125,
  1_111140_000001_000001_000001_000003_000021_000049_000095_000105_000419_000315_000365_003035_004169_005723_026921_062809_027019_243965,
  1_111149_000001_000001_000003_000005_000011_000039_000071_000089_000249_000011_001395_000105_006637_004577_022979_032405_093163_058785,
  1_111229_000001_000001_000001_000001_000027_000025_000125_000085_000495_000697_001793_000301_007665_012671_025359_038803_058723_189837,
  1_111230_000001_000003_000005_000011_000017_000011_000061_000211_000019_000901_001701_000223_002195_015571_003529_034699_094607_196519,
  1_111243_000001_000003_000007_000011_000015_000001_000111_000001_000381_000145_000293_003639_006931_013195_019985_058491_053067_184411,
  1_111267_000001_000003_000001_000015_000031_000039_000039_000101_000017_000431_001151_002465_000727_012709_005377_005857_049707_076439,
  1_111287_000001_000003_000003_000005_000007_000001_000003_000039_000357_000339_000415_000567_007245_013943_007495_054133_119705_160615,
  1_111313_000001_000003_000005_000015_000009_000017_000013_000253_000337_000673_001745_002613_004635_014025_011159_050001_040753_172983,
  1_111356_000001_000003_000007_000011_000003_000015_000019_000107_000393_001015_001441_000181_005721_009987_015557_037263_090053_205685,
  1_111368_000001_000001_000005_000001_000009_000003_000069_000123_000245_000111_000283_001581_000259_000275_000813_012213_019639_007335,
  1_111409_000001_000003_000007_000007_000001_000055_000101_000063_000259_000705_000653_003821_002081_006447_025471_015523_038827_068055,
  1_111419_000001_000001_000005_000007_000027_000009_000097_000149_000445_000341_000167_003695_000375_000853_008143_036027_062729_197357,
  1_111430_000001_000003_000007_000001_000001_000037_000097_000103_000493_000319_001287_003787_004079_013049_014305_006665_004631_096225,
  1_111433_000001_000001_000005_000007_000001_000005_000127_000143_000251_000725_001759_002381_000181_015741_009395_064441_044347_221697,
  1_111442_000001_000003_000001_000003_000025_000047_000029_000167_000397_000827_001255_003271_006307_013915_003131_019123_088619_062847,
  1_111467_000001_000003_000005_000001_000029_000011_000059_000203_000245_000553_000617_001287_000205_002291_003613_039933_116981_043595,
  1_111491_000001_000001_000003_000009_000027_000033_000035_000077_000437_001003_000119_000253_006643_000113_010587_041073_055371_233307,
  1_111503_000001_000003_000007_000001_000029_000063_000001_000231_000373_000995_001063_001385_000273_014115_006899_062991_112003_080527,
  1_111527_000001_000003_000003_000001_000031_000021_000055_000115_000393_000685_000245_001587_005617_000267_019639_015169_014073_173091,
  1_111531_000001_000003_000001_000011_000029_000045_000053_000021_000433_000979_001067_002999_006279_004739_030835_061653_112893_075839,
  1_111541_000001_000001_000005_000011_000023_000025_000015_000107_000325_000981_001057_001181_004465_016291_001523_064497_129437_045067,
  1_111546_000001_000001_000001_000005_000001_000021_000079_000135_000419_000997_001967_000747_002097_015397_004415_015807_079583_259561,
  1_111548_000001_000003_000001_000007_000005_000049_000105_000109_000243_000371_000013_002297_002845_012569_013165_013551_075471_168579,
  1_111577_000001_000001_000001_000001_000009_000033_000007_000233_000043_000773_001121_003763_004047_015039_008165_025407_082561_215045,
  1_111625_000001_000003_000007_000001_000017_000041_000105_000129_000333_000687_001357_001197_001271_003835_015823_036777_094311_192321,
  1_111636_000001_000001_000005_000015_000013_000031_000093_000249_000081_000167_001681_001587_000179_005755_027741_029437_100407_063287,
  1_111650_000001_000003_000003_000013_000011_000039_000085_000023_000037_000183_000547_001255_001167_015961_023281_059989_099393_034983,
  1_111655_000001_000003_000007_000005_000013_000033_000017_000243_000321_000845_000447_001997_004639_011175_024651_018281_082677_244543,
  1_111662_000001_000003_000005_000013_000003_000063_000075_000035_000493_000207_001707_001401_003687_011353_005461_023433_071259_093483,
  1_111673_000001_000001_000003_000001_000019_000061_000081_000133_000115_000957_000669_000647_000347_008739_018451_039641_118677_136601,
  1_111699_000001_000001_000007_000013_000003_000013_000119_000187_000111_000181_001865_001613_000201_003633_017805_046553_008899_100407,
  1_111727_000001_000003_000003_000009_000019_000033_000035_000215_000235_000893_000877_003099_007597_013521_022473_065435_003205_044897,
  1_111729_000001_000003_000003_000011_000027_000003_000101_000201_000215_000373_000859_001435_002637_006795_021157_003333_027797_199427,
  1_111741_000001_000001_000007_000013_000031_000033_000085_000205_000273_000565_002033_003451_007581_016223_001383_016297_001263_049065,
  1_111757_000001_000001_000001_000013_000011_000029_000065_000071_000395_000179_001193_003859_003075_010133_006463_034617_020173_203471,
  1_111781_000001_000001_000007_000003_000007_000029_000011_000115_000465_000695_001759_003137_006337_000977_000043_062501_013297_059319,
  1_111791_000001_000003_000005_000009_000031_000059_000011_000107_000109_000797_000177_002891_002535_004305_019255_009591_084417_087381,
  1_111826_000001_000003_000003_000003_000001_000009_000045_000219_000073_000573_001477_003699_008145_000835_007123_037167_053411_045397,
  1_111838_000001_000003_000005_000015_000015_000041_000037_000063_000233_000971_001497_001223_003909_011721_009217_041055_009779_199339,
  1_111854_000001_000003_000003_000007_000017_000061_000091_000237_000313_000841_000007_003283_004049_010403_022157_004889_031903_188043,
  1_111861_000001_000003_000007_000001_000025_000003_000059_000087_000191_000725_001615_004057_003037_014597_017371_042221_073919_058009,
  1_111866_000001_000003_000005_000011_000027_000007_000045_000231_000315_000727_000843_002191_007909_000053_023309_055189_096193_174017,
  1_111868_000001_000003_000005_000011_000027_000051_000127_000187_000209_000883_000429_000137_004585_015195_016527_032571_030905_008137,
  1_111897_000001_000001_000001_000011_000015_000055_000013_000161_000183_000671_000659_003669_004461_013691_017119_026877_052041_110103,
  1_111903_000001_000003_000005_000009_000005_000045_000029_000019_000415_000931_000683_002987_003839_004529_003091_054457_115537_102671,
  1_111904_000001_000001_000007_000013_000023_000031_000061_000017_000327_000951_001333_000713_004309_001955_022797_027007_106673_047177,
  1_111959_000001_000003_000003_000009_000031_000049_000019_000115_000413_000257_001799_003641_002075_015613_014293_016123_045131_209389,
  1_111975_000001_000001_000007_000015_000001_000015_000027_000063_000463_000825_001081_000991_002641_005999_008551_041119_080251_189263,
  1_112018_000001_000001_000005_000009_000007_000055_000125_000097_000245_000997_000457_001087_001297_003433_014887_024117_030689_184809,
  1_112023_000001_000003_000001_000009_000023_000059_000081_000233_000341_000943_001335_002819_002625_004957_014925_007917_107383_204493,
  1_112033_000001_000003_000005_000005_000005_000025_000079_000029_000191_000541_001295_000269_000613_005201_028639_052839_052865_075181,
  1_112036_000001_000003_000003_000007_000019_000045_000035_000201_000391_000317_001323_002733_003407_010273_032689_052153_108751_242493,
  1_112043_000001_000003_000001_000007_000015_000027_000045_000021_000383_000483_001857_003443_002263_011471_003697_063929_116399_229733,
  1_112095_000001_000001_000003_000009_000013_000027_000019_000037_000181_000811_001833_000177_007689_010073_020229_031397_065415_068461,
  1_112113_000001_000001_000001_000015_000019_000053_000065_000209_000433_000783_001647_004075_003155_000733_025603_039033_043109_151257,
  1_112136_000001_000003_000003_000005_000009_000037_000061_000075_000497_000825_001785_003709_001731_000889_019325_057453_039095_190855,
  1_112153_000001_000003_000003_000013_000003_000053_000021_000039_000483_000833_001191_002829_001323_001877_017257_036077_047997_025349,
  1_112165_000001_000001_000007_000009_000029_000025_000007_000091_000087_000723_000777_001865_007763_010995_015953_036111_021313_214417,
  1_112166_000001_000003_000005_000003_000017_000015_000085_000133_000245_000317_000879_003237_007049_006501_013359_034063_124703_118289,
  1_112177_000001_000001_000001_000007_000011_000025_000111_000143_000369_000593_000237_002787_001015_013059_023275_038453_090809_025803,
  1_112189_000001_000001_000007_000005_000013_000021_000039_000235_000381_000381_000949_000773_001123_009911_018115_047657_047849_197633,
  1_112226_000001_000001_000003_000013_000015_000057_000047_000203_000483_000341_000137_001283_002847_005051_022593_060915_045123_258733,
  1_112237_000001_000001_000003_000005_000029_000007_000023_000127_000493_000543_000747_003547_004433_005847_028999_018079_081205_231557,
  1_112240_000001_000001_000003_000015_000009_000063_000017_000197_000075_000387_001679_002631_001033_002757_018365_011957_098915_024223,
  1_112255_000001_000001_000003_000009_000027_000055_000067_000097_000345_000995_001151_001747_004889_013847_013237_009035_013461_010377,
  1_112265_000001_000001_000005_000009_000027_000013_000007_000077_000399_000191_000137_002801_006379_015969_001727_027503_097385_147625,
  1_112280_000001_000003_000001_000007_000005_000009_000103_000163_000489_000615_001359_002635_003115_013795_018853_065225_026545_212065,
  1_112292_000001_000003_000007_000003_000013_000025_000125_000133_000359_000423_000751_004045_001209_007521_006653_039171_125083_229399,
  1_112307_000001_000003_000001_000009_000015_000021_000121_000223_000283_000313_001807_003829_005279_010609_020113_007851_023731_245327,
  1_112316_000001_000001_000001_000011_000015_000013_000063_000253_000311_000369_001549_002803_002029_014967_014217_001387_104669_063375,
  1_112342_000001_000001_000003_000003_000031_000049_000059_000189_000249_000779_000275_003761_003465_002205_011543_016973_126249_104769,
  1_112345_000001_000003_000001_000005_000011_000039_000059_000033_000121_000151_000467_001011_001379_013955_020117_052537_051049_050663,
  1_112351_000001_000001_000001_000007_000005_000041_000121_000029_000357_000033_000849_002441_002127_001337_021147_063869_080215_031211,
  1_112361_000001_000003_000003_000003_000025_000041_000017_000101_000173_000915_000463_002391_001671_008789_013357_042127_017599_061087,
  1_112364_000001_000001_000003_000009_000029_000023_000047_000211_000435_000223_001421_002463_004543_008569_030209_046621_014367_013263,
  1_112372_000001_000003_000007_000007_000005_000009_000075_000209_000299_000081_001705_002335_006703_006309_005859_057889_043219_007667,
  1_112382_000001_000003_000003_000003_000019_000031_000107_000087_000413_000111_000215_002711_007053_005223_025241_026675_016067_122719,
  1_112389_000001_000001_000001_000015_000021_000003_000015_000013_000281_000063_000725_002025_004813_014177_018577_000875_118623_192005,
  1_112408_000001_000003_000005_000009_000017_000021_000085_000173_000059_000153_000763_003899_001985_002071_010439_044911_060915_122419,
  1_112417_000001_000003_000007_000013_000011_000063_000059_000095_000053_000927_000555_001897_005195_013469_016973_003463_125173_256021,
  1_112423_000001_000001_000003_000007_000009_000063_000033_000193_000061_000445_001247_001379_004701_005311_030709_016795_069871_161113,
  1_112476_000001_000003_000001_000003_000021_000025_000125_000111_000109_000075_000455_000861_006483_004501_019095_045601_078415_030995,
  1_112480_000001_000001_000003_000005_000001_000025_000015_000025_000223_000961_000537_001453_004951_005085_019801_009863_108819_007319,
  1_112483_000001_000003_000001_000005_000029_000021_000079_000113_000177_000691_000219_003159_003493_000025_030655_046257_023707_243377,
  1_112513_000001_000001_000003_000003_000027_000021_000011_000095_000043_000161_002029_004091_006695_007179_009955_045195_032017_128605,
  1_112538_000001_000001_000007_000005_000019_000037_000047_000083_000169_000143_000773_002127_000347_001887_002861_008155_021437_175641,
  1_112543_000001_000003_000001_000001_000027_000063_000119_000057_000077_000931_000629_001807_004469_002315_003767_019207_114581_125135,
  1_112574_000001_000001_000005_000011_000013_000051_000051_000239_000333_000369_001035_003017_000103_001809_014579_034425_123915_258397,
  1_112599_000001_000001_000001_000003_000003_000019_000063_000237_000141_000929_000943_002597_003983_001043_024269_012325_039013_216689,
  1_112605_000001_000001_000003_000007_000009_000061_000073_000031_000287_000303_001415_003453_002667_008625_014347_051953_009181_251937,
  1_112667_000001_000001_000007_000001_000015_000041_000001_000197_000087_000311_001147_003799_002585_014027_000491_054203_124861_227637,
  1_112688_000001_000003_000007_000003_000015_000035_000097_000089_000065_000493_001897_003345_003807_005911_012461_021393_116975_212801,
  1_112735_000001_000001_000007_000011_000029_000047_000061_000171_000399_000929_000093_002815_004933_009209_015053_021911_117217_052539,
  1_112746_000001_000003_000001_000001_000019_000025_000011_000041_000073_000317_000215_000923_005153_008025_018703_011513_107981_002027,
  1_112810_000001_000001_000005_000007_000027_000033_000047_000099_000171_000259_002017_002055_000909_004185_026689_023155_109857_213957]

def dirRows18_2_15 : List Nat := [
  1_112817_000001_000003_000007_000003_000031_000017_000039_000203_000255_000345_001461_001561_004349_006451_014763_032993_074475_140557,
  1_112827_000001_000001_000005_000003_000021_000057_000075_000201_000371_000529_001471_000243_003751_000581_018405_040933_106311_000745,
  1_112835_000001_000001_000003_000013_000007_000053_000125_000015_000055_000267_001865_003297_004331_002913_021675_058911_028419_105585,
  1_112892_000001_000003_000005_000013_000007_000013_000037_000037_000207_000127_000785_001129_008123_007655_016003_018907_048883_002001,
  1_112898_000001_000001_000005_000003_000011_000003_000127_000149_000503_001019_000887_003429_007775_007113_019571_034461_038889_066981,
  1_112915_000001_000003_000007_000007_000001_000055_000087_000217_000465_000485_000411_002955_004899_001741_007051_042885_001837_068175,
  1_112918_000001_000001_000007_000001_000007_000039_000025_000001_000185_000523_000273_002409_001867_003101_029823_004509_081621_011815,
  1_112937_000001_000001_000001_000011_000013_000011_000089_000237_000355_000347_000091_001791_005745_004181_029207_039495_005275_199395,
  1_112940_000001_000001_000007_000003_000017_000037_000109_000169_000191_000295_001001_002631_001981_011821_008315_040675_001293_220247,
  1_112958_000001_000003_000001_000007_000031_000025_000005_000055_000001_000795_001663_003177_006821_002073_025789_023691_025015_075203,
  1_113013_000001_000003_000005_000009_000019_000009_000097_000129_000351_000735_001897_003555_001731_005413_032051_012869_111973_100157,
  1_113014_000001_000003_000003_000015_000027_000001_000003_000167_000007_000851_000805_000713_006389_001455_032371_007617_107157_131299,
  1_113027_000001_000003_000001_000013_000031_000029_000091_000123_000387_000939_000223_003583_002889_005307_016561_006055_004437_123229,
  1_113048_000001_000003_000005_000011_000027_000017_000005_000145_000369_000449_001677_001039_003553_003057_011667_051879_020519_041573,
  1_113051_000001_000003_000001_000009_000009_000001_000091_000033_000379_000035_000691_000375_005937_015019_016177_053457_052015_232257,
  1_113053_000001_000001_000003_000011_000023_000017_000075_000217_000377_000571_001725_002719_003911_012277_027799_055573_021981_112529,
  1_113102_000001_000003_000001_000011_000009_000037_000081_000095_000501_000615_000327_003751_007333_015407_007785_029113_116335_221853,
  1_113104_000001_000001_000001_000003_000017_000001_000125_000157_000461_000845_000093_000107_004429_002271_014445_032919_081175_244557,
  1_113114_000001_000003_000003_000001_000027_000023_000033_000015_000029_000361_000409_000981_007819_010259_021971_023317_066641_054591,
  1_113130_000001_000003_000007_000013_000031_000063_000011_000167_000511_000081_001165_003973_004275_003315_010227_034973_058505_002333,
  1_113159_000001_000003_000001_000009_000003_000049_000111_000101_000041_000775_000449_001349_004411_008691_000535_060137_003269_204895,
  1_113180_000001_000003_000007_000015_000007_000043_000039_000147_000309_000185_000733_001473_005467_006183_017971_056805_111931_163515,
  1_113189_000001_000003_000001_000003_000021_000031_000017_000129_000317_000587_000801_002517_002569_000765_020869_016461_034425_101123,
  1_113211_000001_000003_000001_000007_000013_000063_000117_000031_000025_000741_000365_000687_006195_002093_014679_016861_123381_025263,
  1_113245_000001_000001_000001_000003_000013_000059_000065_000131_000041_000039_001659_001491_000225_010277_012445_004161_092119_146705,
  1_113261_000001_000003_000005_000001_000031_000011_000021_000203_000345_000473_001643_001377_000555_011675_015383_030855_041249_231059,
  1_113273_000001_000001_000007_000015_000003_000023_000033_000133_000433_000407_001217_003345_007455_011489_021463_041621_095755_086971,
  1_113292_000001_000001_000001_000003_000013_000047_000045_000181_000489_000089_000427_001915_003993_010133_020437_031811_048421_150009,
  1_113314_000001_000003_000001_000009_000009_000025_000089_000195_000503_000755_000059_001869_006645_013841_022973_017761_046759_068717,
  1_113319_000001_000003_000001_000001_000019_000021_000119_000123_000481_000289_001009_003769_003909_001123_017875_017383_071533_045455,
  1_113323_000001_000001_000001_000003_000031_000033_000127_000043_000467_000749_000377_003025_000511_013335_023987_063627_050211_197253,
  1_113326_000001_000001_000005_000013_000029_000007_000101_000043_000299_000769_001637_003731_001945_009933_022263_001523_127557_116867,
  1_113337_000001_000001_000003_000011_000001_000059_000025_000045_000275_000535_001349_003625_008125_000727_001215_015487_086229_124817,
  1_113338_000001_000003_000003_000013_000003_000011_000025_000237_000213_000331_000395_001775_001225_006859_016577_039105_118081_074727,
  1_113355_000001_000001_000001_000009_000005_000027_000117_000075_000479_000757_001299_002273_003221_005297_000249_060327_048739_107023,
  1_113365_000001_000001_000005_000009_000027_000009_000123_000049_000063_000763_000121_003955_002069_005999_025973_064661_006321_001179,
  1_113376_000001_000003_000007_000011_000009_000051_000065_000093_000051_000051_000829_003239_007431_003489_007691_038777_028151_096635,
  1_113408_000001_000003_000003_000013_000015_000051_000013_000203_000049_000073_000363_002173_007771_011527_027683_039333_002083_178623,
  1_113462_000001_000001_000005_000005_000015_000027_000027_000127_000503_000955_000427_003061_006213_000917_000889_012601_072445_105383,
  1_113476_000001_000003_000005_000003_000027_000043_000105_000187_000309_000747_001843_000723_000539_008829_019171_046009_026129_173145,
  1_113503_000001_000003_000007_000007_000009_000051_000121_000139_000107_000453_001103_002957_000633_001435_027275_053231_051393_016847,
  1_113550_000001_000003_000007_000005_000025_000031_000071_000191_000169_000069_001477_001413_007659_011737_012365_025067_021787_016225,
  1_113578_000001_000001_000007_000001_000009_000033_000037_000123_000391_000341_000829_001543_007323_014695_016431_020009_095821_182791,
  1_113580_000001_000003_000001_000005_000009_000059_000109_000039_000301_000977_001963_000177_008107_016193_005691_014157_071605_250839,
  1_113634_000001_000003_000005_000009_000029_000033_000033_000153_000007_000217_000201_000563_006577_009605_016671_063949_097937_234309,
  1_113653_000001_000003_000007_000003_000025_000011_000081_000089_000275_000801_000477_001921_002279_001651_013333_009127_099693_083141,
  1_113677_000001_000003_000007_000005_000023_000051_000023_000051_000447_000689_000387_001845_006033_002037_020139_033165_056111_243353,
  1_113713_000001_000003_000005_000007_000005_000007_000105_000121_000439_000471_000721_000085_001627_003735_029611_015537_036131_030225,
  1_113751_000001_000001_000005_000005_000007_000029_000031_000209_000183_000217_000467_001287_006145_014737_016249_008857_101405_103355,
  1_113771_000001_000003_000003_000005_000019_000001_000043_000015_000239_000063_000617_002189_003841_001223_012217_004121_088047_014069,
  1_113781_000001_000003_000007_000001_000009_000049_000011_000065_000297_000943_001739_003797_006169_002057_005031_002149_021439_141039,
  1_113797_000001_000001_000001_000007_000015_000059_000035_000203_000347_000529_001741_001003_006143_004979_015495_048447_002139_187025,
  1_113846_000001_000001_000007_000013_000015_000017_000077_000225_000461_000691_001067_001133_006555_000511_025845_039835_011755_142743,
  1_113849_000001_000003_000003_000011_000027_000025_000049_000051_000335_000001_000381_002703_007023_014739_019335_039625_082255_076277,
  1_113855_000001_000003_000003_000007_000019_000003_000035_000095_000203_000991_000515_002245_006085_004129_009581_038309_114203_136021,
  1_113878_000001_000001_000007_000007_000021_000061_000031_000057_000459_000119_000523_001293_003647_000735_028849_015581_123943_210069,
  1_113884_000001_000001_000007_000003_000009_000055_000103_000023_000401_000109_000023_004083_006179_012817_002787_043337_053647_241507,
  1_113926_000001_000001_000005_000007_000009_000051_000037_000133_000097_000933_001509_002229_001769_012901_015439_025687_128823_072451,
  1_113938_000001_000003_000001_000013_000017_000019_000007_000109_000299_000799_000621_003393_003645_000283_029889_063215_097805_045795,
  1_113956_000001_000003_000001_000015_000021_000007_000065_000237_000221_000433_001611_002591_003639_003231_006025_053465_088091_017657,
  1_113980_000001_000001_000007_000009_000027_000013_000011_000185_000381_000043_000961_002743_002691_010531_003713_061757_124011_209323,
  1_113986_000001_000003_000005_000001_000013_000007_000109_000065_000359_000577_002001_003085_003519_008577_019299_040145_037159_082421,
  1_113991_000001_000001_000003_000011_000007_000005_000021_000215_000391_000317_000879_001835_000611_007189_003887_045383_041025_175701,
  1_114005_000001_000001_000001_000001_000005_000017_000069_000115_000481_000477_002017_000583_008033_011349_016625_000213_088033_031707,
  1_114022_000001_000001_000007_000015_000019_000055_000121_000035_000001_000071_001011_003247_004133_001681_029943_030149_096797_177707,
  1_114036_000001_000003_000005_000013_000011_000045_000083_000153_000455_000223_000787_002025_005271_000229_017549_005775_075311_134523,
  1_114046_000001_000003_000005_000007_000021_000043_000003_000253_000395_000651_001111_001685_000539_006555_025761_039477_015823_261825,
  1_114050_000001_000003_000007_000015_000027_000035_000043_000191_000269_000247_000883_000887_001505_007433_006239_005421_049583_017765,
  1_114061_000001_000001_000005_000015_000007_000019_000113_000177_000063_000119_000517_003987_000971_012071_013107_028913_085675_204921,
  1_114067_000001_000003_000007_000015_000031_000047_000021_000129_000031_000505_000661_000855_006135_013063_027971_063801_027469_075373,
  1_114117_000001_000001_000007_000005_000013_000023_000111_000085_000279_000969_000483_000831_000483_009065_010997_059031_005083_150939,
  1_114142_000001_000003_000005_000007_000017_000055_000011_000223_000189_000209_000139_000577_005443_000913_019085_053113_008427_011251,
  1_114158_000001_000001_000001_000007_000023_000061_000095_000213_000443_000803_001545_003625_002195_002649_010913_014339_023001_016735,
  1_114165_000001_000003_000003_000003_000013_000045_000015_000225_000419_000445_000527_000635_002279_005097_025267_000199_066187_156717,
  1_114200_000001_000001_000001_000007_000023_000017_000113_000245_000099_000159_000919_002961_001731_006241_012749_008925_044153_243249,
  1_114219_000001_000003_000001_000003_000029_000057_000043_000245_000389_000233_000135_000045_003771_014061_010173_051939_128985_081605,
  1_114254_000001_000001_000001_000015_000001_000019_000025_000111_000091_000193_001185_003679_007155_007077_013743_035631_128975_196979,
  1_114265_000001_000003_000003_000013_000031_000057_000025_000053_000149_000331_000643_000915_001607_014429_029803_023459_072915_039253,
  1_114272_000001_000003_000003_000009_000023_000045_000009_000029_000383_000277_000981_001647_005217_004449_026759_063849_098081_037565,
  1_114312_000001_000001_000001_000015_000003_000023_000009_000121_000231_000027_001961_002389_001689_007041_008069_037973_074601_015553,
  1_114318_000001_000001_000005_000015_000015_000029_000011_000177_000355_000047_001821_000393_003383_010439_006357_041119_060323_206253,
  1_114348_000001_000001_000001_000001_000021_000029_000087_000149_000157_000979_001867_000729_001949_004409_027495_006841_089033_214957,
  1_114377_000001_000001_000003_000003_000009_000007_000115_000129_000141_000157_000881_000109_005537_000303_032549_001953_009903_082401,
  1_114383_000001_000001_000005_000015_000009_000019_000093_000053_000319_000913_001341_000705_004639_016189_011375_039155_081393_115843,
  1_114386_000001_000001_000005_000007_000031_000021_000003_000047_000437_000799_000359_003291_003917_012983_019283_023769_034033_226041,
  1_114431_000001_000003_000007_000007_000027_000013_000065_000031_000181_000511_001373_003871_001537_006015_012103_042187_121043_095715,
  1_114448_000001_000001_000005_000011_000001_000055_000091_000011_000105_000137_001787_000081_005163_005793_017403_059433_113439_065751,
  1_114479_000001_000001_000003_000013_000021_000057_000087_000157_000379_000005_000285_003217_004557_003359_028953_063397_110537_230571,
  1_114487_000001_000003_000007_000007_000007_000027_000025_000109_000125_000337_000719_000561_005903_012913_006987_017157_050655_195109,
  1_114513_000001_000003_000003_000015_000003_000011_000097_000093_000441_000019_001435_000515_006129_005177_028075_053495_107817_078399,
  1_114542_000001_000003_000001_000009_000013_000007_000089_000171_000165_000479_000223_004001_000691_004033_013577_033363_063447_046609,
  1_114572_000001_000003_000007_000001_000015_000047_000103_000045_000209_000639_001465_002795_006025_007981_029491_047743_012861_222445,
  1_114584_000001_000003_000003_000003_000001_000025_000121_000091_000253_000969_001259_001409_001329_015995_017733_024081_101747_120619,
  1_114600_000001_000003_000007_000011_000011_000005_000007_000241_000469_000411_001733_001385_007005_010977_023369_010675_090341_093077,
  1_114605_000001_000003_000003_000013_000017_000035_000107_000189_000437_000801_001761_003133_003847_014079_022465_045957_038449_054273,
  1_114623_000001_000001_000007_000009_000009_000047_000055_000107_000491_000281_000777_002187_006179_006607_002151_009093_042873_104677,
  1_114628_000001_000001_000005_000003_000025_000003_000037_000055_000339_000619_001227_003859_005593_009639_031199_048155_080779_006497,
  1_114640_000001_000001_000007_000001_000021_000049_000105_000045_000119_000635_000163_003821_003689_011395_019265_014289_089259_167433,
  1_114650_000001_000003_000003_000015_000029_000023_000011_000255_000425_000443_001659_003965_004791_010223_011113_048751_007987_166605,
  1_114668_000001_000001_000007_000003_000007_000001_000113_000153_000233_000803_000539_000297_004847_011203_029393_054319_094373_173471]

def dirRows18_2_16 : List Nat := [
  1_114671_000001_000003_000003_000005_000027_000057_000023_000147_000423_000617_000103_003369_004825_013613_023635_061977_005331_115243,
  1_114674_000001_000003_000003_000009_000011_000047_000041_000027_000345_000657_001873_000365_001685_011181_031977_060489_098741_215357,
  1_114700_000001_000003_000001_000011_000019_000033_000039_000223_000151_000921_000309_003413_006735_011971_025583_006927_054821_125203,
  1_114731_000001_000001_000005_000001_000027_000031_000061_000247_000207_000895_001453_003613_007097_006537_029407_009903_039937_098285,
  1_114748_000001_000003_000001_000005_000007_000011_000119_000007_000323_000027_001069_002033_007387_003381_019007_049039_039453_115411,
  1_114759_000001_000001_000007_000003_000009_000015_000051_000139_000353_000857_001829_003955_007669_003961_022805_039879_026677_066865,
  1_114766_000001_000003_000005_000007_000001_000011_000059_000095_000181_000645_000829_003119_003607_005973_012381_041577_079443_226945,
  1_114768_000001_000003_000003_000005_000003_000013_000091_000119_000103_000889_000703_003005_000541_007529_012613_014267_070445_217543,
  1_114784_000001_000001_000005_000007_000017_000041_000005_000225_000085_000759_001071_002055_001655_014811_025635_050803_058545_105687,
  1_114808_000001_000003_000005_000013_000003_000007_000077_000209_000139_000717_000985_001085_000831_011011_027313_046423_029435_207359,
  1_114813_000001_000003_000001_000007_000027_000045_000039_000075_000311_000937_001593_001357_004815_001997_001045_048681_049301_155607,
  1_114829_000001_000003_000005_000011_000021_000009_000111_000039_000447_000241_001613_001799_004817_001861_001263_063641_092081_252051,
  1_114830_000001_000001_000001_000013_000031_000013_000039_000029_000349_000025_001227_002457_003831_007965_016903_025825_062381_101765,
  1_114842_000001_000001_000003_000007_000015_000017_000005_000029_000083_000607_000931_000261_001087_016247_010129_007813_005445_167723,
  1_114875_000001_000003_000005_000009_000015_000031_000069_000191_000139_000467_001681_001951_007813_004295_018191_011411_015601_013025,
  1_114898_000001_000001_000001_000011_000029_000053_000097_000205_000281_000917_001009_000913_001003_016085_030339_055753_053099_030697,
  1_114903_000001_000001_000003_000015_000025_000035_000007_000227_000063_000251_000845_000843_007117_006021_026917_043611_108643_215471,
  1_114913_000001_000001_000003_000011_000019_000029_000075_000005_000131_000037_001185_002387_008161_001621_019887_020525_033067_030869,
  1_114928_000001_000001_000003_000003_000007_000037_000075_000159_000313_000017_000479_002477_007779_000309_026095_035693_092561_143151,
  1_114937_000001_000001_000005_000009_000005_000029_000065_000223_000331_001013_000037_001813_001379_009277_014681_061687_024763_124669,
  1_114958_000001_000003_000001_000001_000017_000047_000007_000219_000011_000013_001517_002583_007483_005399_006883_051387_017901_108659,
  1_114963_000001_000003_000007_000011_000009_000063_000081_000091_000411_000535_000255_003683_005285_001787_027205_043651_015647_230651,
  1_115000_000001_000003_000001_000011_000007_000047_000035_000255_000341_000379_000421_000753_007821_013271_013021_000463_048457_132521,
  1_115018_000001_000001_000005_000007_000021_000023_000053_000229_000393_000509_001641_002245_006941_010447_003231_005451_018883_047401,
  1_115023_000001_000003_000001_000007_000013_000061_000071_000049_000147_000625_000299_003843_004851_003483_027005_023871_018855_124893,
  1_115028_000001_000003_000001_000007_000031_000013_000127_000177_000259_000179_000531_001775_005481_013157_023821_031773_093941_237697,
  1_115042_000001_000001_000007_000001_000023_000021_000111_000219_000401_000455_001603_002077_001537_002063_017821_052087_020707_029535,
  1_115084_000001_000001_000003_000011_000017_000017_000013_000079_000049_000353_001691_000361_002805_007121_027013_050631_108235_070513,
  1_115096_000001_000001_000005_000003_000015_000025_000103_000073_000377_000253_001303_000501_000555_015789_016647_009019_060581_157337,
  1_115105_000001_000003_000005_000009_000023_000045_000003_000251_000025_000559_000429_001091_005657_015387_005113_064533_131049_127587,
  1_115117_000001_000001_000003_000015_000001_000053_000071_000141_000413_000849_000737_003045_007119_008049_018295_031447_070735_117457,
  1_115149_000001_000001_000001_000011_000017_000011_000069_000155_000211_000249_001869_001575_006859_007045_007015_020135_084157_232621,
  1_115155_000001_000003_000007_000005_000019_000055_000015_000163_000457_000371_001665_001935_000601_003629_021975_001191_045133_111649,
  1_115198_000001_000003_000007_000011_000023_000033_000005_000253_000355_000379_000933_001781_003989_006191_019081_007651_074671_258799,
  1_115221_000001_000001_000003_000003_000023_000003_000063_000123_000273_000861_000369_002409_001505_009059_010727_000189_122911_044037,
  1_115222_000001_000001_000007_000013_000013_000023_000019_000087_000191_000397_002027_001689_001143_010919_027073_015013_118429_119165,
  1_115225_000001_000001_000005_000009_000015_000013_000029_000081_000409_000955_001827_001341_003473_016005_029041_057527_007329_167093,
  1_115276_000001_000001_000005_000003_000011_000031_000047_000013_000171_000995_000961_003885_003259_002745_012405_049281_002901_207591,
  1_115294_000001_000003_000005_000013_000031_000003_000001_000215_000465_000279_001697_002449_003829_002053_009877_052911_126077_210515,
  1_115297_000001_000001_000003_000007_000011_000027_000055_000115_000249_000353_000407_002567_008105_007747_018111_003383_101875_002185,
  1_115321_000001_000001_000003_000009_000025_000005_000035_000137_000405_000667_001671_002965_005975_004999_018421_043623_064621_129797,
  1_115348_000001_000003_000007_000013_000003_000017_000033_000191_000463_000787_001795_003037_001679_000063_012389_003983_022385_084235,
  1_115364_000001_000001_000005_000009_000011_000025_000085_000215_000355_000553_000317_001637_003461_015943_002619_014545_125507_018659,
  1_115376_000001_000001_000007_000005_000003_000041_000105_000179_000125_000557_001345_003631_000481_010621_011213_040223_046581_113137,
  1_115385_000001_000003_000003_000015_000001_000063_000095_000213_000089_000021_001249_003063_000413_004307_026723_010225_115143_144817,
  1_115386_000001_000003_000005_000015_000009_000043_000041_000117_000419_000143_001651_000377_004775_008761_023793_008719_076499_208119,
  1_115400_000001_000003_000003_000001_000021_000029_000047_000117_000023_000333_001153_001067_005859_009375_029997_058991_055895_204933,
  1_115414_000001_000001_000003_000011_000011_000021_000115_000085_000223_000281_000701_001331_001341_001149_005993_010885_077353_113553,
  1_115465_000001_000001_000005_000001_000025_000001_000001_000153_000449_000231_000593_003061_004157_006661_021735_011361_057751_129569,
  1_115485_000001_000001_000003_000007_000027_000063_000081_000251_000125_000197_001525_001637_004643_004743_017127_051217_095781_000973,
  1_115492_000001_000001_000003_000007_000011_000051_000013_000139_000083_000341_000543_003061_007777_006705_009609_028933_024669_225275,
  1_115501_000001_000003_000001_000009_000025_000039_000099_000139_000005_000725_001759_001577_001751_003197_003169_039051_001743_108813,
  1_115519_000001_000001_000007_000005_000031_000015_000115_000229_000499_000291_000501_003119_002293_014137_000625_016379_111057_101643,
  1_115527_000001_000003_000007_000015_000031_000001_000051_000073_000455_000051_001983_003687_006049_003495_026247_006567_028479_158909,
  1_115531_000001_000003_000005_000005_000009_000011_000077_000181_000165_000773_001611_003945_006787_003827_028597_053269_034003_237291,
  1_115567_000001_000001_000005_000003_000031_000057_000015_000009_000163_000363_001021_002193_008175_003851_026059_063915_114293_163637,
  1_115572_000001_000001_000003_000007_000027_000049_000035_000121_000469_000833_000879_001601_006991_013271_008085_045343_005189_109413,
  1_115631_000001_000003_000001_000015_000007_000011_000111_000153_000129_000769_000565_002693_000333_007343_028535_056937_085641_019871,
  1_115648_000001_000001_000005_000013_000007_000049_000121_000223_000055_000033_000019_002291_001847_010173_023337_023431_018181_155663,
  1_115660_000001_000003_000001_000011_000025_000009_000003_000255_000425_000861_001025_003719_006995_014687_031083_060609_115375_017813,
  1_115672_000001_000001_000005_000013_000001_000055_000109_000239_000013_000939_001077_000669_001643_010949_025399_055055_125829_253077,
  1_115681_000001_000001_000005_000003_000015_000051_000013_000133_000257_000387_002017_002223_001479_009377_012867_009833_032323_006255,
  1_115688_000001_000003_000001_000009_000001_000053_000121_000163_000349_000491_001867_003403_006859_000459_001483_023893_066851_150843,
  1_115694_000001_000001_000001_000001_000001_000033_000051_000033_000177_000633_000449_002705_000663_003701_008331_043895_087223_048587,
  1_115699_000001_000003_000005_000007_000023_000007_000099_000043_000217_000031_000749_002831_001557_003295_006797_045229_046831_062183,
  1_115719_000001_000001_000007_000007_000001_000045_000035_000051_000415_000693_000479_001017_006703_000241_030887_008953_026901_002951,
  1_115726_000001_000003_000003_000007_000029_000003_000025_000217_000067_000769_000653_003983_005513_015481_021399_017525_081747_109843,
  1_115733_000001_000003_000005_000005_000029_000017_000097_000187_000157_000189_001531_001123_004291_014831_015493_062753_053563_153679,
  1_115796_000001_000003_000007_000013_000015_000063_000047_000005_000351_000275_001177_003947_006755_001319_017053_014267_098215_228795,
  1_115879_000001_000003_000007_000005_000019_000045_000043_000223_000213_000903_000539_000267_000083_006951_002979_056929_058405_198373,
  1_115880_000001_000001_000005_000011_000021_000037_000109_000103_000029_000049_000017_003987_005679_002559_017391_046157_038743_082245,
  1_115888_000001_000001_000003_000007_000007_000035_000057_000187_000113_000361_000721_001821_006473_010233_022549_037725_008445_220669,
  1_115908_000001_000003_000003_000009_000021_000041_000073_000029_000163_000701_001277_003869_001529_004889_010091_065507_053829_191347,
  1_115925_000001_000001_000005_000015_000005_000021_000039_000039_000341_000271_001543_003161_003935_008319_024921_019575_095009_256221,
  1_115942_000001_000001_000001_000003_000011_000033_000063_000189_000021_000773_001261_003947_000183_006769_031337_022179_057255_008323,
  1_115978_000001_000001_000003_000015_000029_000059_000103_000251_000107_000499_000915_000387_003127_005597_003345_015657_000979_091685,
  1_115986_000001_000003_000003_000011_000013_000027_000009_000137_000177_000075_000567_001511_007355_003087_015309_051733_087329_217125,
  1_116014_000001_000001_000001_000015_000009_000043_000113_000177_000507_000379_000765_000075_006895_007523_024611_007315_049653_059263,
  1_116019_000001_000003_000001_000005_000029_000023_000059_000215_000267_000161_001957_000341_004081_009635_003345_012323_128751_144577,
  1_116031_000001_000003_000003_000013_000017_000055_000059_000073_000065_000697_001209_003345_005629_004545_023043_037649_055015_010263,
  1_116048_000001_000001_000007_000001_000021_000003_000007_000019_000445_000417_001677_000799_001241_015463_019815_052845_081309_256713,
  1_116069_000001_000001_000003_000013_000013_000057_000017_000199_000003_000377_001799_002713_003937_012511_007439_033605_056697_168195,
  1_116091_000001_000003_000001_000007_000021_000053_000115_000097_000389_000083_000961_000813_001499_003411_022377_033323_118405_115947,
  1_116103_000001_000003_000007_000011_000023_000043_000085_000249_000151_000893_000833_000901_007731_013467_014721_038613_104033_136097,
  1_116107_000001_000003_000001_000011_000023_000023_000119_000129_000175_000159_001031_002379_002753_006755_010979_018225_052375_257003,
  1_116145_000001_000003_000001_000013_000001_000009_000061_000255_000433_000621_001469_000705_005841_007421_023873_030487_055823_119705,
  1_116152_000001_000003_000001_000015_000019_000031_000029_000163_000087_000793_000885_002495_004609_002757_005333_052937_079187_228777,
  1_116247_000001_000001_000001_000003_000017_000043_000069_000241_000143_000173_000327_002747_005617_016347_016155_047775_025917_163663,
  1_116289_000001_000001_000001_000001_000019_000019_000015_000027_000025_000139_000691_004019_003055_010301_011281_010957_059117_178149,
  1_116316_000001_000001_000001_000003_000015_000015_000037_000089_000103_000007_000527_002823_007205_006831_025179_022249_103323_031251,
  1_116344_000001_000001_000003_000003_000007_000049_000007_000241_000037_000011_000577_001987_001935_014787_016411_036305_065185_221253,
  1_116354_000001_000001_000001_000005_000031_000051_000123_000169_000441_000013_000721_002359_005687_002641_016339_008441_055967_098775,
  1_116368_000001_000001_000007_000005_000021_000023_000091_000229_000023_000105_000339_002371_007803_014913_012651_040573_117399_134865,
  1_116377_000001_000003_000001_000015_000019_000027_000127_000077_000469_000343_000451_002251_006705_007765_008623_010367_100379_140899,
  1_116383_000001_000003_000001_000005_000001_000011_000093_000231_000033_000133_001545_001015_007577_008871_029975_012141_130833_103123,
  1_116387_000001_000003_000003_000005_000007_000025_000095_000093_000293_000543_001785_002097_006045_004225_000607_000443_072055_032269,
  1_116408_000001_000001_000001_000001_000005_000055_000047_000105_000189_000359_001589_000765_002303_011963_025565_040669_098977_242089,
  1_116428_000001_000001_000001_000015_000013_000045_000121_000235_000125_000181_001891_003265_002097_003207_031647_013407_022515_015155,
  1_116445_000001_000001_000005_000015_000013_000011_000081_000233_000307_000505_000221_000813_006483_000741_009819_019405_074235_144761,
  1_116476_000001_000003_000005_000007_000009_000025_000031_000209_000337_000473_001831_002711_005551_013531_028747_001875_006401_159995]

def dirRows18_2_17 : List Nat := [
  1_116482_000001_000001_000007_000007_000029_000003_000127_000207_000387_000849_001449_002741_002105_000885_018115_005433_122119_016969,
  1_116488_000001_000003_000007_000009_000025_000017_000043_000209_000041_000927_000409_001567_001609_012487_016305_041365_010991_172127,
  1_116493_000001_000001_000003_000007_000027_000029_000063_000127_000081_000283_001459_000143_005993_014027_008055_028065_128389_255307,
  1_116502_000001_000003_000007_000011_000013_000041_000063_000223_000215_000901_001853_002881_005149_007439_004519_033279_127765_139431,
  1_116518_000001_000003_000007_000007_000015_000061_000061_000173_000221_000711_000191_003863_002695_009663_006277_008791_128019_256755,
  1_116524_000001_000003_000001_000009_000029_000045_000083_000043_000297_000605_001887_002421_002307_005199_017275_039225_127215_253687,
  1_116527_000001_000001_000005_000003_000021_000023_000121_000125_000497_000945_001367_002757_003481_008607_032447_062373_032171_226621,
  1_116549_000001_000003_000001_000005_000007_000001_000071_000255_000465_000951_000129_001989_006053_003737_006511_054519_016947_124491,
  1_116561_000001_000003_000005_000001_000009_000021_000127_000049_000085_000615_001897_001715_007923_010309_016919_024131_018015_140195,
  1_116562_000001_000001_000001_000001_000005_000027_000003_000205_000029_000319_000485_003941_007829_000789_004207_039939_067761_152459,
  1_116568_000001_000003_000007_000011_000009_000041_000001_000129_000511_000831_001007_002011_006211_009179_020877_062121_021879_023661,
  1_116577_000001_000001_000007_000001_000019_000053_000075_000123_000181_000735_000925_001065_003317_003201_027473_019379_078223_045725,
  1_116590_000001_000001_000005_000009_000009_000061_000003_000193_000441_000815_000583_003235_000247_014091_019877_033505_003477_020111,
  1_116602_000001_000001_000005_000013_000029_000053_000055_000165_000359_000889_001833_001543_007913_000307_022853_037839_015569_140127,
  1_116607_000001_000001_000001_000015_000021_000053_000063_000195_000299_001019_001371_001311_005401_008015_030335_056281_061011_059279,
  1_116611_000001_000001_000003_000013_000003_000057_000045_000239_000445_000419_000581_003971_004621_009327_027255_053069_126415_250313,
  1_116626_000001_000003_000001_000009_000005_000063_000021_000025_000447_000961_001857_003123_003029_009743_026069_038251_058475_108737,
  1_116637_000001_000003_000001_000015_000013_000059_000005_000021_000171_000107_001631_002407_006695_008079_002805_050995_053173_104757,
  1_116647_000001_000003_000007_000007_000001_000055_000103_000067_000369_000533_000515_002363_005147_011633_020435_024591_068155_140029,
  1_116665_000001_000003_000007_000013_000019_000051_000013_000149_000159_000915_001029_002825_005259_005139_031325_042825_119923_227811,
  1_116674_000001_000003_000003_000003_000023_000017_000121_000025_000403_000333_000491_002869_000881_012997_005101_048351_090831_143009,
  1_116700_000001_000001_000003_000015_000023_000063_000093_000043_000107_000393_000419_003509_001543_010295_011019_008389_073753_042681,
  1_116714_000001_000001_000007_000001_000029_000049_000041_000189_000303_000955_001241_001623_002269_003413_006261_002155_090945_095117,
  1_116719_000001_000001_000003_000015_000031_000013_000103_000241_000189_000283_001303_001693_001587_016313_000205_043421_121799_200151,
  1_116744_000001_000003_000005_000001_000029_000027_000105_000083_000345_000411_001197_003489_005891_001137_007311_000681_127991_069533,
  1_116764_000001_000003_000005_000015_000031_000011_000105_000221_000057_000039_000145_003233_001431_016271_021225_047989_072583_191327,
  1_116774_000001_000003_000007_000009_000025_000047_000109_000061_000257_000949_000981_001383_008003_004661_019555_020191_114641_084817,
  1_116778_000001_000001_000005_000009_000017_000009_000019_000209_000073_000573_001039_002741_001495_001615_006299_020507_084729_166977,
  1_116798_000001_000003_000005_000013_000027_000051_000039_000203_000437_000725_001479_003071_000621_015563_028473_058403_025943_116683,
  1_116803_000001_000001_000003_000009_000005_000029_000063_000061_000329_000305_000523_002243_006689_011773_019319_057783_024265_218153,
  1_116806_000001_000003_000007_000005_000017_000027_000115_000009_000243_000613_000679_001915_007265_002989_013663_015115_050779_235761,
  1_116827_000001_000001_000005_000005_000013_000035_000111_000151_000255_000569_001209_003277_004503_003797_022601_019523_126339_141289,
  1_116839_000001_000001_000003_000009_000015_000051_000085_000125_000233_001011_000231_002949_001091_008605_014855_062401_014143_212557,
  1_116863_000001_000003_000005_000011_000029_000053_000083_000031_000201_000219_001083_000967_006913_010325_001971_055841_007733_208883,
  1_116873_000001_000003_000003_000001_000023_000033_000051_000103_000265_000285_001363_002813_003327_007921_013537_031483_043405_189641,
  1_116882_000001_000001_000007_000015_000027_000003_000005_000087_000117_000437_001251_000189_003271_015579_025025_023203_039421_133581,
  1_116887_000001_000001_000005_000001_000009_000003_000091_000045_000071_000557_002019_002355_005539_002843_013025_061017_003475_179891,
  1_116915_000001_000001_000007_000005_000017_000011_000127_000241_000009_000971_001699_002719_001947_000109_019817_013949_120247_060775,
  1_116939_000001_000001_000005_000009_000009_000039_000117_000221_000197_000767_001691_004075_003665_001271_016119_064129_002681_105325,
  1_116944_000001_000003_000003_000011_000031_000051_000005_000023_000419_000715_001985_004095_007255_010491_025575_006177_035917_178345,
  1_116953_000001_000003_000005_000007_000015_000023_000099_000203_000461_000509_001501_001965_001105_001341_021713_021901_129905_067937,
  1_116965_000001_000003_000003_000015_000025_000005_000055_000167_000477_000125_000163_002379_002433_012975_026259_055825_019913_202873,
  1_117002_000001_000003_000003_000007_000015_000015_000067_000227_000413_000905_001609_002083_004011_010477_022809_061873_096423_119253,
  1_117007_000001_000003_000001_000011_000013_000017_000037_000147_000355_000445_000619_003181_005939_006953_015859_037979_024723_133037,
  1_117015_000001_000001_000005_000015_000005_000025_000089_000003_000279_000569_000343_002453_005739_002901_006709_043957_075791_020791,
  1_117032_000001_000001_000003_000005_000013_000039_000053_000203_000075_000945_000635_000349_002339_002549_023827_007903_128005_014949,
  1_117035_000001_000001_000007_000003_000007_000059_000059_000077_000143_000099_001313_003957_003807_015731_020919_060829_105967_226767,
  1_117052_000001_000001_000003_000007_000017_000049_000027_000245_000129_000583_001055_000741_005607_000689_020075_054837_113257_222677,
  1_117087_000001_000001_000007_000013_000017_000005_000019_000141_000205_000749_001769_002981_005787_004511_000135_019475_113735_116859,
  1_117139_000001_000003_000007_000001_000009_000033_000111_000139_000077_000117_000363_001171_002587_001539_030791_010697_006879_104827,
  1_117157_000001_000003_000003_000005_000027_000047_000049_000215_000065_000435_001601_000231_002047_010405_028409_017013_103909_232051,
  1_117193_000001_000003_000003_000003_000013_000019_000003_000159_000293_000675_000247_002829_006703_006085_001935_018209_015709_186669,
  1_117211_000001_000003_000003_000005_000021_000055_000017_000237_000121_000603_000953_000947_006973_015979_011029_012381_012807_131603,
  1_117214_000001_000003_000005_000003_000003_000041_000121_000203_000283_000349_001841_000115_006567_002131_000883_050515_078381_168189,
  1_117220_000001_000003_000007_000015_000005_000055_000085_000013_000077_000443_001711_001043_001265_003701_005121_041435_040637_069125,
  1_117238_000001_000001_000005_000015_000015_000033_000067_000235_000003_000095_001685_000731_002187_011857_007197_062113_012565_127455,
  1_117248_000001_000003_000007_000007_000011_000045_000125_000231_000263_000611_000221_000195_006347_014029_007823_052295_078879_211441,
  1_117275_000001_000003_000007_000015_000009_000063_000075_000189_000187_000449_000027_003647_004705_013037_003773_036441_035445_181793,
  1_117293_000001_000001_000005_000003_000031_000019_000123_000039_000297_001017_001191_002227_006085_005117_016569_064743_029329_157279,
  1_117301_000001_000001_000005_000005_000015_000047_000111_000061_000435_000657_000141_003445_006921_007759_030141_037631_085969_227563,
  1_117319_000001_000003_000001_000013_000027_000039_000015_000167_000151_000185_001513_000211_000951_012705_025703_029289_120993_156741,
  1_117338_000001_000003_000007_000007_000007_000039_000019_000221_000351_000951_001231_001915_003043_000189_018977_050149_056583_122147,
  1_117347_000001_000001_000005_000015_000029_000037_000077_000207_000291_000851_000131_001041_001657_004393_005023_012745_032253_204431,
  1_117361_000001_000001_000007_000015_000011_000059_000085_000255_000067_000023_001321_002153_007043_000417_015719_059937_037619_109331,
  1_117380_000001_000003_000007_000015_000025_000037_000043_000015_000385_000735_001741_003655_004215_001097_019519_044313_099851_204717,
  1_117389_000001_000001_000003_000007_000015_000017_000017_000105_000399_000049_000105_000159_000465_011991_029797_023907_129609_179013,
  1_117398_000001_000001_000007_000013_000009_000017_000087_000051_000391_000695_000545_003061_004499_002059_010095_013847_068519_060611,
  1_117435_000001_000003_000003_000001_000031_000007_000011_000233_000231_000189_001599_001589_000401_008759_017273_043613_048709_253521,
  1_117458_000001_000001_000001_000011_000005_000009_000027_000077_000491_000951_000579_001635_003241_014497_027149_045001_056769_160731,
  1_117476_000001_000003_000007_000015_000029_000011_000125_000101_000019_000971_000107_001525_003939_007633_016355_024727_019475_157571,
  1_117498_000001_000001_000001_000009_000025_000007_000035_000187_000321_000483_001919_001911_007869_012903_026977_049419_024973_214731,
  1_117500_000001_000001_000005_000003_000023_000001_000011_000143_000315_001015_001367_001555_001041_006655_010481_049275_049575_101061,
  1_117529_000001_000003_000005_000015_000015_000059_000013_000117_000217_000975_001821_003829_001545_000921_020875_043305_018793_158651,
  1_117554_000001_000003_000003_000011_000023_000023_000091_000007_000029_000613_001093_003881_003301_003751_016137_048277_119813_177341,
  1_117556_000001_000003_000003_000015_000007_000037_000115_000019_000147_000585_001877_002395_003343_009567_016199_013969_089731_124835,
  1_117565_000001_000001_000005_000007_000029_000003_000059_000141_000375_000527_001219_000409_007155_002823_032497_023103_073187_053089,
  1_117580_000001_000001_000005_000003_000013_000027_000111_000063_000189_000813_000643_000019_003461_013891_026651_052395_074729_148397,
  1_117585_000001_000003_000005_000001_000027_000061_000097_000227_000123_000829_001559_002523_007737_006047_000213_023613_061571_007093,
  1_117592_000001_000001_000001_000011_000017_000001_000073_000203_000391_000937_000321_003431_007163_003547_029467_065271_069775_226405,
  1_117597_000001_000001_000005_000015_000025_000007_000075_000199_000511_000731_001547_002127_001609_005623_026771_029935_076671_178683,
  1_117616_000001_000003_000005_000015_000025_000049_000099_000023_000281_000081_000507_001499_005235_009945_014099_005993_000319_178581,
  1_117637_000001_000003_000007_000009_000005_000013_000105_000007_000135_000827_000927_003463_000839_007047_019863_063859_013951_221795,
  1_117644_000001_000001_000001_000013_000007_000021_000059_000009_000467_000299_001035_001395_007413_007313_024769_044043_050679_072867,
  1_117659_000001_000001_000007_000001_000031_000033_000095_000155_000429_000413_000493_002025_002069_000551_000507_013515_003507_093873,
  1_117703_000001_000001_000003_000005_000003_000033_000109_000001_000299_000727_000495_002981_003795_011467_027173_004171_006859_129961,
  1_117704_000001_000001_000007_000009_000023_000041_000113_000103_000161_000303_001565_002637_007113_011635_013707_003559_021007_250107,
  1_117727_000001_000001_000005_000013_000001_000049_000011_000087_000031_000077_001847_001137_003031_001943_028755_032197_096043_152447,
  1_117738_000001_000001_000003_000007_000003_000003_000123_000065_000175_000809_000681_002135_005279_007119_004573_019287_090235_183391,
  1_117770_000001_000003_000001_000013_000007_000005_000025_000151_000437_000155_001841_000219_005641_012097_006153_000011_060315_169293,
  1_117796_000001_000001_000007_000005_000021_000029_000023_000083_000035_000651_001507_000635_003867_012133_025523_055341_105741_240349,
  1_117799_000001_000001_000001_000015_000009_000029_000027_000151_000463_000747_000547_000577_001263_015235_006695_060849_072231_175671,
  1_117820_000001_000003_000005_000011_000011_000043_000081_000037_000505_000509_001325_003295_000839_005855_019795_001403_015711_219481,
  1_117832_000001_000003_000003_000015_000025_000061_000121_000037_000201_000133_000537_001345_004213_013023_018795_008949_084431_105521,
  1_117840_000001_000003_000007_000011_000013_000051_000087_000245_000357_000007_000699_002003_005963_001399_000069_019083_114585_232313,
  1_117843_000001_000001_000001_000013_000009_000029_000065_000123_000037_000885_000227_002795_001037_010905_021217_004081_077643_254245,
  1_117865_000001_000003_000001_000003_000025_000023_000071_000189_000253_000785_001337_001275_003285_001067_008607_003883_119099_116637,
  1_117868_000001_000001_000001_000015_000019_000043_000017_000089_000257_000175_001943_000207_000597_009279_000405_033209_065221_039557,
  1_117874_000001_000001_000007_000005_000007_000047_000127_000011_000197_000871_000023_001951_006829_007831_005223_056287_115649_114283,
  1_117886_000001_000003_000001_000003_000001_000035_000081_000189_000019_000117_001683_000469_008117_005449_022871_005505_125111_128717,
  1_117962_000001_000003_000007_000005_000007_000031_000105_000057_000387_000691_001293_003103_002329_016247_018357_055453_112633_225641]

def dirRows18_2_18 : List Nat := [
  1_117967_000001_000003_000001_000003_000013_000003_000065_000025_000047_000413_000521_003507_001793_014431_022341_039813_046399_204501,
  1_117995_000001_000003_000001_000001_000031_000037_000021_000045_000261_000665_001243_001937_005001_003789_026473_020153_107131_075523,
  1_118000_000001_000003_000005_000015_000027_000061_000109_000139_000019_000583_000353_000445_000053_000067_020753_057827_116527_055109,
  1_118017_000001_000001_000003_000003_000001_000037_000113_000021_000305_000967_001703_002095_001059_002843_022381_024871_024765_052425,
  1_118037_000001_000003_000007_000011_000027_000059_000111_000111_000283_000079_001227_003631_004169_005671_007769_056553_075503_206259,
  1_118038_000001_000001_000005_000011_000011_000001_000127_000013_000017_000255_001383_002879_006785_000289_007061_053067_011539_131405,
  1_118051_000001_000001_000005_000015_000029_000027_000067_000015_000247_000689_000579_003237_005279_013847_020305_060237_115841_144855,
  1_118057_000001_000001_000005_000001_000009_000025_000075_000011_000083_001015_000281_001617_007449_010673_007033_038839_113703_233101,
  1_118072_000001_000003_000003_000003_000023_000041_000081_000109_000199_000969_000935_001793_006921_004013_009625_048149_054395_001193,
  1_118080_000001_000003_000005_000007_000019_000063_000025_000201_000063_000799_000765_000533_001417_003199_007773_044247_112207_011783,
  1_118098_000001_000003_000001_000011_000007_000025_000087_000159_000491_000749_001157_000667_002951_012019_022259_036933_124159_176041,
  1_118107_000001_000001_000005_000015_000021_000019_000113_000175_000129_000385_002025_002685_001925_008547_004835_015953_128023_236341,
  1_118109_000001_000001_000001_000009_000013_000047_000025_000081_000389_000249_001857_001061_004439_003717_016299_023247_095275_222701,
  1_118114_000001_000003_000003_000001_000003_000061_000061_000117_000159_000689_000043_000113_004203_007699_027607_037195_063415_090481,
  1_118123_000001_000003_000001_000005_000011_000049_000073_000013_000307_000655_000645_002765_006079_012687_022417_044713_005247_040265,
  1_118150_000001_000001_000007_000013_000005_000055_000057_000237_000317_000101_000481_002515_000707_006385_009421_050557_092395_193737,
  1_118159_000001_000003_000005_000001_000027_000035_000065_000107_000063_000057_001699_004077_004279_008547_015137_011533_117641_064925,
  1_118164_000001_000001_000005_000001_000013_000007_000007_000141_000305_000191_002033_002677_006025_012927_004057_012047_060253_090803,
  1_118173_000001_000001_000007_000003_000001_000009_000063_000233_000185_000097_000913_000187_004321_008951_027669_027035_030029_218725,
  1_118201_000001_000001_000007_000001_000011_000059_000041_000195_000335_000551_000491_003079_007777_004003_024543_017165_103261_167505,
  1_118212_000001_000001_000003_000003_000009_000059_000037_000185_000289_000845_001083_000063_007439_004677_029245_040813_016295_045499,
  1_118246_000001_000003_000005_000001_000001_000037_000089_000005_000277_000493_000155_001641_005395_011389_026247_002833_103803_074447,
  1_118257_000001_000001_000003_000001_000029_000055_000083_000211_000377_000583_001075_002679_007157_011719_001653_005977_052263_045531,
  1_118303_000001_000001_000005_000015_000001_000031_000089_000007_000239_000821_000887_001319_000225_014555_005443_044717_099803_241577,
  1_118310_000001_000003_000005_000011_000007_000023_000081_000161_000067_001011_000177_002837_007767_014385_029415_009377_007407_128403,
  1_118313_000001_000001_000007_000011_000003_000013_000013_000237_000199_000601_000481_003809_006591_008497_025361_022547_028317_022961,
  1_118324_000001_000003_000001_000001_000031_000029_000105_000161_000483_000391_000321_001087_004149_008803_022291_024611_114447_033645,
  1_118334_000001_000003_000001_000011_000001_000047_000041_000045_000287_000503_000169_002265_001835_006609_025245_007069_061137_160653,
  1_118336_000001_000001_000007_000013_000011_000039_000029_000039_000489_000205_000741_002871_000377_010679_011689_050947_085309_095697,
  1_118339_000001_000003_000007_000007_000023_000019_000103_000015_000079_000425_000369_002009_004417_011031_002113_036969_073241_120903,
  1_118353_000001_000003_000001_000007_000027_000009_000043_000033_000123_000895_000223_001045_002701_003339_012099_024449_052973_175671,
  1_118354_000001_000003_000005_000005_000003_000001_000013_000117_000429_000167_001361_002299_007565_001153_009259_029209_025747_071005,
  1_118390_000001_000003_000001_000015_000007_000007_000013_000209_000073_000523_001549_002545_005583_010209_027205_041243_014217_208993,
  1_118396_000001_000003_000005_000005_000003_000029_000099_000255_000479_000297_001319_002171_007321_014425_015869_044449_010917_171165,
  1_118436_000001_000003_000003_000011_000013_000049_000029_000095_000079_000987_000161_000859_006503_008839_014131_030249_016183_040257,
  1_118453_000001_000003_000003_000011_000027_000007_000027_000033_000255_000847_000789_003897_002599_016107_022379_001853_102713_197547,
  1_118466_000001_000001_000003_000009_000029_000011_000107_000227_000035_000183_000639_001585_000313_001451_019789_013855_094277_085569,
  1_118492_000001_000003_000007_000007_000025_000033_000101_000049_000137_000457_002027_003317_001961_006097_000739_012875_069503_095453,
  1_118506_000001_000003_000003_000011_000029_000013_000127_000003_000031_000319_001341_000927_005067_013891_031265_041381_049341_160343,
  1_118525_000001_000001_000003_000015_000031_000021_000093_000155_000471_000707_001395_002995_000867_010353_008137_044267_024823_006113,
  1_118557_000001_000003_000001_000007_000007_000033_000083_000079_000349_000687_001045_001183_004441_015199_001953_036395_084691_134939,
  1_118561_000001_000001_000003_000015_000013_000021_000041_000105_000189_000439_001171_004005_007641_001597_024317_058749_035539_220647,
  1_118586_000001_000001_000003_000015_000013_000039_000049_000005_000461_000613_001633_001951_007959_005733_010061_018829_049505_090033,
  1_118606_000001_000003_000005_000005_000029_000025_000019_000227_000379_000525_000687_002629_007729_004791_005911_014481_049063_216669,
  1_118627_000001_000003_000007_000007_000007_000063_000093_000227_000079_000165_001971_001695_004485_006009_008769_012861_083653_027667,
  1_118641_000001_000001_000005_000005_000025_000011_000023_000089_000363_000491_000459_004063_003787_009375_028011_044757_056441_116609,
  1_118654_000001_000003_000005_000009_000007_000053_000043_000149_000435_000035_000135_001759_003197_007749_012731_028295_025901_125847,
  1_118687_000001_000001_000003_000005_000015_000015_000001_000215_000307_000711_001971_002795_000677_011921_010303_037997_006653_051295,
  1_118688_000001_000001_000005_000015_000001_000059_000075_000195_000051_000215_001303_003023_008023_010951_013015_023513_037029_023581,
  1_118735_000001_000001_000001_000003_000027_000003_000077_000165_000097_000499_000937_001129_006649_011305_027763_032849_078251_210407,
  1_118737_000001_000003_000003_000003_000009_000021_000019_000197_000339_000053_001875_001057_003485_014645_013417_039307_081437_045857,
  1_118750_000001_000001_000001_000005_000019_000005_000095_000205_000399_000699_000819_001927_007913_008109_001223_028595_000397_081051,
  1_118773_000001_000003_000007_000013_000023_000011_000037_000167_000189_000813_001199_003545_000655_013239_010469_033895_119025_185361,
  1_118778_000001_000001_000005_000011_000009_000013_000041_000037_000443_000269_001199_001347_007081_011273_014389_064083_117901_051903,
  1_118786_000001_000001_000003_000013_000005_000017_000117_000151_000155_000637_000731_001839_000855_009749_019529_018101_020341_021941,
  1_118809_000001_000001_000001_000011_000015_000017_000035_000009_000091_000907_000667_000853_001455_010097_031277_000749_047089_219517,
  1_118833_000001_000003_000007_000001_000027_000031_000009_000145_000309_000811_000005_002645_007851_001953_021427_018805_108755_077215,
  1_118853_000001_000001_000007_000003_000021_000007_000025_000233_000145_001015_000043_002205_004735_013257_024001_050469_042567_253745,
  1_118854_000001_000003_000001_000015_000003_000053_000051_000045_000397_000379_000641_000895_007569_015783_023923_006147_121395_261853,
  1_118863_000001_000001_000001_000001_000023_000047_000035_000125_000289_000065_001875_002309_000519_005435_005271_025319_014557_019389,
  1_118881_000001_000003_000005_000007_000027_000043_000015_000061_000357_000791_001781_003671_003911_001325_005607_044107_067873_119849,
  1_118896_000001_000003_000001_000005_000025_000037_000105_000051_000491_000407_000475_001763_001425_014883_031435_048979_120667_131089,
  1_118917_000001_000003_000005_000013_000001_000051_000109_000161_000215_000871_000185_002389_007977_006705_014045_045569_044557_114795,
  1_118921_000001_000003_000007_000011_000017_000021_000111_000183_000343_000593_000447_003995_000759_003709_032655_030141_127225_120899,
  1_118939_000001_000001_000005_000003_000017_000003_000069_000025_000113_000897_001933_002717_002003_005847_002541_062415_050975_097903,
  1_118948_000001_000001_000001_000001_000009_000035_000107_000081_000257_000057_001719_004049_001237_010659_004689_020887_090791_251911,
  1_118960_000001_000001_000007_000011_000001_000049_000083_000213_000169_000169_000825_002983_005833_002413_032165_047459_129021_156217,
  1_118970_000001_000001_000005_000013_000015_000039_000061_000093_000407_000553_000839_004035_006609_006327_000945_049625_127867_240161,
  1_118983_000001_000001_000001_000015_000023_000047_000021_000235_000081_000431_001819_001141_007973_004623_004539_023201_083111_230857,
  1_119025_000001_000003_000003_000015_000009_000015_000015_000173_000029_000803_001453_002621_008095_006639_006607_021471_044785_122271,
  1_119026_000001_000003_000003_000007_000021_000005_000127_000203_000043_000581_001925_000165_004615_009141_018563_054413_071559_172791,
  1_119064_000001_000003_000003_000003_000027_000031_000055_000003_000381_000971_001087_002659_000139_010935_009189_003445_015071_218873,
  1_119069_000001_000003_000001_000003_000001_000057_000047_000071_000085_000335_000207_000225_002931_014721_021431_017199_000745_177403,
  1_119079_000001_000003_000001_000007_000007_000017_000021_000057_000345_000029_001147_001179_007371_014725_027445_062061_016483_112489,
  1_119085_000001_000003_000007_000015_000023_000011_000091_000001_000001_000117_001665_003899_005683_014497_025633_006233_104029_022155,
  1_119115_000001_000003_000005_000009_000001_000027_000015_000187_000037_000329_000585_000729_005651_015715_004339_001899_090611_195643,
  1_119165_000001_000001_000003_000011_000001_000045_000095_000103_000013_000083_000319_002295_006333_013469_019237_055985_129725_141699,
  1_119166_000001_000001_000005_000011_000007_000041_000097_000159_000511_000617_001545_003023_007919_008437_008345_016701_069053_105047,
  1_119193_000001_000003_000003_000011_000029_000035_000023_000095_000277_000931_000857_003887_004597_010841_012947_018009_061499_242827,
  1_119194_000001_000001_000003_000003_000007_000063_000035_000161_000125_000637_000149_001045_003297_016213_001543_008073_080373_061507,
  1_119199_000001_000001_000007_000005_000031_000043_000113_000189_000181_000659_001971_003309_004237_004279_031563_029429_017443_154385,
  1_119215_000001_000001_000001_000013_000019_000043_000099_000091_000047_000477_000153_003295_006281_000779_017169_000343_001723_171133,
  1_119218_000001_000001_000001_000015_000009_000035_000123_000045_000417_000631_001415_001835_003063_000897_018947_062477_012759_097831,
  1_119241_000001_000001_000003_000013_000031_000001_000031_000139_000411_000605_001829_000303_003891_015807_007335_044833_087427_062183,
  1_119277_000001_000001_000003_000013_000029_000055_000097_000107_000241_000981_001281_003295_006825_015865_004221_024695_054203_252069,
  1_119301_000001_000003_000007_000013_000001_000003_000033_000165_000483_000813_000127_001717_008077_003521_023465_041705_002769_173233,
  1_119306_000001_000003_000001_000011_000011_000051_000039_000125_000375_000825_001775_002923_004903_004779_000907_047787_022293_169631,
  1_119335_000001_000003_000005_000005_000013_000027_000043_000229_000267_000153_000567_003403_002103_006203_029629_029715_116735_122515,
  1_119344_000001_000003_000005_000013_000003_000003_000015_000005_000345_000343_000691_003703_000361_002019_009309_026909_022897_103555,
  1_119364_000001_000003_000001_000011_000009_000025_000123_000235_000131_000469_001749_003681_003841_010157_015183_061413_042207_170359,
  1_119373_000001_000001_000007_000003_000013_000009_000007_000191_000239_000417_000817_001381_001179_002719_021025_017429_050295_196485,
  1_119382_000001_000001_000007_000009_000009_000031_000123_000229_000381_000569_000513_001617_006141_009717_031769_030159_113697_254237,
  1_119410_000001_000001_000001_000015_000031_000043_000037_000017_000283_000905_000297_001317_001883_011313_005653_055655_121029_149831,
  1_119425_000001_000001_000001_000007_000007_000047_000083_000101_000497_000465_001133_003877_005371_003355_017161_050185_120837_255103,
  1_119459_000001_000001_000003_000005_000005_000019_000003_000251_000433_000303_001193_001263_002139_000473_010725_057725_111411_133687,
  1_119473_000001_000001_000001_000007_000003_000001_000099_000115_000481_000395_000115_001699_000953_002807_007227_052781_002855_161159,
  1_119486_000001_000001_000005_000009_000025_000025_000085_000003_000451_000847_000837_003669_004717_003661_029111_043735_049445_100379,
  1_119500_000001_000001_000007_000009_000019_000061_000067_000123_000195_000483_001741_002719_007809_005035_030689_021325_056191_046127,
  1_119508_000001_000001_000003_000011_000015_000039_000101_000027_000103_000807_001557_001647_001285_016169_020203_057153_060749_071361,
  1_119511_000001_000003_000003_000003_000019_000001_000093_000031_000105_000925_000689_003061_007451_012667_027179_036295_061011_090321]

def dirRows18_2_19 : List Nat := [
  1_119517_000001_000003_000007_000015_000019_000035_000047_000241_000261_000935_001033_000751_006519_006911_013519_002539_040285_081535,
  1_119528_000001_000001_000007_000013_000017_000031_000071_000135_000167_000005_000673_002909_004377_003453_031289_038081_021993_192933,
  1_119533_000001_000001_000005_000015_000023_000049_000085_000127_000013_000849_001661_002099_003479_003613_021723_058147_056321_203171,
  1_119539_000001_000001_000007_000015_000023_000063_000003_000207_000445_000573_001419_001161_002237_001251_023387_065259_081447_074555,
  1_119542_000001_000003_000005_000003_000025_000061_000037_000025_000287_000969_000037_001615_007923_004457_027611_008519_113957_237427,
  1_119546_000001_000003_000005_000011_000011_000025_000117_000169_000149_000701_000139_002835_006029_009067_000841_051707_009287_115825,
  1_119566_000001_000001_000001_000013_000031_000005_000009_000005_000313_001023_000551_003635_006765_013379_029135_039737_080913_256355,
  1_119587_000001_000003_000001_000013_000009_000023_000105_000117_000181_000211_000755_000555_002763_013965_014743_063725_016377_203435,
  1_119590_000001_000003_000001_000015_000011_000045_000111_000147_000471_000321_000381_002921_006423_000629_025117_051213_126941_181931,
  1_119607_000001_000001_000001_000011_000001_000049_000127_000105_000315_000001_000859_001223_005967_002521_014491_058399_045155_192567,
  1_119614_000001_000001_000003_000009_000019_000021_000073_000093_000095_000307_000293_003243_004765_002253_016775_029861_003785_090357,
  1_119625_000001_000001_000003_000007_000003_000053_000033_000167_000165_000509_001133_000169_006951_007715_026317_005249_086235_039649,
  1_119633_000001_000001_000005_000005_000003_000047_000105_000089_000201_001003_000877_000635_002225_006391_021247_005707_001233_087055,
  1_119634_000001_000001_000001_000001_000009_000039_000061_000201_000435_000843_001245_000533_001757_001117_019687_054817_032495_228865,
  1_119643_000001_000003_000001_000001_000003_000061_000063_000117_000143_000217_000435_001977_002647_007631_012969_050211_026483_256329,
  1_119683_000001_000003_000003_000009_000021_000025_000113_000243_000457_000143_000833_001505_003071_001845_017867_058205_103819_185215,
  1_119704_000001_000001_000005_000007_000023_000051_000011_000117_000195_000535_000685_000031_003037_009719_022811_042959_021021_126297,
  1_119710_000001_000003_000003_000001_000001_000017_000107_000245_000257_000547_000887_000045_005243_002439_022191_019503_002143_075187,
  1_119734_000001_000003_000007_000009_000011_000027_000123_000197_000353_000151_001115_000403_001105_007425_007463_042065_116187_154537,
  1_119752_000001_000003_000005_000015_000023_000005_000049_000177_000223_000615_001255_002081_000321_008733_019549_053027_000275_062739,
  1_119760_000001_000003_000007_000001_000017_000061_000003_000233_000249_000763_000369_000555_001621_007221_022575_013295_099793_233635,
  1_119826_000001_000001_000003_000001_000027_000041_000125_000113_000047_000583_000543_000453_001213_014187_001645_035761_110051_197081,
  1_119922_000001_000001_000007_000009_000029_000043_000105_000125_000489_000135_000153_002279_004079_006731_012055_060181_082563_173991,
  1_119931_000001_000003_000007_000003_000029_000001_000067_000151_000127_000625_000113_002127_006723_012359_028609_060605_020375_120129,
  1_119977_000001_000001_000005_000007_000009_000013_000027_000171_000129_000199_000303_004045_002047_008887_022233_057571_040545_036479,
  1_120015_000001_000003_000001_000007_000001_000005_000127_000203_000213_000691_001155_000027_005409_013519_006747_042371_037089_145855,
  1_120020_000001_000003_000003_000009_000003_000033_000119_000025_000337_000715_001093_000987_007157_014975_028595_019021_001243_148707,
  1_120083_000001_000003_000001_000013_000003_000041_000081_000151_000023_000787_000181_002357_005077_001997_006451_025505_044875_198341,
  1_120086_000001_000001_000007_000003_000005_000015_000009_000169_000337_000487_001325_001505_000465_002339_020747_008269_096875_108985,
  1_120101_000001_000003_000001_000007_000023_000007_000113_000181_000025_000989_001649_000001_000823_006793_018729_003599_097951_239609,
  1_120105_000001_000003_000007_000007_000003_000063_000063_000207_000419_000355_001133_002979_002071_011699_032565_061347_106475_016893,
  1_120155_000001_000001_000007_000005_000007_000003_000119_000133_000189_000341_001571_001559_004309_016203_022459_021019_080375_003453,
  1_120188_000001_000001_000003_000011_000021_000021_000045_000069_000485_000021_000727_000703_005209_014745_003437_054603_104357_151207,
  1_120195_000001_000003_000007_000005_000025_000017_000013_000147_000329_000093_000121_000315_002779_006921_000425_050441_001133_252291,
  1_120216_000001_000001_000003_000005_000005_000051_000015_000135_000323_000841_000409_001067_003243_004207_006833_059329_090545_116661,
  1_120228_000001_000001_000003_000015_000025_000007_000043_000147_000153_000947_000079_001897_004519_014441_027181_038517_071673_158597,
  1_120238_000001_000003_000003_000003_000003_000047_000109_000111_000273_000271_000741_003999_000649_007367_014933_011785_092709_133815,
  1_120255_000001_000001_000003_000013_000005_000041_000055_000015_000409_000355_001255_003043_007503_003523_004261_048927_119901_149411,
  1_120317_000001_000001_000005_000001_000011_000057_000003_000149_000409_000287_000909_003541_004243_004485_003611_063213_102575_049863,
  1_120327_000001_000001_000003_000007_000015_000055_000119_000185_000511_000301_000237_003701_003195_001323_027511_044635_045363_117683,
  1_120369_000001_000003_000003_000011_000003_000061_000125_000015_000235_000819_000467_001097_001055_016343_008329_037807_038663_145625,
  1_120382_000001_000001_000007_000001_000025_000049_000117_000163_000413_000509_000063_001313_005113_006505_025475_012059_088021_168037,
  1_120404_000001_000003_000003_000009_000009_000037_000015_000185_000359_000231_001483_002999_000773_010375_027103_039899_100187_054485,
  1_120414_000001_000003_000003_000001_000013_000063_000111_000079_000133_000425_001491_003735_000533_013417_005161_011455_016907_132267,
  1_120432_000001_000003_000001_000015_000015_000047_000057_000157_000453_000681_001811_001685_004329_000131_022763_001017_066637_001673,
  1_120435_000001_000003_000007_000003_000031_000005_000105_000101_000431_000983_001333_000845_007369_015041_006527_008617_061911_137513,
  1_120454_000001_000003_000007_000015_000003_000045_000057_000023_000393_000495_000769_000215_003611_012907_020637_052997_088345_037961,
  1_120463_000001_000003_000005_000007_000031_000003_000085_000249_000353_000559_001803_000959_004625_009413_022339_006071_124765_043973,
  1_120471_000001_000003_000001_000009_000031_000015_000109_000197_000179_000293_000457_000709_000627_007743_001997_059625_036919_252849,
  1_120505_000001_000001_000007_000011_000017_000021_000089_000011_000431_000617_001029_002649_001725_002723_018367_046103_108063_221855,
  1_120528_000001_000003_000007_000001_000029_000007_000081_000187_000353_000807_000965_003655_003255_009139_028619_032127_107901_139099,
  1_120588_000001_000001_000005_000003_000017_000009_000039_000059_000431_000829_000525_001885_002387_013381_005271_029739_080413_240595,
  1_120616_000001_000003_000001_000005_000001_000005_000025_000009_000193_000971_000681_002921_003271_003891_020123_037477_033141_082481,
  1_120630_000001_000001_000003_000005_000001_000063_000077_000093_000063_000399_001945_000387_005457_007339_013279_034119_129903_012621,
  1_120644_000001_000003_000003_000011_000017_000011_000117_000189_000473_000023_000013_001261_002153_012181_021075_033179_043355_168293,
  1_120672_000001_000003_000005_000011_000021_000013_000073_000227_000211_000939_000885_002091_001123_014809_015705_056675_058087_001451,
  1_120677_000001_000003_000007_000001_000015_000015_000101_000235_000287_000675_001741_003885_006211_014817_010235_029289_060401_027639,
  1_120718_000001_000003_000005_000013_000013_000007_000117_000031_000143_000505_001823_002841_002133_007305_014093_014229_085179_136793,
  1_120725_000001_000001_000003_000015_000027_000015_000067_000237_000315_000793_000207_003781_005201_013191_009601_044041_116097_178543,
  1_120730_000001_000003_000001_000009_000009_000047_000053_000225_000109_000831_001757_000349_006353_015417_016395_036295_010901_122349,
  1_120756_000001_000001_000001_000001_000001_000017_000109_000013_000123_000537_001859_003717_004441_004271_029017_013601_018533_216695,
  1_120759_000001_000003_000003_000013_000031_000023_000045_000233_000029_000295_000761_000757_000777_003499_026715_024153_113777_256337,
  1_120765_000001_000003_000005_000007_000023_000057_000037_000179_000511_000897_002031_001285_003957_015085_019993_028819_039959_187445,
  1_120795_000001_000003_000001_000015_000025_000041_000121_000227_000433_000859_000357_003107_003241_000879_010763_059473_073145_258493,
  1_120821_000001_000003_000003_000005_000013_000009_000085_000117_000347_000161_000995_000549_005443_009057_028931_057549_027523_054717,
  1_120850_000001_000001_000005_000013_000013_000033_000097_000037_000055_000367_000403_002361_005717_004433_026921_014227_069445_100337,
  1_120868_000001_000003_000005_000007_000001_000041_000089_000165_000163_000001_000685_003577_001079_001057_000125_035853_008387_113035,
  1_120880_000001_000003_000003_000013_000003_000059_000119_000051_000325_000205_000821_001417_002097_013725_031785_053803_015737_002013,
  1_120885_000001_000003_000007_000007_000001_000045_000095_000221_000249_000065_001479_002163_005761_015321_008013_025771_110897_214127,
  1_120892_000001_000003_000003_000005_000025_000011_000027_000029_000095_000955_001989_003775_000609_007073_004571_038857_092205_156209,
  1_120897_000001_000003_000001_000013_000029_000057_000097_000047_000499_000641_000587_002125_002257_013911_013993_001715_046233_181279,
  1_120912_000001_000001_000007_000013_000007_000055_000069_000235_000379_000269_001969_002733_003677_001707_026999_064041_098111_138691,
  1_120934_000001_000001_000003_000005_000027_000063_000065_000251_000413_000903_001307_002941_005649_011271_001935_049389_037995_218197,
  1_120991_000001_000003_000003_000013_000007_000001_000045_000225_000013_000169_000581_001657_000117_010251_023435_040379_127085_088185,
  1_121004_000001_000001_000007_000005_000021_000063_000069_000037_000459_000115_001403_001939_006437_013149_003597_050115_129075_260613,
  1_121021_000001_000001_000003_000005_000029_000057_000015_000223_000131_000907_001561_001103_004355_002763_006359_055401_001751_053143,
  1_121022_000001_000001_000007_000011_000015_000005_000017_000159_000505_000407_001873_002501_002203_012559_005123_053281_029307_016215,
  1_121036_000001_000001_000001_000015_000009_000041_000077_000145_000325_000529_001939_003835_003109_012215_018323_002551_089793_094745,
  1_121041_000001_000003_000001_000009_000021_000005_000007_000057_000099_001005_001211_004063_006851_007653_029283_015463_121289_187055,
  1_121069_000001_000001_000003_000003_000013_000011_000017_000125_000173_000283_001419_002533_006875_016031_026633_051027_027343_074257,
  1_121078_000001_000001_000003_000011_000029_000049_000087_000019_000367_000941_000983_001041_008099_008735_030123_062665_087051_098745,
  1_121126_000001_000001_000001_000015_000025_000057_000097_000177_000467_000181_000923_003833_005405_014335_023495_048323_070331_136825,
  1_121135_000001_000001_000001_000013_000021_000017_000029_000237_000305_000117_001077_002999_001879_006875_019321_010999_130513_160883,
  1_121138_000001_000003_000007_000015_000019_000047_000089_000153_000287_000007_001429_001507_002853_004197_011195_033891_059063_189601,
  1_121162_000001_000001_000003_000015_000031_000005_000113_000071_000013_000925_000147_000451_005701_013671_013943_013799_059627_115715,
  1_121176_000001_000001_000001_000005_000013_000025_000051_000011_000409_000393_001479_002583_003101_000303_017609_010653_069107_150459,
  1_121186_000001_000001_000005_000007_000021_000027_000107_000077_000061_000467_001723_001247_000287_001039_025347_018111_024837_042903,
  1_121209_000001_000003_000005_000005_000001_000029_000057_000177_000311_000009_000819_003235_003887_009679_011849_031755_068467_135587,
  1_121212_000001_000001_000005_000005_000029_000015_000013_000069_000163_000709_001405_003835_000777_007567_010153_005043_129465_059113,
  1_121221_000001_000001_000001_000013_000003_000047_000097_000101_000179_000053_001919_000017_003597_011769_017971_039257_076167_255653,
  1_121225_000001_000001_000007_000005_000001_000045_000121_000223_000299_000271_001857_001955_005509_001245_009519_060547_078497_191251,
  1_121228_000001_000001_000001_000011_000005_000057_000087_000113_000059_000547_001591_001905_000475_004687_027591_043807_009617_070769,
  1_121239_000001_000001_000007_000001_000001_000035_000035_000011_000107_000401_000827_002271_002131_012751_025771_051311_046897_198655,
  1_121245_000001_000003_000003_000003_000015_000029_000091_000147_000009_000611_001739_003211_003883_014205_024073_037445_054451_208123,
  1_121264_000001_000003_000007_000001_000025_000053_000033_000161_000365_000651_001263_001623_001767_003789_018013_052133_060119_100859,
  1_121270_000001_000003_000005_000009_000015_000009_000097_000067_000379_000981_001323_001095_003701_003257_013647_012511_053375_156689,
  1_121299_000001_000001_000003_000005_000009_000023_000097_000239_000171_000501_001549_001029_008019_005023_009439_014223_054433_152855,
  1_121306_000001_000001_000007_000013_000017_000035_000111_000169_000081_000599_001673_003461_007905_007925_016311_020327_057109_158719,
  1_121315_000001_000001_000003_000015_000007_000033_000023_000033_000273_000987_001489_000363_004017_008919_028839_010143_114179_218155,
  1_121317_000001_000003_000005_000013_000029_000005_000061_000133_000065_000933_000509_000551_007365_003703_015003_027849_064211_140383]

def dirRows18_2_20 : List Nat := [
  1_121321_000001_000001_000001_000013_000007_000025_000049_000001_000269_000601_000251_000033_002443_013725_005805_063347_109489_111491,
  1_121324_000001_000001_000007_000009_000031_000023_000117_000071_000371_000733_000605_004019_004577_003887_031061_024939_057905_148331,
  1_121330_000001_000003_000005_000001_000003_000035_000035_000227_000355_000027_001673_002173_005001_014613_006343_040775_072349_101287,
  1_121339_000001_000001_000007_000015_000029_000003_000043_000077_000043_000051_001495_002577_002093_007515_020151_044533_032223_006355,
  1_121346_000001_000001_000005_000005_000011_000047_000091_000221_000035_000969_000343_003287_000857_004851_012599_000939_053615_262125,
  1_121370_000001_000001_000005_000007_000029_000011_000067_000155_000317_000629_000211_000583_001061_013243_013999_045405_018187_099021,
  1_121372_000001_000003_000007_000013_000003_000039_000005_000207_000175_000515_001181_000739_000379_009919_012079_018903_062475_239383,
  1_121393_000001_000001_000001_000015_000025_000015_000113_000215_000281_000861_001055_002577_005545_012365_016097_035775_008331_119353,
  1_121396_000001_000001_000001_000001_000025_000055_000111_000185_000485_000361_000155_004077_005517_016057_019069_040129_038959_211233,
  1_121414_000001_000001_000003_000003_000013_000001_000093_000129_000243_000813_000115_000177_000053_008251_032351_063847_054537_025527,
  1_121442_000001_000003_000005_000011_000025_000047_000113_000069_000285_000451_002011_000081_006535_003409_008647_056575_000975_149571,
  1_121475_000001_000001_000007_000007_000019_000001_000075_000123_000413_000697_000041_003179_004075_015967_002477_017549_054193_258657,
  1_121499_000001_000001_000005_000005_000011_000023_000019_000253_000303_000255_000901_000875_001517_006953_025189_026763_028843_167705,
  1_121512_000001_000003_000007_000007_000017_000045_000031_000079_000279_000965_001869_001201_001627_014035_011651_045021_076171_049137,
  1_121518_000001_000003_000001_000015_000009_000055_000083_000059_000437_000915_001667_000089_002797_001841_029261_023497_055785_102265,
  1_121588_000001_000001_000005_000005_000003_000059_000017_000131_000199_000541_001647_002175_004449_006081_010609_039467_072945_032423,
  1_121597_000001_000003_000001_000007_000005_000007_000085_000011_000255_000397_000087_001661_006523_005699_029407_028015_050783_246625,
  1_121612_000001_000003_000003_000013_000005_000061_000123_000147_000295_000037_000301_002549_007615_005725_032477_018121_069353_242579,
  1_121629_000001_000003_000005_000007_000009_000045_000083_000211_000475_000281_000743_003955_007811_006043_030547_005315_053345_025775,
  1_121630_000001_000003_000003_000005_000007_000063_000125_000043_000131_000353_000345_001689_005483_005467_013445_013041_068381_134567,
  1_121634_000001_000003_000005_000011_000031_000009_000123_000053_000237_000911_000349_003737_001867_007375_003031_004191_008697_182255,
  1_121680_000001_000001_000003_000003_000011_000011_000089_000251_000069_000093_001241_001719_002227_001793_021683_058099_110831_024835,
  1_121725_000001_000001_000005_000009_000003_000057_000003_000017_000011_000217_000923_003623_000727_001837_021203_063007_033691_216259,
  1_121798_000001_000003_000003_000009_000021_000025_000083_000115_000325_000921_000811_000303_003555_010669_005837_045585_061923_159061,
  1_121815_000001_000003_000003_000015_000017_000029_000077_000075_000509_000363_000199_000317_007375_011971_015679_017135_101925_103375,
  1_121822_000001_000003_000005_000005_000029_000045_000085_000151_000073_000329_000911_003055_002381_004717_005133_058987_059885_226689,
  1_121837_000001_000003_000005_000001_000011_000059_000017_000083_000385_000867_000215_002275_007247_010613_006493_063843_074483_134271,
  1_121840_000001_000001_000007_000013_000029_000025_000077_000061_000281_000439_000353_002213_000697_014741_001597_007515_007703_149123,
  1_121869_000001_000003_000007_000007_000007_000053_000077_000021_000483_000793_000969_000123_003581_012489_022943_054573_025785_178419,
  1_121878_000001_000003_000005_000003_000017_000059_000075_000055_000125_000569_001625_000077_004593_008493_005259_054537_100479_107509,
  1_121897_000001_000001_000001_000015_000005_000007_000011_000169_000349_000133_001113_002877_006109_016275_009755_001385_055005_036095,
  1_121920_000001_000001_000007_000007_000021_000025_000041_000161_000011_000321_000343_000705_004601_012867_021997_025283_078467_159089,
  1_121929_000001_000003_000007_000001_000015_000003_000071_000227_000427_000883_001021_001405_007791_012669_009159_030931_105993_040917,
  1_121944_000001_000001_000005_000005_000025_000041_000093_000057_000125_000915_000701_002589_007147_015369_028307_054635_013253_097177,
  1_121999_000001_000003_000001_000013_000011_000063_000103_000241_000317_000927_000965_003179_005213_013849_011509_052665_001637_235647,
  1_122008_000001_000003_000005_000003_000031_000031_000111_000009_000339_001017_001715_000101_006849_014329_031607_040741_073067_119001,
  1_122056_000001_000003_000001_000013_000003_000055_000053_000015_000185_000717_001447_003029_004899_014217_019949_032817_024829_206829,
  1_122062_000001_000003_000007_000009_000021_000011_000033_000213_000005_000769_001807_002179_000063_005167_023235_025495_113299_129419,
  1_122067_000001_000003_000007_000011_000011_000033_000023_000125_000021_000609_000595_001329_006175_015837_003889_057797_081453_211413,
  1_122083_000001_000001_000005_000011_000031_000007_000013_000073_000143_000559_001541_000275_003349_002987_021797_032921_125395_247667,
  1_122095_000001_000001_000003_000011_000019_000001_000023_000167_000337_000075_001597_003591_002705_007323_005957_007317_058945_044625,
  1_122110_000001_000001_000005_000011_000027_000019_000063_000231_000353_000645_000531_003861_001681_006901_016217_020639_070077_220233,
  1_122118_000001_000001_000005_000015_000031_000041_000019_000253_000147_000365_000509_001199_006699_014633_001339_048203_058707_083315,
  1_122127_000001_000001_000005_000007_000019_000047_000047_000017_000267_000139_000549_000803_004625_006851_032141_012891_043785_211361,
  1_122189_000001_000003_000001_000013_000019_000035_000013_000045_000167_000627_001449_003041_005043_009279_015889_041675_025769_013835,
  1_122207_000001_000003_000007_000007_000019_000047_000013_000117_000403_000079_001623_003741_003255_002301_000025_002311_005237_150879,
  1_122226_000001_000001_000001_000015_000029_000043_000075_000021_000237_000809_000129_002637_000181_015921_030709_061281_082405_232885,
  1_122253_000001_000001_000003_000015_000015_000015_000055_000217_000243_000579_000945_003993_001875_002425_025045_036729_042935_213703,
  1_122301_000001_000003_000003_000001_000005_000059_000115_000071_000483_000327_000701_002893_001815_004611_003843_005893_126479_167807,
  1_122324_000001_000003_000001_000007_000017_000059_000115_000191_000003_000615_000215_002121_005085_015233_016661_006215_031061_192847,
  1_122337_000001_000003_000001_000001_000021_000025_000041_000195_000151_000905_001587_000439_003317_002275_004743_033505_001185_254873,
  1_122362_000001_000001_000003_000009_000011_000049_000037_000117_000419_001007_000789_001323_000345_002047_020697_057063_069167_219393,
  1_122368_000001_000003_000001_000001_000025_000049_000081_000079_000117_001015_001777_002427_000527_010139_016261_042587_033933_019749,
  1_122371_000001_000001_000005_000015_000031_000043_000019_000017_000097_000591_000891_000177_007835_003979_015473_002173_065555_182773,
  1_122378_000001_000001_000003_000015_000013_000053_000031_000179_000247_000635_000683_000423_002981_014401_026385_010935_068497_181703,
  1_122404_000001_000003_000003_000009_000025_000055_000043_000029_000487_000969_000989_003561_006425_011619_005773_056515_017461_151239,
  1_122443_000001_000001_000005_000013_000003_000031_000073_000051_000213_000215_000297_000783_000697_014197_007277_060697_000985_189995,
  1_122451_000001_000003_000003_000005_000009_000047_000069_000027_000015_000407_001029_002541_000183_004413_005143_033903_049509_049007,
  1_122457_000001_000001_000001_000003_000005_000003_000009_000165_000215_000577_001657_000363_000737_005483_005955_034533_045861_104645,
  1_122458_000001_000001_000005_000007_000031_000027_000037_000215_000125_000915_001297_003095_001529_012737_025675_029355_083939_106765,
  1_122479_000001_000001_000003_000003_000001_000049_000029_000115_000395_000647_000147_003905_001025_008873_010587_025471_072089_171467,
  1_122484_000001_000003_000007_000001_000021_000055_000057_000233_000487_000883_000439_000929_001405_013709_002389_020205_017579_009129,
  1_122521_000001_000003_000005_000005_000023_000051_000055_000045_000307_000855_000933_001443_004757_008719_028401_035189_105329_009211,
  1_122540_000001_000003_000007_000011_000029_000017_000017_000147_000221_000997_001433_000059_008027_000231_030335_002153_021393_116661,
  1_122545_000001_000001_000007_000003_000005_000043_000047_000155_000357_000915_001923_003315_004107_009785_004847_057683_087569_179583,
  1_122552_000001_000001_000007_000007_000027_000005_000037_000095_000265_000113_000143_003755_005793_005601_016621_054777_015989_158933,
  1_122560_000001_000003_000001_000001_000013_000031_000113_000255_000367_000559_001777_004065_008061_015785_010345_054833_095277_159347,
  1_122575_000001_000001_000001_000015_000003_000043_000085_000251_000193_000019_001685_000271_001779_011901_018983_065361_128217_248051,
  1_122578_000001_000003_000005_000007_000029_000021_000005_000047_000263_000913_000083_003233_000113_008341_014473_037405_002363_155931,
  1_122605_000001_000001_000007_000015_000007_000025_000041_000039_000315_000323_000827_001277_001211_004465_021161_036865_006689_139147,
  1_122661_000001_000001_000001_000009_000011_000045_000081_000235_000031_000247_000077_001877_007119_016007_002225_000065_085537_099251,
  1_122673_000001_000001_000003_000011_000019_000005_000049_000179_000345_000961_000349_002099_002317_012771_027169_059389_116071_068333,
  1_122722_000001_000003_000003_000005_000015_000053_000047_000177_000103_000941_000087_002813_007729_008003_007717_040095_074569_106617,
  1_122728_000001_000001_000007_000007_000031_000023_000105_000205_000325_000855_001529_003601_007151_015827_016241_018221_055771_139225,
  1_122739_000001_000003_000005_000013_000013_000005_000095_000167_000025_000779_001147_000221_005055_010943_028077_015131_089501_137407,
  1_122751_000001_000003_000007_000013_000031_000003_000105_000163_000041_000823_001493_002985_005589_003543_024683_034469_040595_200875,
  1_122762_000001_000003_000005_000003_000027_000035_000105_000163_000477_000667_000045_000319_003201_011535_019349_055253_060275_209597,
  1_122769_000001_000003_000001_000011_000005_000013_000025_000225_000169_000925_001617_000537_000891_005583_007181_039953_097537_104019,
  1_122772_000001_000003_000005_000009_000013_000001_000069_000147_000465_000259_001219_002407_004015_004883_004333_040441_031289_052989,
  1_122782_000001_000003_000005_000005_000017_000029_000105_000233_000307_000807_001535_000251_000135_000925_006865_059739_112757_208275,
  1_122798_000001_000001_000001_000007_000009_000021_000049_000247_000033_000127_001277_001745_000139_012165_023517_050235_101003_109031,
  1_122810_000001_000003_000005_000009_000019_000007_000009_000139_000511_000901_000551_002717_006091_003213_000819_051381_108333_119681,
  1_122812_000001_000001_000001_000003_000019_000017_000073_000019_000313_000589_001965_001745_000921_004237_012527_010735_110139_171513,
  1_122818_000001_000001_000005_000015_000025_000029_000015_000217_000087_000793_000419_000915_001359_010507_025343_062977_100913_110041,
  1_122829_000001_000003_000007_000015_000015_000015_000091_000243_000441_000437_001759_002659_002319_007783_016857_019051_015463_253115,
  1_122851_000001_000001_000005_000013_000015_000005_000007_000165_000355_000559_000217_000235_003565_012047_002387_062285_073363_238551,
  1_122857_000001_000003_000007_000011_000005_000005_000069_000205_000179_000815_000335_000979_002129_006221_031987_013623_023103_024373,
  1_122868_000001_000001_000007_000011_000031_000051_000055_000093_000195_000219_000825_002919_004495_005927_011813_016415_121595_188613,
  1_122893_000001_000001_000003_000001_000003_000011_000073_000045_000141_000219_000337_002569_006549_003699_002417_002945_019389_082561,
  1_122894_000001_000003_000001_000013_000005_000047_000047_000081_000011_000057_001965_002173_003209_010617_019887_005571_061403_037401,
  1_122902_000001_000003_000003_000007_000003_000005_000099_000253_000287_000655_000813_003365_002387_008951_001561_037637_097625_148699,
  1_122921_000001_000001_000003_000005_000009_000031_000049_000007_000055_000607_001489_003229_005871_001271_022751_032309_016125_093409,
  1_122959_000001_000003_000001_000005_000019_000035_000029_000233_000407_000297_001465_003089_007535_007221_024469_042653_065719_196771,
  1_122984_000001_000001_000007_000013_000017_000019_000037_000045_000211_000545_000963_000079_000013_008319_008045_024975_122749_025845,
  1_123001_000001_000003_000005_000003_000023_000023_000053_000101_000363_000049_001351_003419_001603_010795_005289_063695_113911_228301,
  1_123038_000001_000003_000007_000009_000015_000059_000125_000059_000011_000397_000693_000397_003829_014349_013973_054739_022093_216009,
  1_123076_000001_000001_000001_000013_000005_000063_000021_000023_000421_000035_000589_000803_006193_011375_009501_034441_068421_120109,
  1_123100_000001_000003_000003_000007_000023_000025_000079_000203_000177_000173_000175_000809_004331_006953_004999_034345_094481_088683,
  1_123107_000001_000003_000003_000003_000001_000051_000109_000195_000083_000747_000063_000325_000927_001757_032055_037185_022697_041509,
  1_123122_000001_000003_000005_000013_000001_000063_000045_000073_000121_000445_001935_003373_000563_007503_017941_060313_042219_220917]

def dirRows18_2_21 : List Nat := [
  1_123139_000001_000003_000005_000013_000027_000031_000007_000083_000109_000387_000447_001691_001301_007449_008075_030713_087207_084855,
  1_123175_000001_000003_000001_000005_000025_000051_000083_000011_000261_000977_001415_002973_001789_012641_016279_004225_044237_173561,
  1_123190_000001_000001_000005_000015_000017_000047_000105_000199_000083_000705_001215_002759_007509_010407_004005_004575_065961_209933,
  1_123201_000001_000003_000001_000013_000027_000003_000005_000199_000405_000515_000291_003399_001497_014755_030229_035075_111585_016633,
  1_123219_000001_000001_000001_000013_000017_000053_000093_000161_000447_000903_000947_001871_003597_010575_018389_048551_065229_032591,
  1_123232_000001_000003_000005_000011_000009_000007_000053_000155_000299_000523_001653_003517_002725_009485_027099_047895_030169_260463,
  1_123255_000001_000001_000003_000013_000011_000045_000031_000183_000445_000021_000313_002597_000195_016053_007323_052951_025919_009323,
  1_123285_000001_000001_000001_000015_000001_000035_000015_000115_000053_000561_001141_003261_000083_002547_008925_043455_112755_094157,
  1_123328_000001_000001_000003_000005_000027_000025_000081_000051_000209_000087_000379_003167_004953_013885_020159_000103_115363_123585,
  1_123385_000001_000003_000005_000001_000025_000029_000107_000225_000077_000435_002009_004069_003703_008855_014101_061683_016993_110823,
  1_123397_000001_000003_000007_000003_000031_000025_000051_000117_000397_000271_000089_003571_002357_004923_016303_002357_107775_073809,
  1_123404_000001_000001_000003_000001_000029_000021_000033_000067_000363_000753_000915_003715_002013_008439_005779_000267_032687_104283,
  1_123419_000001_000003_000001_000011_000011_000007_000031_000043_000339_000917_002005_000759_004285_001933_004341_019111_130651_122853,
  1_123435_000001_000001_000005_000001_000017_000063_000085_000063_000387_000127_001313_000619_006525_009003_010915_064507_013175_045219,
  1_123437_000001_000003_000007_000009_000025_000015_000043_000013_000411_000391_000571_000527_008175_010849_020093_002987_029869_077207,
  1_123443_000001_000001_000005_000003_000029_000053_000105_000057_000091_000977_001103_002977_005617_007203_026717_028463_055909_059943,
  1_123500_000001_000003_000001_000007_000001_000047_000111_000215_000189_000377_000011_000871_002267_005705_008165_038895_071025_010921,
  1_123506_000001_000001_000007_000009_000029_000055_000001_000103_000505_000697_000317_003209_003643_013689_008499_014671_067937_100467,
  1_123511_000001_000003_000001_000005_000025_000015_000099_000199_000117_000957_001421_001719_005185_015247_028615_002657_046867_190135,
  1_123512_000001_000001_000007_000009_000027_000055_000081_000047_000015_000497_000537_000857_002905_001909_003341_032625_123189_021875,
  1_123518_000001_000003_000001_000003_000019_000051_000097_000143_000305_001021_000543_000829_007593_008101_006337_004869_019177_038981,
  1_123522_000001_000003_000003_000015_000009_000037_000051_000193_000295_000731_000809_004065_003377_015303_012505_011327_076191_139899,
  1_123545_000001_000001_000005_000001_000003_000019_000005_000223_000379_000007_000755_001127_000505_009429_027409_050817_097599_179019,
  1_123572_000001_000003_000005_000003_000005_000011_000083_000119_000003_000311_000405_002401_001821_001381_004567_044079_061903_183583,
  1_123587_000001_000003_000007_000009_000007_000011_000107_000095_000271_000537_000335_003079_006695_001163_032055_044985_029075_094235,
  1_123594_000001_000003_000007_000007_000007_000057_000059_000085_000199_000563_001835_000351_007675_002601_003717_057975_092529_101511,
  1_123607_000001_000001_000001_000005_000017_000005_000097_000043_000101_000141_001511_000199_007157_003169_024815_055653_104195_037951,
  1_123608_000001_000001_000001_000011_000023_000029_000041_000047_000447_000583_000773_000859_001657_008707_016709_053477_042037_186809,
  1_123630_000001_000001_000001_000013_000013_000005_000085_000009_000213_000511_001003_000811_002271_014715_021423_048127_050613_214031,
  1_123635_000001_000001_000003_000005_000007_000031_000087_000101_000297_000853_001599_001521_004965_009655_023543_062277_011231_049931,
  1_123659_000001_000001_000007_000007_000019_000031_000009_000165_000207_000919_000739_003849_002121_000867_003233_040867_075721_005327,
  1_123692_000001_000003_000007_000001_000017_000003_000027_000013_000431_000283_000465_001427_001937_015601_021793_009315_054285_196453,
  1_123695_000001_000001_000007_000003_000017_000039_000065_000137_000511_000019_001357_003373_005227_002485_001151_025061_117507_119219,
  1_123700_000001_000003_000003_000009_000009_000023_000013_000235_000505_000625_000115_003859_006943_014719_006363_014957_028241_187989,
  1_123730_000001_000003_000007_000013_000011_000031_000023_000039_000463_000441_001145_000417_004177_001655_026491_016895_026263_198157,
  1_123748_000001_000003_000003_000007_000025_000055_000121_000157_000131_000537_001891_002367_001717_002331_020251_008679_062657_121957,
  1_123751_000001_000001_000001_000011_000007_000043_000059_000101_000333_000961_000569_001603_003009_006539_009627_005759_044401_127613,
  1_123770_000001_000003_000003_000003_000001_000027_000015_000135_000235_000215_000627_002427_002647_003201_022873_064445_032635_016587,
  1_123793_000001_000003_000007_000007_000005_000049_000063_000103_000467_000897_000117_001149_006045_005003_005005_006183_090815_190909,
  1_123800_000001_000001_000003_000003_000031_000043_000045_000227_000363_000409_001097_003155_001519_014461_029377_019577_052595_094041,
  1_123803_000001_000003_000001_000001_000003_000025_000083_000243_000057_000243_000389_001427_005197_013125_018571_017845_074961_125569,
  1_123851_000001_000003_000005_000005_000001_000039_000011_000175_000097_001001_000143_003653_005887_005845_005691_005433_062629_176261,
  1_123859_000001_000001_000001_000013_000011_000041_000041_000155_000017_000823_001507_000733_005663_013657_024133_009971_027179_108075,
  1_123866_000001_000001_000007_000009_000019_000009_000103_000029_000427_000363_000931_003959_001629_005127_014807_061937_127175_237233,
  1_123868_000001_000001_000001_000005_000029_000053_000051_000229_000123_001001_000697_000411_004669_005051_018447_055437_129269_072613,
  1_123877_000001_000003_000007_000003_000019_000053_000111_000131_000255_000547_000653_002839_001447_014397_005707_023773_127897_135177,
  1_123884_000001_000003_000003_000005_000021_000037_000053_000219_000359_000341_000489_002477_003383_006931_007753_002619_114267_063271,
  1_123909_000001_000001_000003_000015_000015_000015_000095_000171_000301_000563_000603_000593_004037_007305_010849_011753_103087_074887,
  1_123910_000001_000001_000005_000003_000011_000051_000105_000035_000155_000643_000569_001697_001679_007547_019289_007065_057359_142855,
  1_123919_000001_000001_000007_000015_000023_000055_000017_000067_000375_000559_000355_000165_000093_000973_022831_048027_098435_059945,
  1_123927_000001_000003_000007_000003_000005_000043_000009_000253_000111_000819_000045_003461_004821_014735_014469_029793_030681_026359,
  1_123937_000001_000003_000003_000005_000015_000001_000039_000233_000063_000287_000131_003453_000427_004929_030085_018583_050119_262101,
  1_123950_000001_000003_000007_000009_000031_000007_000127_000157_000287_000057_001091_001989_005045_013071_027705_058125_085317_066649,
  1_123957_000001_000001_000001_000015_000017_000029_000025_000223_000311_000489_001901_003197_001813_010097_031915_054871_032289_227001,
  1_123979_000001_000003_000007_000005_000031_000035_000069_000087_000131_000963_001125_001109_008037_003257_027655_050999_003715_057851,
  1_123996_000001_000001_000005_000005_000027_000007_000119_000029_000425_000721_000541_003069_003349_013623_012293_051395_014033_061545,
  1_124040_000001_000003_000007_000003_000017_000049_000103_000115_000387_000729_001389_002257_003273_003375_023143_002835_028071_079533,
  1_124054_000001_000001_000003_000007_000009_000019_000055_000159_000261_000467_000017_002595_003947_007045_000193_023629_089067_081197,
  1_124063_000001_000001_000001_000015_000013_000039_000103_000195_000251_000769_001003_002707_003263_008451_008007_053789_112653_258717,
  1_124067_000001_000003_000005_000001_000003_000021_000029_000217_000125_000779_001597_000513_002677_003979_031903_064813_069963_092887,
  1_124088_000001_000001_000003_000011_000011_000059_000081_000237_000447_000703_000041_003369_003547_014935_031693_052005_074149_131039,
  1_124101_000001_000001_000003_000001_000023_000001_000033_000093_000275_000847_000921_002745_000533_008975_030529_046809_098975_075541,
  1_124154_000001_000001_000007_000007_000015_000001_000003_000213_000071_001009_001951_003015_000713_009365_021949_060983_117633_225387,
  1_124162_000001_000001_000001_000011_000031_000027_000059_000179_000231_000635_001555_002765_000031_015065_022719_059251_084733_096769,
  1_124167_000001_000003_000007_000003_000019_000005_000035_000207_000317_000735_000943_003987_004021_011229_013015_000713_125167_055887,
  1_124176_000001_000001_000003_000001_000027_000049_000081_000017_000253_000633_000043_002953_003151_008429_030625_028551_126683_175087,
  1_124195_000001_000003_000003_000003_000009_000053_000111_000245_000057_000557_000945_002957_007669_012537_017291_009713_087727_044739,
  1_124230_000001_000003_000001_000001_000005_000039_000077_000127_000087_000687_001485_001555_002567_013551_017075_024003_047627_129813,
  1_124267_000001_000003_000005_000009_000025_000035_000087_000233_000439_000563_001719_000419_004459_004285_025157_000943_111543_232107,
  1_124346_000001_000003_000005_000011_000001_000013_000097_000153_000459_000551_000073_002087_003985_004661_015603_022211_123163_187233,
  1_124389_000001_000001_000007_000013_000017_000059_000005_000219_000353_000441_000387_000441_003009_000485_020081_038023_050659_159243,
  1_124418_000001_000003_000001_000007_000021_000031_000117_000049_000227_000677_000417_001153_001611_001669_025161_052223_015109_114759,
  1_124420_000001_000001_000007_000009_000019_000013_000111_000007_000001_000701_000731_002075_000685_015679_019149_044315_041719_243975,
  1_124454_000001_000003_000003_000007_000015_000063_000059_000105_000327_000039_001497_002407_002865_007065_009957_020031_045359_073657,
  1_124490_000001_000003_000001_000013_000007_000003_000055_000221_000443_000953_000015_002455_004681_016247_018179_044731_041323_172621,
  1_124503_000001_000001_000003_000009_000001_000027_000065_000167_000115_000137_000819_002129_003393_005901_011735_062753_014941_021425,
  1_124519_000001_000003_000007_000011_000007_000009_000041_000175_000237_000481_000059_000265_002135_009419_003937_055959_048343_172549,
  1_124533_000001_000001_000001_000013_000023_000033_000105_000087_000461_000297_001345_003715_007715_016369_019017_015141_010873_109641,
  1_124544_000001_000003_000005_000001_000011_000001_000013_000041_000447_000511_000447_002295_002401_014171_016269_050453_040361_205857,
  1_124589_000001_000001_000003_000003_000027_000007_000035_000193_000113_000341_000335_002113_000343_004575_020863_040383_086787_142603,
  1_124616_000001_000001_000007_000011_000017_000025_000051_000089_000341_000237_001233_001505_007401_006887_026897_020127_051077_107559,
  1_124630_000001_000001_000001_000015_000009_000059_000029_000115_000339_000785_000201_000947_001501_006883_000169_044059_017527_197623,
  1_124636_000001_000003_000007_000003_000017_000059_000015_000005_000379_000347_000821_004047_003565_013689_023275_027901_121401_043077,
  1_124645_000001_000001_000001_000007_000015_000011_000035_000029_000059_000099_000181_003035_003239_001553_032319_064195_115247_149211,
  1_124652_000001_000001_000005_000003_000031_000049_000087_000177_000231_000167_000373_001125_005919_004805_031983_042873_030169_091853,
  1_124663_000001_000001_000005_000015_000007_000063_000037_000015_000459_000449_001835_001769_002527_002577_004251_062459_076699_081721,
  1_124667_000001_000001_000001_000003_000021_000015_000019_000183_000423_000827_000341_002101_003797_007103_030845_024511_115337_117019,
  1_124690_000001_000003_000005_000005_000019_000001_000097_000013_000491_000051_000445_001987_007481_002613_023141_036603_026917_177397,
  1_124755_000001_000001_000001_000005_000015_000043_000021_000167_000259_000989_001937_001519_002201_013973_018031_031583_057557_252737,
  1_124757_000001_000003_000003_000007_000031_000011_000089_000053_000279_000083_001247_001221_005499_001199_000361_022269_088633_134975,
  1_124819_000001_000001_000003_000005_000009_000005_000113_000041_000143_000655_001147_002043_004229_010523_001453_001735_076259_030607,
  1_124862_000001_000001_000001_000011_000005_000007_000009_000155_000221_000619_000813_003111_006039_010789_010905_033285_062841_229217,
  1_124864_000001_000003_000005_000009_000019_000019_000123_000065_000419_000597_000087_003843_004857_015903_023655_013023_008389_230803,
  1_124874_000001_000003_000003_000015_000009_000019_000051_000223_000197_000759_000139_000059_006547_001043_005077_055267_023681_017099,
  1_124882_000001_000001_000003_000003_000015_000043_000063_000085_000227_000961_001043_001069_006557_007499_031639_004345_026991_132783,
  1_124903_000001_000003_000001_000001_000025_000033_000059_000219_000435_000105_001001_000323_002729_012517_016607_057533_101167_053829,
  1_124915_000001_000003_000007_000007_000009_000055_000003_000247_000303_000453_000861_000817_000705_014337_015965_028867_126763_204005,
  1_124938_000001_000001_000003_000007_000001_000039_000015_000039_000359_000313_001753_002835_000387_016223_010945_019481_019995_029989,
  1_124945_000001_000001_000001_000005_000003_000031_000103_000123_000493_001023_000119_002175_002273_011637_021605_023349_100759_041227,
  1_124973_000001_000003_000007_000013_000005_000013_000017_000007_000341_000945_000621_001421_003893_005825_026777_035497_013791_025415]

def dirRows18_2_22 : List Nat := [
  1_124986_000001_000001_000005_000001_000019_000027_000039_000007_000177_000749_001217_002133_006913_013489_023713_001085_031529_179741,
  1_124991_000001_000003_000003_000003_000015_000021_000005_000145_000281_000131_001347_000019_004917_008655_002515_036927_056551_202039,
  1_125011_000001_000001_000003_000007_000027_000031_000033_000255_000511_000195_001493_002221_002157_009303_003957_014163_070435_215763,
  1_125014_000001_000003_000003_000015_000031_000041_000033_000037_000239_000865_000375_002217_000809_011961_029393_052145_076223_202623,
  1_125082_000001_000003_000005_000011_000005_000057_000073_000193_000341_000843_001817_000231_000065_005941_029693_031751_057081_180977,
  1_125105_000001_000003_000001_000009_000029_000057_000085_000107_000343_000891_000465_002413_001965_007303_007461_025857_110517_016995,
  1_125163_000001_000001_000007_000015_000007_000049_000121_000211_000253_000511_001385_001205_000033_007713_020059_047353_003267_215759,
  1_125165_000001_000001_000003_000009_000015_000063_000045_000155_000415_000589_000651_003707_005429_004497_013733_021231_018953_028671,
  1_125205_000001_000001_000005_000015_000007_000057_000031_000109_000427_000921_000629_003439_007615_004535_001507_058931_049597_214397,
  1_125219_000001_000003_000003_000005_000021_000035_000009_000241_000067_000767_000659_001639_007797_005209_014851_055311_108549_175937,
  1_125239_000001_000001_000007_000015_000021_000061_000013_000047_000267_000269_001169_000257_002481_008345_001061_028119_127197_095379,
  1_125240_000001_000001_000003_000007_000021_000035_000121_000223_000145_000665_001389_002105_005499_001377_032417_039027_005335_248315,
  1_125257_000001_000003_000003_000009_000013_000033_000057_000225_000123_000703_001049_000709_007347_011317_012339_023247_062157_085931,
  1_125284_000001_000003_000003_000003_000005_000003_000105_000115_000013_000675_000757_000987_006429_013017_021347_038829_082153_220677,
  1_125302_000001_000003_000001_000013_000005_000051_000075_000205_000007_000561_000207_001133_003303_001889_017093_005933_048109_244387,
  1_125327_000001_000003_000003_000007_000011_000011_000071_000243_000235_000941_001875_002387_001139_016275_004537_018791_067927_156759,
  1_125336_000001_000003_000005_000005_000011_000035_000029_000005_000351_000223_000847_001539_004903_007619_024907_037071_057899_032981,
  1_125355_000001_000003_000001_000007_000023_000007_000119_000017_000123_000845_001423_002995_003595_013287_031217_033939_006891_156477,
  1_125363_000001_000001_000001_000009_000011_000055_000121_000085_000175_000757_001093_000513_001117_014049_022377_004623_038511_051391,
  1_125365_000001_000001_000007_000001_000017_000001_000007_000185_000173_000841_000061_002735_006679_007617_017309_058047_011791_228635,
  1_125372_000001_000001_000005_000005_000001_000001_000061_000057_000037_000857_000531_002655_001907_004245_003047_050489_093447_116637,
  1_125378_000001_000003_000005_000007_000027_000047_000121_000095_000073_000063_000539_000137_001765_004659_031141_024495_109541_016421,
  1_125383_000001_000003_000007_000013_000013_000025_000047_000045_000097_000243_001509_003539_004791_005627_031981_057663_065359_032183,
  1_125387_000001_000001_000001_000007_000015_000057_000117_000249_000183_000849_000557_000833_005751_008035_003371_011389_125581_248799,
  1_125390_000001_000003_000001_000015_000013_000031_000059_000243_000017_000473_000289_001527_000649_002807_006183_006173_074381_261673,
  1_125414_000001_000001_000007_000007_000019_000017_000095_000081_000191_000487_002023_000307_003261_013885_009285_030831_114009_026483,
  1_125435_000001_000001_000003_000011_000017_000021_000085_000193_000477_000267_000393_000039_005793_008621_025379_009721_013947_044235,
  1_125466_000001_000001_000007_000005_000027_000033_000093_000009_000471_000751_001279_000695_002625_007061_029577_005403_080705_077895,
  1_125481_000001_000001_000003_000011_000007_000025_000125_000009_000233_000935_001897_003685_000595_015499_000043_029251_018029_250231,
  1_125522_000001_000001_000005_000001_000009_000055_000125_000179_000287_000371_000233_000149_005639_005737_025251_000103_117015_035579,
  1_125531_000001_000001_000005_000009_000017_000033_000069_000015_000209_000521_001083_002469_000679_009307_031539_063889_048825_126327,
  1_125544_000001_000003_000005_000015_000015_000041_000105_000121_000021_000935_000721_000445_006759_004227_015227_054933_069589_002689,
  1_125564_000001_000001_000007_000015_000001_000015_000111_000141_000279_001013_000825_001069_003793_012929_000153_011463_087759_179987,
  1_125588_000001_000001_000001_000009_000015_000059_000109_000103_000223_000695_001979_001241_002559_008627_010559_053319_094311_245193,
  1_125602_000001_000001_000005_000003_000001_000041_000051_000129_000297_000015_000637_002489_000343_013549_007707_036757_055703_161043,
  1_125613_000001_000003_000005_000001_000013_000035_000119_000219_000319_000733_000789_001343_008035_015049_000981_014477_013717_177481,
  1_125621_000001_000001_000001_000011_000005_000017_000003_000043_000129_000705_001701_003635_001201_012283_027443_054257_102281_211859,
  1_125648_000001_000003_000001_000013_000007_000063_000009_000045_000283_000041_000801_000131_002797_013329_019011_021055_122965_007961,
  1_125651_000001_000003_000003_000005_000009_000027_000099_000129_000499_000523_001939_003661_000455_012601_011723_003727_032671_078251,
  1_125681_000001_000003_000007_000005_000009_000057_000063_000047_000049_000745_000945_002927_006659_001023_009991_055379_105295_259901,
  1_125719_000001_000001_000003_000003_000003_000047_000015_000237_000193_000409_001165_003581_000719_003049_014679_031559_007825_096083,
  1_125773_000001_000001_000007_000011_000009_000055_000029_000123_000163_000415_002013_000097_001471_001409_028867_050405_099417_057113,
  1_125774_000001_000001_000007_000015_000005_000017_000057_000123_000025_000119_001699_001289_003139_007177_013465_033583_034517_182669,
  1_125779_000001_000001_000003_000001_000015_000045_000079_000007_000461_000223_000691_003071_006233_014997_004083_065391_060571_082929,
  1_125786_000001_000003_000005_000001_000025_000039_000089_000105_000497_000685_001921_000133_004849_008467_000609_062183_123787_223025,
  1_125792_000001_000001_000001_000013_000003_000057_000117_000241_000501_000107_001253_003097_000603_010645_003395_013997_112527_208263,
  1_125822_000001_000001_000007_000009_000007_000031_000025_000097_000205_000785_000517_000549_006841_007097_009635_017151_057135_105469,
  1_125828_000001_000003_000007_000001_000025_000035_000043_000075_000179_001023_001921_001529_002791_006747_009135_061801_046729_026821,
  1_125831_000001_000001_000003_000001_000031_000049_000107_000219_000285_000501_001503_003103_005257_014561_031493_007753_034375_260357,
  1_125837_000001_000003_000007_000013_000015_000007_000075_000057_000329_000067_001541_002445_003069_006723_010189_022913_110781_243765,
  1_125880_000001_000001_000005_000003_000005_000045_000047_000039_000493_000787_001019_003933_000535_001763_000139_045967_123167_115019,
  1_125891_000001_000003_000001_000003_000023_000059_000093_000139_000349_000973_001401_002109_000701_000461_019199_021733_080009_037239,
  1_125922_000001_000001_000003_000005_000003_000039_000117_000077_000257_000117_001991_003371_000509_003963_014579_062459_052281_099209,
  1_125928_000001_000003_000001_000015_000029_000047_000073_000157_000429_000497_000039_000123_004851_012871_004567_029453_090777_188683,
  1_125931_000001_000003_000003_000001_000017_000025_000005_000247_000061_000081_001555_002167_006003_015911_016023_007841_050731_229163,
  1_125941_000001_000001_000005_000009_000009_000039_000089_000037_000105_000133_000333_002863_007249_002355_009407_028145_025923_068827,
  1_125948_000001_000003_000007_000013_000015_000055_000011_000093_000197_000447_001793_001793_004639_001869_001711_001439_015899_106931,
  1_125960_000001_000001_000005_000013_000023_000011_000067_000155_000511_000363_001073_002249_000719_011167_007953_021699_055735_047353,
  1_125973_000001_000001_000003_000003_000021_000059_000123_000227_000065_000695_001769_004057_007071_001827_013639_045711_084019_096897,
  1_126014_000001_000003_000001_000011_000025_000051_000057_000139_000147_000589_001565_000511_003629_007329_009565_062893_085789_112047,
  1_126016_000001_000003_000005_000005_000023_000011_000093_000075_000025_000947_001489_004081_003395_004655_027853_041299_089447_100971,
  1_126036_000001_000003_000005_000011_000025_000063_000093_000227_000411_000049_000403_000437_001739_008453_031693_051439_089729_113405,
  1_126043_000001_000003_000007_000009_000029_000013_000051_000155_000403_000627_000173_002111_000833_011453_017673_007121_052943_114835,
  1_126062_000001_000001_000005_000013_000011_000011_000105_000101_000309_000577_001003_003667_003489_011807_006119_013773_089879_012391,
  1_126076_000001_000003_000007_000009_000017_000011_000111_000239_000225_000723_000933_003353_002003_005273_000207_038539_082539_209781,
  1_126116_000001_000001_000007_000013_000015_000053_000069_000105_000155_000445_000353_000617_005625_013439_029223_060439_119635_049643,
  1_126125_000001_000001_000003_000011_000013_000025_000107_000027_000109_000313_001721_002647_001861_010631_017131_031365_065319_102905,
  1_126145_000001_000001_000001_000007_000021_000029_000039_000167_000341_000115_001523_002209_000095_004399_003881_038875_107691_132471,
  1_126152_000001_000001_000001_000013_000015_000061_000125_000023_000301_000407_001497_003731_007013_005405_031233_051701_045619_107407,
  1_126175_000001_000003_000005_000005_000031_000027_000077_000021_000339_001013_000371_000019_005733_002177_015547_027595_006805_172695,
  1_126188_000001_000003_000005_000011_000005_000015_000071_000023_000441_000169_001715_000437_001791_000293_013441_011225_119119_223035,
  1_126199_000001_000003_000001_000005_000011_000015_000095_000127_000433_000789_000899_002591_002339_008237_020765_032897_051511_058437,
  1_126205_000001_000003_000005_000009_000011_000057_000103_000005_000401_000051_001813_000923_001983_001853_021913_003051_056309_019423,
  1_126213_000001_000001_000003_000015_000003_000003_000041_000005_000231_000035_000391_000185_007585_001005_020311_011193_018275_114131,
  1_126220_000001_000001_000003_000009_000013_000013_000115_000203_000223_000575_000459_001839_003949_016027_023137_013723_019195_249337,
  1_126286_000001_000001_000001_000009_000021_000051_000039_000245_000187_000609_000319_002927_003625_010789_031291_045557_045935_132447,
  1_126294_000001_000003_000003_000009_000025_000037_000047_000055_000219_000409_001927_000553_003953_006209_011807_011133_048047_132437,
  1_126300_000001_000003_000001_000013_000023_000031_000109_000167_000281_000179_000233_001603_007391_009091_027021_031213_013093_086017,
  1_126322_000001_000003_000001_000013_000013_000015_000007_000029_000409_000059_000505_001307_006247_006055_005531_059727_058069_084049,
  1_126324_000001_000001_000005_000007_000019_000007_000103_000245_000133_000609_001087_002365_003341_001689_018841_019625_047413_063445,
  1_126343_000001_000001_000007_000003_000011_000027_000079_000075_000097_000355_000493_002035_003413_011835_009157_051173_000001_071797,
  1_126344_000001_000001_000005_000005_000029_000001_000043_000135_000473_000329_001197_001693_003823_007723_024771_022349_094383_041461,
  1_126430_000001_000003_000003_000015_000025_000009_000079_000213_000317_000615_000541_000441_000505_013665_003691_017825_049303_091783,
  1_126433_000001_000003_000001_000011_000027_000033_000065_000031_000469_000799_001251_003357_005239_005651_013317_028553_064225_009805,
  1_126448_000001_000001_000007_000013_000009_000049_000077_000043_000363_000719_001943_001285_001587_001047_029419_024025_089901_229095,
  1_126451_000001_000001_000001_000015_000019_000057_000033_000243_000111_000183_000497_000603_000923_001957_006493_011833_007331_229975,
  1_126457_000001_000003_000001_000001_000013_000043_000031_000025_000169_000303_000069_000723_001745_001025_014301_002523_111887_179519,
  1_126458_000001_000003_000001_000005_000031_000055_000011_000103_000391_000881_001885_003923_007507_000377_029331_032167_056915_044211,
  1_126463_000001_000001_000007_000001_000027_000055_000033_000141_000393_000073_000701_003173_000973_015553_010219_051441_055201_131055,
  1_126470_000001_000001_000003_000009_000001_000031_000115_000085_000173_000227_000163_000157_005569_008291_027163_007581_008699_104523,
  1_126484_000001_000001_000001_000005_000005_000019_000011_000055_000217_000571_001001_000945_006237_001993_011809_063893_060081_102997,
  1_126518_000001_000003_000003_000015_000015_000007_000051_000161_000147_000263_001701_001079_003027_011779_024885_016127_068985_162975,
  1_126521_000001_000003_000001_000009_000025_000001_000047_000107_000149_000997_001779_002905_004951_010345_031059_063831_117219_251935,
  1_126547_000001_000003_000003_000009_000005_000023_000083_000095_000399_000343_001597_001733_005959_009685_004721_059109_113633_080365,
  1_126556_000001_000001_000007_000011_000031_000043_000071_000133_000305_000529_000645_003095_006273_004019_014433_041609_064093_079051,
  1_126583_000001_000003_000005_000011_000001_000063_000123_000025_000245_000583_001013_003275_002997_013021_027515_016233_113093_249101,
  1_126584_000001_000001_000001_000009_000003_000059_000113_000155_000125_000423_000259_001559_003745_009105_027673_036601_036117_047953,
  1_126633_000001_000003_000003_000007_000019_000041_000055_000087_000053_000801_000661_000329_003391_007581_025487_025751_120171_035953,
  1_126673_000001_000001_000007_000015_000031_000057_000049_000179_000147_000139_000957_000289_004321_008747_000053_046003_040219_096855,
  1_126680_000001_000001_000007_000009_000029_000049_000071_000101_000389_000793_001355_003263_006331_004869_028479_008335_074653_008519]

def dirRows18_2_23 : List Nat := [
  1_126686_000001_000001_000001_000013_000001_000019_000031_000161_000261_000679_001115_000985_002855_004395_015087_018593_098535_052537,
  1_126689_000001_000001_000003_000011_000015_000051_000079_000007_000075_000075_000753_002637_007193_007961_021411_024273_007543_006277,
  1_126702_000001_000003_000001_000005_000005_000051_000067_000191_000201_000777_000587_001439_001027_003759_031141_042159_058475_007355,
  1_126710_000001_000003_000005_000003_000015_000037_000011_000251_000053_000799_000739_002225_006985_009183_012341_029963_044101_023889,
  1_126722_000001_000001_000003_000003_000005_000033_000081_000223_000089_000531_000301_000305_002401_004015_018607_065041_082447_228487,
  1_126787_000001_000003_000001_000007_000015_000029_000071_000247_000445_001005_001229_003897_000899_011175_006349_029145_103153_090275,
  1_126789_000001_000003_000003_000007_000015_000007_000075_000013_000417_000719_000121_001345_003737_004119_015259_033579_057727_111517,
  1_126794_000001_000003_000007_000003_000031_000011_000049_000061_000405_000741_001607_001561_004655_009775_014349_027431_091791_228607,
  1_126801_000001_000003_000005_000013_000017_000027_000093_000153_000099_000683_000219_003783_006963_001633_006621_008133_005111_057333,
  1_126857_000001_000003_000003_000003_000025_000029_000075_000155_000159_000025_000637_003053_004737_005831_009651_045331_100407_188607,
  1_126891_000001_000003_000001_000009_000021_000055_000123_000027_000509_000227_001569_001379_007137_011749_014257_038349_000459_054873,
  1_126896_000001_000001_000007_000015_000029_000035_000081_000079_000237_000155_001551_000343_005127_003233_003691_059917_007367_181979,
  1_126902_000001_000003_000001_000015_000001_000057_000111_000121_000375_000635_001529_000635_002337_006553_022067_036047_080099_116411,
  1_126911_000001_000001_000003_000003_000029_000027_000019_000003_000069_000197_001829_001907_005901_012651_003295_007805_057871_047571,
  1_126919_000001_000001_000001_000013_000021_000005_000115_000051_000203_000991_001731_001101_001607_014323_012233_048047_033969_147621,
  1_126943_000001_000003_000003_000001_000025_000055_000041_000031_000101_000551_001519_001915_006961_013919_015339_013141_107625_009247,
  1_126947_000001_000001_000007_000011_000017_000025_000087_000175_000341_000445_001813_002995_003217_006015_001637_065243_072743_248715,
  1_126949_000001_000001_000005_000013_000011_000001_000061_000139_000233_000167_001363_001991_007999_016289_025595_008915_032205_169963,
  1_126953_000001_000001_000001_000013_000031_000033_000067_000057_000121_000477_000755_002035_003683_016205_005511_025615_005169_128843,
  1_126971_000001_000003_000005_000015_000031_000001_000089_000029_000493_000379_001627_000491_002503_008105_030275_027379_043905_046397,
  1_126976_000001_000001_000007_000009_000031_000041_000127_000121_000061_000561_000223_003231_007321_003683_015455_008019_116739_096557,
  1_126982_000001_000001_000005_000009_000019_000041_000025_000065_000111_000535_000611_001631_004251_000107_019787_040749_065701_048749,
  1_127009_000001_000003_000003_000011_000027_000049_000075_000093_000015_000937_001517_001577_007485_008713_015979_013799_103057_144799,
  1_127021_000001_000001_000007_000007_000007_000029_000003_000063_000177_000781_002001_000315_006703_008055_019081_033641_044279_087597,
  1_127027_000001_000001_000007_000011_000029_000053_000083_000223_000275_000951_001883_002447_001815_009313_009247_017185_008143_135247,
  1_127039_000001_000001_000005_000013_000021_000047_000087_000055_000169_000095_000777_002787_007227_011373_016707_028237_030789_064589,
  1_127041_000001_000001_000001_000011_000015_000041_000001_000055_000337_000493_001379_002505_006831_010955_001875_021821_054101_009379,
  1_127044_000001_000003_000005_000015_000027_000009_000121_000049_000439_000781_001457_001341_007433_005879_013039_024001_064059_157077,
  1_127059_000001_000001_000001_000009_000019_000055_000089_000037_000255_000345_000215_004067_008151_014253_012121_003637_029185_060643,
  1_127071_000001_000003_000001_000007_000031_000039_000071_000029_000071_000083_001249_000871_008037_001001_025245_026651_034509_123607,
  1_127075_000001_000001_000003_000011_000013_000021_000015_000171_000255_000373_000429_002179_004431_016087_017949_016307_129877_186495,
  1_127126_000001_000003_000003_000009_000017_000045_000075_000175_000003_000403_000215_001781_007875_014113_006967_065263_125885_232983,
  1_127129_000001_000001_000007_000009_000021_000057_000073_000105_000163_000583_000587_002743_002199_005187_005571_056399_000797_192405,
  1_127145_000001_000001_000001_000003_000029_000027_000071_000145_000011_000455_001505_002789_004083_012345_014785_004981_095121_134977,
  1_127154_000001_000001_000001_000001_000001_000027_000001_000145_000473_000483_000083_003009_007241_013633_015071_030767_128103_094727,
  1_127165_000001_000003_000005_000015_000017_000051_000071_000021_000237_000065_000901_003365_007831_003027_008751_014435_079445_172587,
  1_127171_000001_000001_000005_000001_000009_000049_000049_000031_000395_000339_000343_001813_002607_009347_011239_006761_127623_043459,
  1_127197_000001_000001_000001_000001_000013_000023_000071_000131_000225_000229_000117_000889_008145_005953_010679_038687_080029_063689,
  1_127198_000001_000001_000005_000001_000029_000001_000087_000181_000441_000353_000257_000335_000203_010897_024085_026967_062573_170285,
  1_127207_000001_000001_000007_000003_000003_000039_000047_000135_000353_000977_000089_000259_006411_005511_010697_057623_027367_108451,
  1_127226_000001_000003_000003_000011_000009_000057_000095_000211_000237_000281_001703_002107_002179_003411_032621_005387_029971_102889,
  1_127240_000001_000001_000001_000013_000027_000049_000047_000049_000413_000985_000649_001245_000807_013637_021741_032565_080135_127971,
  1_127254_000001_000003_000007_000013_000003_000019_000057_000097_000493_000597_000135_001689_005011_004579_006093_028341_037279_142197,
  1_127269_000001_000003_000001_000015_000015_000031_000003_000089_000327_000107_000827_001111_000261_006211_004359_038553_043297_075057,
  1_127305_000001_000001_000001_000009_000019_000019_000053_000195_000141_000297_000141_003859_004173_012243_031399_006353_110505_172219,
  1_127323_000001_000003_000003_000009_000031_000051_000059_000053_000055_000723_001575_003399_008057_012317_008393_001719_096987_228955,
  1_127342_000001_000001_000007_000011_000019_000059_000041_000009_000217_000267_000629_002977_004515_000463_031773_061765_078827_051331,
  1_127347_000001_000003_000003_000013_000009_000055_000051_000177_000183_000431_000555_003573_007977_003067_021111_012971_078283_260721,
  1_127363_000001_000001_000001_000011_000027_000005_000089_000069_000435_000199_000221_001017_007703_007469_007755_046319_037941_055285,
  1_127394_000001_000001_000007_000013_000019_000055_000053_000207_000367_000177_001483_002857_003753_005493_013349_014033_007933_093457,
  1_127426_000001_000001_000007_000003_000027_000035_000019_000223_000341_000137_001195_001263_005937_013517_000055_006391_106173_176503,
  1_127432_000001_000003_000007_000011_000023_000025_000037_000103_000351_000945_001205_002543_003875_000155_027777_036647_047979_025113,
  1_127440_000001_000001_000003_000015_000025_000059_000079_000039_000017_000553_001119_003353_002619_003851_005945_047501_017369_089355,
  1_127462_000001_000001_000001_000013_000009_000055_000013_000173_000207_000925_001855_001871_007851_001361_020117_051677_077703_051309,
  1_127468_000001_000003_000001_000001_000031_000057_000003_000025_000329_000927_001683_001447_006853_000103_009549_021393_000415_122749,
  1_127473_000001_000001_000005_000005_000031_000061_000031_000213_000085_000531_000931_000999_001189_005189_015127_047799_070769_081901,
  1_127486_000001_000001_000003_000001_000005_000059_000089_000053_000105_000761_000313_003013_004093_009595_004287_051505_020095_232933,
  1_127502_000001_000001_000007_000007_000023_000009_000041_000029_000399_000395_000759_002541_002373_015365_012083_049579_034401_168121,
  1_127510_000001_000001_000003_000001_000007_000023_000037_000183_000205_000377_001081_001081_007767_000363_014571_016265_018267_102155,
  1_127523_000001_000003_000003_000015_000019_000011_000059_000059_000465_000437_000965_003707_003505_014785_023605_012505_130607_040693,
  1_127543_000001_000001_000003_000013_000005_000015_000091_000033_000235_000215_001997_002035_007407_003203_027143_014007_096411_000593,
  1_127567_000001_000003_000007_000001_000019_000051_000001_000069_000489_000629_001731_000393_006807_010521_023971_045649_105183_207351,
  1_127570_000001_000003_000005_000003_000005_000041_000089_000141_000469_000177_000109_002439_007155_002083_031993_013933_100557_137255,
  1_127585_000001_000001_000007_000015_000021_000045_000041_000197_000365_000177_000061_000811_002535_005219_003689_053129_042063_060759,
  1_127588_000001_000003_000005_000001_000023_000007_000019_000193_000253_000793_000539_003747_002611_016211_017199_014875_095377_006999,
  1_127619_000001_000001_000003_000005_000009_000005_000009_000129_000217_000473_000151_003053_006981_008075_032121_031995_041271_208927,
  1_127621_000001_000001_000005_000009_000009_000009_000089_000139_000381_000937_001937_001879_008191_002237_025629_051471_087639_173697,
  1_127626_000001_000001_000005_000009_000017_000035_000081_000223_000161_000315_000139_002597_002599_016191_002567_054947_008603_121589,
  1_127628_000001_000001_000005_000005_000009_000007_000033_000049_000049_000723_001013_001055_004025_001471_030081_017475_127931_063723,
  1_127640_000001_000003_000007_000007_000009_000049_000107_000017_000335_000119_001959_003613_008129_011033_012197_023803_112595_131655,
  1_127662_000001_000003_000005_000011_000003_000045_000091_000017_000181_001005_000985_003045_000853_008181_005517_048515_016225_237151,
  1_127684_000001_000001_000003_000001_000003_000063_000035_000135_000061_000383_001233_000675_000151_002157_018711_037113_040353_061783,
  1_127687_000001_000003_000005_000005_000029_000003_000105_000011_000351_000761_000165_000911_006903_010111_001779_024601_003177_110301,
  1_127693_000001_000001_000003_000015_000025_000019_000073_000237_000263_000161_000731_003853_007705_014497_030799_032979_100729_021761,
  1_127696_000001_000001_000003_000005_000027_000009_000003_000149_000207_000715_001435_002563_002451_007951_026313_055115_099423_231639,
  1_127708_000001_000001_000005_000015_000011_000051_000013_000047_000311_000969_002013_000357_004847_001831_002235_022779_032375_040893,
  1_127711_000001_000001_000003_000009_000021_000045_000011_000099_000275_000849_000443_001257_007855_009121_006549_020289_101337_013869,
  1_127722_000001_000001_000001_000015_000025_000027_000015_000111_000215_000437_001923_001985_004603_015469_006667_017941_050433_152759,
  1_127732_000001_000003_000007_000015_000007_000037_000119_000053_000337_000853_001785_003507_003743_014303_022757_005149_001539_227051,
  1_127747_000001_000001_000003_000013_000011_000023_000055_000019_000495_000531_001021_003831_005993_015819_002121_052773_019775_094643,
  1_127767_000001_000001_000003_000003_000023_000055_000055_000069_000457_000755_001187_003993_000613_012691_001779_021251_002293_236725,
  1_127771_000001_000001_000005_000009_000023_000027_000061_000125_000113_000099_000503_000699_006873_013141_010649_065209_021773_162749,
  1_127790_000001_000001_000001_000011_000015_000027_000111_000227_000493_000361_001071_000607_001409_009281_024515_026739_082421_030463,
  1_127816_000001_000003_000005_000001_000011_000057_000023_000239_000265_000675_000441_004031_005163_015729_002741_026037_032533_140645,
  1_127824_000001_000003_000003_000007_000003_000045_000105_000135_000493_000579_001707_002933_001135_011891_003171_045401_024993_175681,
  1_127833_000001_000001_000001_000011_000011_000003_000067_000213_000483_000009_001053_000213_003205_008487_016093_007305_122591_031811,
  1_127869_000001_000001_000005_000013_000019_000031_000013_000065_000029_000929_000343_000463_001885_013467_014997_022737_042869_128239,
  1_127910_000001_000003_000003_000013_000009_000047_000125_000033_000475_000285_001901_002525_000305_011587_027309_030037_070681_180425,
  1_127928_000001_000003_000005_000015_000009_000037_000045_000149_000019_000135_000555_004037_005173_012473_000983_040923_028561_185941,
  1_127933_000001_000003_000003_000009_000023_000035_000035_000151_000113_000885_001553_002233_000351_004071_028127_026109_012299_163973,
  1_127963_000001_000003_000003_000011_000017_000055_000125_000087_000315_000917_000383_002397_001573_009255_010499_016051_099487_139415,
  1_127975_000001_000001_000003_000001_000029_000021_000101_000153_000005_000705_001965_001447_008163_013547_025929_028569_057897_173229,
  1_128016_000001_000001_000007_000015_000003_000037_000113_000213_000495_000935_000529_002299_006901_001765_004255_014579_014175_112333,
  1_128031_000001_000003_000003_000009_000011_000053_000089_000027_000461_000235_001525_003533_003061_004351_012847_021649_010843_060901,
  1_128059_000001_000001_000005_000001_000017_000011_000017_000157_000387_000887_002017_003641_000923_012659_019691_018657_003127_218819,
  1_128074_000001_000003_000001_000009_000005_000003_000049_000215_000379_000765_001375_000345_002285_008197_009531_006725_022475_203883,
  1_128107_000001_000001_000003_000009_000019_000041_000013_000233_000097_000755_000249_002011_005815_006317_004121_063637_043353_154753,
  1_128122_000001_000003_000007_000015_000031_000025_000093_000197_000455_000979_001805_002619_000803_005705_001679_029317_066477_159187,
  1_128157_000001_000001_000001_000013_000011_000025_000061_000233_000339_000171_000559_000427_003239_008889_003711_019743_018099_049201,
  1_128161_000001_000003_000007_000013_000019_000005_000009_000183_000355_000137_001767_001113_001149_005791_004099_037911_075945_115397]

def dirRows18_2_24 : List Nat := [
  1_128200_000001_000001_000003_000013_000027_000025_000121_000003_000337_000195_001841_002009_004181_003197_020275_042493_007495_024407,
  1_128213_000001_000001_000001_000015_000003_000043_000039_000025_000057_000829_000565_001977_004027_011053_013961_013965_004207_001663,
  1_128229_000001_000003_000005_000009_000011_000007_000107_000205_000479_000961_001549_001701_006305_015419_023331_046443_055171_235109,
  1_128233_000001_000003_000005_000005_000019_000003_000039_000211_000429_000363_000765_000283_002469_001947_010481_001969_095545_187671,
  1_128241_000001_000001_000001_000001_000011_000055_000047_000121_000251_000063_000767_003673_003233_014865_025713_048443_079139_225021,
  1_128259_000001_000001_000003_000011_000025_000035_000057_000103_000385_000155_000173_004023_000489_001733_014423_061843_024793_009871,
  1_128295_000001_000003_000001_000015_000009_000029_000099_000187_000471_000877_001321_002489_007439_004259_032703_001459_042093_261097,
  1_128299_000001_000001_000003_000011_000009_000025_000113_000251_000337_000405_000847_002451_005649_003449_011703_018271_108005_208789,
  1_128313_000001_000003_000003_000007_000013_000053_000061_000251_000461_000461_001557_001215_006731_013349_021003_011573_066751_079733,
  1_128345_000001_000001_000005_000001_000023_000049_000101_000175_000251_000577_001667_002561_006545_016305_018457_065067_035843_123445,
  1_128362_000001_000001_000005_000003_000007_000009_000061_000107_000395_000137_000559_002315_002559_011929_004843_041661_061361_146163,
  1_128375_000001_000003_000001_000005_000001_000003_000043_000251_000329_000289_000323_002201_004129_004963_027477_018743_046551_093061,
  1_128376_000001_000001_000007_000003_000017_000063_000021_000159_000447_000377_000069_002517_008181_006043_003039_007747_072465_041027,
  1_128406_000001_000001_000001_000001_000013_000003_000045_000093_000391_000509_000867_001561_005017_011851_024891_022531_018993_129421,
  1_128410_000001_000003_000003_000011_000015_000001_000127_000009_000161_000321_002003_000239_001379_011903_013503_026529_057725_214797,
  1_128416_000001_000001_000001_000013_000031_000011_000017_000025_000001_000645_000675_000735_002083_001919_018977_004995_091559_230463,
  1_128443_000001_000003_000001_000013_000017_000021_000107_000167_000135_000797_000715_003275_005437_004253_011671_014867_036041_071751,
  1_128451_000001_000003_000005_000005_000011_000049_000093_000231_000431_000567_001605_003281_007049_002947_000863_039593_117167_167301,
  1_128465_000001_000001_000001_000001_000005_000013_000061_000091_000127_000189_001879_003921_004303_004831_006765_031005_107627_080693,
  1_128466_000001_000003_000001_000003_000001_000049_000061_000009_000467_000891_000105_000317_000137_012789_012367_057455_039777_088047,
  1_128484_000001_000001_000003_000013_000023_000063_000037_000103_000023_000223_000647_002523_003211_014551_022663_048237_054777_180297,
  1_128499_000001_000003_000003_000007_000029_000051_000085_000179_000441_000431_000535_002975_008083_008619_030229_031421_054063_163601,
  1_128502_000001_000003_000001_000001_000027_000039_000125_000171_000057_000729_000511_000957_007541_002347_001669_032323_108531_069943,
  1_128524_000001_000003_000003_000007_000001_000033_000089_000245_000095_000021_000699_001441_002659_000501_032323_039145_082311_155479,
  1_128536_000001_000001_000003_000011_000029_000013_000087_000251_000329_000667_000325_002411_007959_008069_020817_042445_121675_113421,
  1_128541_000001_000001_000001_000007_000009_000057_000109_000237_000325_000535_000089_001285_005649_013673_029375_051553_081723_011003,
  1_128542_000001_000003_000001_000001_000013_000005_000031_000109_000157_000817_001303_000725_001841_005503_002255_034637_093603_082825,
  1_128592_000001_000003_000007_000007_000005_000033_000039_000233_000217_000157_000357_002727_003565_001539_005317_023967_030375_260381,
  1_128598_000001_000001_000005_000003_000023_000051_000045_000181_000353_000519_000949_003043_001517_003387_015081_005997_031523_080007,
  1_128623_000001_000001_000003_000005_000023_000021_000083_000051_000275_000629_001433_001821_003761_002367_032089_013813_099629_064603,
  1_128632_000001_000001_000005_000015_000011_000049_000069_000197_000193_000459_001915_000787_003631_005219_011109_012311_056625_117439,
  1_128671_000001_000003_000003_000003_000031_000029_000057_000027_000043_000231_000777_002139_002609_012273_023777_004151_051749_110013,
  1_128713_000001_000001_000005_000013_000009_000063_000083_000069_000225_000913_000099_001167_005279_014163_003979_055151_084387_234583,
  1_128724_000001_000001_000007_000005_000009_000057_000087_000023_000335_000403_001843_000725_005187_004137_024299_044807_098523_217815,
  1_128731_000001_000003_000003_000003_000003_000023_000115_000229_000193_000655_001205_003159_001935_000113_020943_032917_069633_002133,
  1_128761_000001_000003_000003_000001_000017_000005_000059_000139_000075_000185_001951_003689_004997_002761_008673_041783_075075_101063,
  1_128767_000001_000003_000001_000013_000001_000051_000063_000127_000067_000743_001049_002055_004249_000131_008153_050237_028135_076059,
  1_128782_000001_000003_000007_000013_000005_000039_000083_000063_000429_000573_001915_003801_002223_001585_016997_045571_023311_108099,
  1_128793_000001_000003_000001_000003_000015_000049_000019_000065_000433_000401_001901_003653_002399_015171_009695_030257_104877_181221,
  1_128805_000001_000003_000001_000001_000025_000037_000089_000007_000081_000343_000949_003535_001681_010089_023513_003897_127083_214005,
  1_128820_000001_000003_000007_000013_000001_000001_000123_000089_000433_000541_001579_000931_003459_011095_020729_013117_059323_090309,
  1_128830_000001_000001_000007_000001_000019_000009_000031_000211_000271_000025_001053_002249_006549_012785_016947_055633_070155_253741,
  1_128842_000001_000003_000005_000009_000007_000049_000011_000251_000101_000795_001015_002037_001239_010151_022179_000749_002373_224517,
  1_128852_000001_000003_000007_000015_000021_000019_000015_000059_000439_000621_001081_003041_001587_003077_002319_051135_110513_222551,
  1_128859_000001_000001_000005_000005_000009_000061_000049_000097_000361_000647_000351_001977_003023_010213_006889_008753_072203_037521,
  1_128866_000001_000003_000003_000001_000007_000029_000051_000117_000259_000081_001263_001829_006541_005699_030367_061325_078795_003491,
  1_128875_000001_000001_000001_000005_000005_000023_000019_000255_000267_000251_000239_003561_006771_010647_004129_040285_011041_027023,
  1_128892_000001_000001_000007_000005_000029_000017_000121_000091_000427_000051_000243_001617_005389_003633_014105_005329_109507_093719,
  1_128896_000001_000003_000007_000005_000007_000059_000107_000089_000181_000719_001029_000585_002415_009175_011605_009271_012105_042503,
  1_128914_000001_000003_000005_000015_000027_000015_000083_000223_000489_000901_001823_001515_006295_012509_027179_000181_029813_066163,
  1_128935_000001_000001_000007_000015_000005_000009_000079_000029_000201_000391_000609_000935_004025_000201_008333_024557_033739_257979,
  1_128964_000001_000003_000003_000009_000009_000019_000055_000211_000347_000943_000559_000467_001363_010249_007109_041293_028035_205889,
  1_128973_000001_000001_000005_000003_000021_000025_000025_000163_000095_000119_000789_001679_003845_001427_025531_013375_121029_194845,
  1_129001_000001_000001_000005_000003_000031_000021_000083_000027_000017_000059_000885_003889_004795_004383_028739_055129_010387_176437,
  1_129007_000001_000003_000001_000005_000031_000039_000037_000079_000433_000313_001155_003025_006141_010695_027819_028227_032161_250515,
  1_129012_000001_000001_000005_000009_000027_000041_000003_000129_000235_000621_001171_003305_006309_005323_015049_016301_013817_238521,
  1_129021_000001_000003_000007_000007_000027_000031_000063_000143_000183_000625_001627_003093_006597_014089_030197_060411_066221_221691,
  1_129026_000001_000003_000007_000013_000021_000015_000059_000067_000441_000113_001229_001587_005889_006691_010641_011865_089791_082867,
  1_129055_000001_000001_000007_000009_000013_000021_000053_000145_000235_000877_002005_001005_007137_006091_019611_025959_124019_216269,
  1_129071_000001_000003_000007_000009_000017_000063_000005_000245_000397_000351_001613_004079_007235_004397_018951_011609_071593_148615,
  1_129093_000001_000003_000003_000011_000005_000059_000065_000221_000237_000527_000861_000397_000249_015273_008415_061185_059419_098115,
  1_129105_000001_000001_000003_000005_000005_000059_000017_000247_000003_000765_000835_001131_003985_009021_018067_028525_086513_250227,
  1_129124_000001_000003_000007_000015_000025_000047_000119_000143_000143_000283_001791_000059_008171_012577_017079_009809_100299_063977,
  1_129148_000001_000003_000005_000013_000001_000047_000093_000159_000199_000863_001279_000077_004719_003623_030713_039271_126299_130297,
  1_129151_000001_000001_000005_000003_000023_000011_000119_000187_000057_000373_000747_001507_005165_012929_000903_049041_070215_117113,
  1_129155_000001_000001_000005_000001_000003_000059_000023_000077_000151_000077_000627_002865_007055_010469_012095_020481_013429_047573,
  1_129161_000001_000003_000001_000013_000027_000013_000115_000233_000343_000407_001321_004011_005589_015369_023495_004435_075421_229325,
  1_129200_000001_000003_000003_000003_000005_000051_000089_000053_000275_000279_000203_002829_004415_004735_025417_017633_099445_183945,
  1_129224_000001_000003_000003_000015_000007_000009_000091_000063_000143_000945_000453_004001_003943_007285_009359_027507_008571_031827,
  1_129230_000001_000003_000003_000011_000015_000049_000103_000025_000273_000791_000145_002203_004721_007709_025085_033937_098693_097445,
  1_129237_000001_000001_000005_000015_000009_000013_000087_000027_000331_000137_001031_000585_007841_012213_032259_046953_017813_203379,
  1_129298_000001_000003_000001_000005_000029_000053_000121_000179_000021_000311_000991_002145_006577_012889_008763_046629_128093_105033,
  1_129300_000001_000003_000001_000009_000007_000029_000057_000137_000333_000109_000615_000749_002665_013087_013989_041857_102937_125183,
  1_129316_000001_000001_000005_000005_000003_000023_000107_000005_000319_000503_001209_000047_000349_011681_028521_044707_112887_232275,
  1_129345_000001_000003_000003_000013_000013_000051_000013_000005_000293_000015_000555_000135_002565_013325_030411_014837_065591_249205,
  1_129351_000001_000003_000005_000013_000017_000003_000073_000255_000447_000699_000503_003655_007735_012163_006167_015027_103831_146395,
  1_129352_000001_000003_000001_000013_000005_000009_000027_000045_000397_000463_001739_003193_006731_007533_011217_022359_082603_231613,
  1_129363_000001_000001_000003_000015_000005_000043_000073_000191_000053_000187_001905_000745_001571_009013_008515_059527_104671_227063,
  1_129393_000001_000001_000003_000001_000005_000047_000057_000179_000433_000979_000147_001701_004019_006855_024487_065495_069919_006659,
  1_129410_000001_000003_000003_000001_000017_000017_000013_000075_000163_000781_000421_001573_002519_009243_020693_060909_065661_208125,
  1_129415_000001_000003_000005_000007_000027_000057_000039_000079_000157_000415_000729_003651_003581_009443_006409_045993_099051_140977,
  1_129449_000001_000003_000003_000013_000001_000007_000109_000077_000423_000185_000097_003719_002355_010593_002421_037339_024961_024305,
  1_129477_000001_000003_000005_000013_000017_000007_000125_000043_000453_000043_000643_003757_003721_016083_020871_026451_095201_029153,
  1_129501_000001_000001_000007_000003_000013_000049_000099_000253_000059_000021_000445_003677_006683_002165_032367_055249_005991_155033,
  1_129518_000001_000001_000003_000009_000021_000009_000015_000219_000175_000631_000665_002455_004701_010639_013907_026937_058867_259861,
  1_129520_000001_000003_000005_000005_000023_000005_000039_000233_000027_000811_001435_000625_004703_003699_020763_050047_123875_010129,
  1_129545_000001_000001_000007_000005_000023_000001_000049_000223_000309_000691_000953_000575_005279_010515_011519_035387_048417_134001,
  1_129563_000001_000001_000007_000011_000003_000015_000125_000109_000039_000713_001823_001613_004347_006839_029511_026865_102077_031425,
  1_129594_000001_000001_000001_000007_000031_000043_000013_000221_000115_000993_001155_001641_001063_002065_018909_045769_065331_188455,
  1_129608_000001_000001_000007_000013_000021_000009_000059_000007_000079_000217_002009_000667_007685_014761_020149_044133_041037_078369,
  1_129616_000001_000003_000001_000009_000023_000057_000001_000193_000077_000681_001135_003657_008149_003559_025011_055027_121903_240157,
  1_129652_000001_000003_000003_000005_000031_000041_000059_000005_000159_000627_001569_000023_002311_002239_020811_054931_130949_193071,
  1_129659_000001_000001_000001_000001_000027_000045_000043_000001_000381_000801_000451_001361_001611_005379_027819_008949_004953_222335,
  1_129680_000001_000001_000007_000007_000007_000011_000101_000017_000197_000561_000297_000159_007443_007273_000819_023487_024927_151781,
  1_129692_000001_000003_000001_000003_000015_000043_000119_000193_000205_000835_000007_000689_008045_011167_019521_065075_087265_053669,
  1_129738_000001_000003_000007_000007_000009_000051_000043_000209_000239_000415_000995_004037_001219_002683_030459_036161_111157_184551,
  1_129764_000001_000003_000007_000011_000027_000003_000081_000043_000407_000463_000231_003545_002691_005235_022053_037233_098757_149111,
  1_129782_000001_000003_000001_000005_000017_000025_000047_000185_000487_000403_001063_001445_004457_015443_011693_054823_131001_009813,
  1_129793_000001_000003_000005_000003_000005_000035_000127_000253_000173_000491_000133_003575_001981_012735_026021_061615_074615_159829,
  1_129820_000001_000001_000005_000009_000013_000037_000067_000155_000317_000389_000603_004061_003527_009315_032331_043145_082511_240133]

def dirRows18_2_25 : List Nat := [
  1_129824_000001_000001_000005_000001_000021_000041_000089_000003_000061_000627_001301_002073_000447_008139_002509_052075_050687_240239,
  1_129829_000001_000003_000007_000013_000025_000061_000117_000107_000175_000007_001173_000561_005777_010525_020713_034987_048005_214361,
  1_129848_000001_000003_000007_000015_000025_000031_000127_000147_000177_000881_000095_002115_004765_010485_009253_000721_000193_222459,
  1_129854_000001_000003_000005_000003_000003_000013_000047_000077_000441_001001_000215_002365_003603_000405_011401_014523_065755_258229,
  1_129861_000001_000001_000003_000009_000019_000029_000071_000153_000077_000613_001815_002033_001821_015497_018805_028851_088247_143115,
  1_129879_000001_000003_000001_000011_000021_000019_000037_000035_000427_000887_001977_001961_003619_010739_030115_055937_102045_110929,
  1_129886_000001_000003_000003_000013_000021_000027_000049_000015_000405_000629_002015_000867_002121_013789_019225_022343_105629_123113,
  1_129907_000001_000001_000001_000001_000017_000019_000055_000207_000507_001001_001753_000315_002799_008643_001519_004057_016599_222223,
  1_129949_000001_000001_000005_000007_000021_000037_000063_000053_000103_000261_000595_000389_006041_011127_023625_061683_080953_255891,
  1_129953_000001_000001_000001_000005_000025_000021_000081_000233_000079_000057_001311_003965_007747_000687_032149_000397_004551_037657,
  1_129980_000001_000001_000001_000005_000009_000019_000087_000067_000325_000157_000317_000591_001401_008275_020413_039529_075349_183679,
  1_129998_000001_000003_000003_000015_000009_000003_000083_000205_000195_000599_000829_003109_003705_013991_008781_041555_031689_086933,
  1_130031_000001_000003_000005_000001_000003_000009_000037_000235_000271_000883_000561_001473_007693_000177_014113_019507_075221_067517,
  1_130043_000001_000001_000001_000009_000007_000029_000087_000189_000239_000429_000537_001657_006373_002449_017621_019649_077235_102775,
  1_130057_000001_000001_000007_000007_000001_000043_000069_000207_000241_000561_001809_003119_004657_015797_018751_052169_105005_172657,
  1_130065_000001_000001_000007_000005_000005_000059_000067_000231_000027_000435_001073_002689_000229_000733_001579_052289_110285_076721,
  1_130087_000001_000003_000005_000009_000031_000019_000087_000041_000489_000705_001363_000963_005865_008237_010295_043169_081561_177209,
  1_130091_000001_000003_000003_000001_000025_000039_000063_000255_000403_000625_001601_000071_006609_004165_021987_031269_025473_017063,
  1_130096_000001_000003_000003_000011_000019_000013_000101_000245_000017_000687_001037_003345_007257_013081_005131_029003_072319_223505,
  1_130101_000001_000003_000003_000003_000011_000049_000107_000029_000463_000465_000977_004007_002121_004821_001465_053725_036783_247057,
  1_130111_000001_000001_000001_000003_000001_000043_000071_000049_000261_000965_001041_003951_003791_002503_026009_052039_004639_141281,
  1_130126_000001_000001_000003_000005_000029_000045_000079_000033_000119_000491_001403_001637_000853_005609_029853_016435_117877_058443,
  1_130137_000001_000001_000003_000005_000013_000017_000109_000187_000201_000705_000235_001485_007673_006335_003341_020451_064697_129519,
  1_130138_000001_000001_000007_000013_000011_000041_000095_000081_000135_000783_001293_002095_003599_010175_003205_056915_000131_019281,
  1_130149_000001_000003_000005_000009_000013_000019_000053_000223_000283_000733_001915_003029_002779_008133_028163_037263_091245_001927,
  1_130177_000001_000003_000003_000003_000001_000055_000041_000123_000209_000195_001423_002467_003809_011169_023593_008703_040975_175651,
  1_130180_000001_000003_000007_000009_000031_000057_000031_000115_000415_000445_000557_003971_001565_015223_007799_010463_117387_225127,
  1_130214_000001_000003_000005_000011_000031_000019_000003_000063_000315_000501_000903_001925_003393_016149_011013_015483_070765_000279,
  1_130228_000001_000003_000003_000009_000029_000021_000013_000227_000263_000815_001259_002549_000955_009237_016083_038891_031145_000731,
  1_130240_000001_000003_000003_000005_000027_000023_000033_000189_000107_000655_000889_001549_007315_013341_012721_059339_054503_091679,
  1_130267_000001_000003_000007_000005_000015_000009_000001_000255_000451_000091_001279_002359_005913_005215_023161_029327_045275_206709,
  1_130280_000001_000003_000003_000009_000009_000041_000075_000091_000087_000695_000335_003375_007307_014095_005359_007815_009339_046387,
  1_130294_000001_000001_000003_000015_000005_000047_000069_000231_000423_000255_001335_003395_002799_008955_031445_059849_104955_240587,
  1_130306_000001_000003_000005_000007_000007_000009_000021_000209_000321_000005_000653_002199_003657_006397_020229_032349_054543_047971,
  1_130325_000001_000003_000007_000011_000031_000021_000085_000049_000197_000865_000053_000609_001867_014503_012671_061703_039245_008493,
  1_130398_000001_000003_000001_000013_000027_000031_000119_000247_000209_000065_001729_001563_001597_001617_026597_050139_108667_077035,
  1_130402_000001_000001_000005_000013_000003_000049_000053_000219_000071_001013_001239_003725_000117_009273_008277_032619_045933_071509,
  1_130421_000001_000003_000007_000013_000001_000003_000119_000153_000079_000555_000429_001221_003725_006073_001295_007187_117709_258911,
  1_130438_000001_000003_000003_000013_000001_000013_000105_000185_000081_000989_000563_003761_006725_004699_010539_050247_095307_211927,
  1_130441_000001_000003_000007_000003_000021_000011_000045_000081_000495_000391_001437_003495_003789_013701_009479_042505_022561_135019,
  1_130475_000001_000003_000003_000011_000007_000061_000065_000211_000269_000997_000385_003843_004905_002939_028551_019515_025177_068137,
  1_130486_000001_000001_000003_000003_000003_000047_000073_000127_000015_000977_000209_001791_004711_006733_029093_036311_013665_240603,
  1_130503_000001_000003_000005_000005_000019_000039_000029_000211_000463_000755_001723_000397_000213_014009_022701_007131_035587_183885,
  1_130551_000001_000003_000005_000009_000011_000029_000007_000025_000381_000631_001343_002255_002535_003239_007287_014161_069295_085245,
  1_130574_000001_000001_000005_000005_000017_000047_000019_000217_000289_000411_001855_000323_004109_002601_005835_061909_099333_099959,
  1_130602_000001_000001_000003_000011_000001_000051_000121_000207_000403_000993_001171_003451_003389_000957_022125_009333_110775_054125,
  1_130612_000001_000003_000005_000015_000009_000051_000013_000251_000203_000861_000321_002017_006933_010785_020089_065213_105451_117319,
  1_130621_000001_000003_000003_000015_000019_000063_000089_000217_000269_000723_000057_001923_004267_004895_002191_021605_062401_011063,
  1_130633_000001_000003_000001_000003_000021_000047_000103_000075_000167_000989_001401_000575_003717_010373_021321_005487_036063_140411,
  1_130684_000001_000001_000007_000015_000019_000029_000121_000197_000429_000773_000901_001875_000291_011395_031459_055041_049263_185143,
  1_130688_000001_000003_000003_000001_000019_000017_000019_000021_000041_000885_001665_000547_005887_006205_003317_059399_125559_082721,
  1_130698_000001_000003_000001_000009_000015_000039_000081_000009_000279_000033_001287_003035_005759_010647_003933_020953_003137_030693,
  1_130700_000001_000003_000005_000013_000003_000033_000033_000169_000233_000083_000467_003719_005617_006165_015631_056059_095541_245233,
  1_130712_000001_000003_000005_000013_000005_000021_000081_000009_000413_000247_001307_003363_003383_011525_001259_008735_036507_098359,
  1_130739_000001_000001_000001_000013_000017_000049_000105_000131_000385_000309_001295_000565_008031_015391_031263_052657_102721_212195,
  1_130748_000001_000003_000001_000007_000013_000041_000021_000103_000237_000649_000055_001565_006327_008743_015457_029975_034165_080839,
  1_130774_000001_000003_000005_000011_000015_000031_000121_000219_000375_000159_000731_000059_003205_015039_010023_046209_034619_110253,
  1_130783_000001_000003_000003_000011_000031_000019_000079_000185_000363_000635_000463_000987_002681_006405_030077_021173_014213_058095,
  1_130802_000001_000001_000005_000013_000023_000037_000057_000111_000293_000553_000269_003393_000345_001983_001097_047217_022281_212607,
  1_130811_000001_000003_000005_000007_000007_000033_000065_000061_000185_000411_000187_000641_006437_004625_017547_038941_081119_048651,
  1_130836_000001_000001_000007_000003_000019_000025_000039_000243_000139_000465_000691_000713_007879_014539_031669_035871_130681_255929,
  1_130840_000001_000003_000001_000001_000003_000043_000087_000013_000179_000835_000719_001189_007207_005863_006077_020669_035469_211155,
  1_130856_000001_000003_000007_000013_000025_000059_000097_000129_000151_000985_000739_001919_007729_014057_021721_017603_082797_181319,
  1_130864_000001_000001_000007_000007_000005_000003_000021_000141_000379_000257_000207_000597_004051_007563_025481_059427_045449_061159,
  1_130873_000001_000003_000003_000009_000011_000025_000005_000029_000131_000603_000637_000189_004033_013099_015219_004447_073501_135795,
  1_130918_000001_000003_000001_000009_000001_000049_000057_000227_000141_000543_001499_003525_003127_011191_004071_047003_007431_155137,
  1_130927_000001_000003_000001_000011_000027_000031_000015_000031_000113_000135_001251_000245_006965_014263_005679_055201_121453_132503,
  1_130929_000001_000001_000005_000015_000007_000023_000067_000163_000057_000513_001809_001343_006165_000199_031169_030803_086705_071103,
  1_130958_000001_000001_000003_000001_000015_000009_000075_000143_000273_000797_000819_004037_002305_004841_015697_041191_038187_174131,
  1_130966_000001_000003_000007_000007_000003_000055_000065_000135_000423_000185_000299_002221_007987_004223_028183_032273_095941_260297,
  1_130970_000001_000001_000007_000007_000007_000011_000067_000109_000507_000673_001555_002537_007553_004659_003945_020839_032539_043053,
  1_130976_000001_000001_000007_000015_000001_000047_000061_000073_000211_000397_001785_004063_006461_013725_011299_017565_080063_118271,
  1_131006_000001_000001_000007_000005_000029_000027_000097_000105_000379_000153_000915_002795_004933_006729_021207_009995_070241_085641,
  1_131008_000001_000003_000005_000005_000023_000013_000041_000067_000127_000649_001351_003597_007077_004989_014649_017401_070883_239841,
  1_131020_000001_000001_000005_000001_000019_000001_000083_000003_000425_000873_001943_003935_004257_014587_011829_055217_021963_039683,
  1_131059_000001_000001_000007_000011_000015_000007_000037_000239_000337_000245_001557_003681_007357_009639_027367_026869_114603_086317]

/-- Rows with 18 initial numbers, part 2. -/
def dir18_2 : List (List Nat) := [
  dirRows18_2_0,
  dirRows18_2_1,
  dirRows18_2_2,
  dirRows18_2_3,
  dirRows18_2_4,
  dirRows18_2_5,
  dirRows18_2_6,
  dirRows18_2_7,
  dirRows18_2_8,
  dirRows18_2_9,
  dirRows18_2_10,
  dirRows18_2_11,
  dirRows18_2_12,
  dirRows18_2_13,
  dirRows18_2_14,
  dirRows18_2_15,
  dirRows18_2_16,
  dirRows18_2_17,
  dirRows18_2_18,
  dirRows18_2_19,
  dirRows18_2_20,
  dirRows18_2_21,
  dirRows18_2_22,
  dirRows18_2_23,
  dirRows18_2_24,
  dirRows18_2_25]

end SALib.Data
