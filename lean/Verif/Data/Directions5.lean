/-! # Direction-number table, rows 10914 to 13423

Generated from `src/SALib/sample/directions.py` lines 10916-13425.  One row per line: a leading 1, then
every number of the row padded to six digits (so the row `(7, 1, 1, 7, 11, 19)` is
`1_000007_000001_000001_000007_000011_000019`).  Rows are grouped by the number `s` of initial numbers. -/

namespace SALib.Data

def dirRows17_2_0 : List Nat := [
  1_044223_000001_000001_000007_000001_000013_000019_000013_000081_000497_000399_000413_002411_003915_014037_019735_004587_069655,
  1_044235_000001_000003_000001_000007_000005_000061_000101_000209_000299_000729_001359_004013_002057_008439_008113_057417_008951,
  1_044243_000001_000003_000005_000007_000029_000021_000067_000073_000107_000359_001655_003729_004403_010467_028103_010261_074651,
  1_044262_000001_000001_000001_000009_000003_000039_000025_000091_000287_000497_001743_000339_004739_001709_016351_045385_064693,
  1_044283_000001_000003_000001_000001_000007_000013_000041_000093_000049_000285_000997_000891_004353_004249_011269_036935_071249,
  1_044291_000001_000003_000003_000013_000013_000023_000097_000231_000101_000093_001183_000201_006795_016287_030707_020845_105873,
  1_044293_000001_000001_000001_000009_000007_000057_000123_000167_000451_000245_001887_001839_002967_002387_015075_011877_000629,
  1_044308_000001_000003_000003_000001_000013_000013_000083_000041_000219_000313_001743_001265_004435_011731_017625_064235_024865,
  1_044327_000001_000003_000001_000009_000013_000017_000109_000235_000387_000581_000887_001071_000603_010955_005001_008419_020997,
  1_044341_000001_000003_000001_000005_000031_000055_000001_000219_000027_000623_001425_001309_005409_009633_003231_015029_022989,
  1_044346_000001_000003_000003_000013_000025_000047_000023_000223_000283_000189_001665_003743_000387_001807_016919_008511_015933,
  1_044348_000001_000001_000001_000001_000013_000011_000081_000059_000423_001007_000317_002761_002617_009715_024853_063585_077083,
  1_044354_000001_000003_000001_000003_000003_000011_000103_000123_000401_000467_001159_002725_003275_015513_002281_021617_087211,
  1_044366_000001_000001_000005_000007_000023_000017_000025_000083_000011_000901_000809_003233_003929_008685_007609_050949_104841,
  1_044368_000001_000003_000007_000001_000015_000033_000037_000245_000275_000453_000729_000721_001589_005417_029839_057315_067227,
  1_044373_000001_000003_000007_000003_000021_000017_000051_000213_000225_000471_001201_000931_001229_009503_005507_004057_007737,
  1_044384_000001_000003_000001_000011_000029_000055_000019_000193_000009_000151_000597_001377_000827_008549_001293_010963_086183,
  1_044390_000001_000003_000003_000015_000017_000023_000089_000047_000195_000333_002001_001001_006715_009797_021631_005723_088847,
  1_044393_000001_000003_000005_000009_000021_000033_000111_000101_000503_000513_000785_001947_001139_007921_013189_034831_080963,
  1_044394_000001_000003_000003_000013_000009_000061_000035_000039_000451_000485_000661_001993_004705_009477_032541_016553_033167,
  1_044399_000001_000003_000003_000009_000029_000037_000115_000087_000367_000325_000539_001975_006769_001453_031099_003335_016939,
  1_044401_000001_000001_000001_000007_000015_000021_000113_000203_000097_000847_000625_000847_001819_001109_014503_025319_100259,
  1_044408_000001_000001_000005_000011_000009_000013_000065_000021_000429_000865_000513_002183_003785_011817_006283_023041_007969,
  1_044411_000001_000001_000005_000013_000001_000041_000109_000043_000091_000211_001477_003543_005217_003133_012503_015523_012917,
  1_044417_000001_000003_000007_000009_000023_000053_000109_000089_000229_000939_001211_002771_000541_015915_005411_047273_054453,
  1_044420_000001_000001_000001_000003_000003_000045_000031_000063_000099_000347_000017_000523_000441_012325_015673_001887_015289,
  1_044424_000001_000001_000001_000007_000029_000061_000035_000115_000345_001011_000005_000595_000465_003897_028147_000791_098757,
  1_044444_000001_000001_000005_000009_000027_000001_000021_000155_000467_000469_001565_001439_005809_000851_032503_003025_097231,
  1_044451_000001_000001_000001_000009_000003_000017_000015_000073_000487_001011_000063_002605_006647_009385_004527_021993_019783,
  1_044453_000001_000001_000003_000009_000017_000017_000065_000075_000175_000897_001317_002593_001495_015835_012025_057457_029577,
  1_044466_000001_000001_000001_000013_000007_000001_000013_000145_000491_000427_000375_001235_003045_002991_026607_030581_043377,
  1_044472_000001_000001_000001_000001_000031_000001_000075_000235_000345_000075_001505_001401_006921_006207_013729_021545_034703,
  1_044475_000001_000003_000007_000009_000031_000035_000053_000233_000085_000385_002045_001401_005365_000827_013093_041097_097381,
  1_044486_000001_000003_000007_000015_000005_000009_000019_000125_000049_000029_001553_000675_003947_004775_008161_012321_055191,
  1_044500_000001_000003_000003_000007_000017_000017_000027_000237_000087_000927_000275_001965_004993_001429_031613_038403_119319,
  1_044510_000001_000003_000007_000013_000025_000061_000087_000133_000037_000725_000697_000371_007607_013861_008015_063997_025745,
  1_044531_000001_000001_000005_000003_000001_000029_000115_000053_000355_000533_001711_003863_006983_004849_015787_038933_100299,
  1_044534_000001_000001_000003_000005_000007_000011_000095_000021_000363_001005_000425_003497_000841_008251_011933_047783_122699,
  1_044553_000001_000001_000001_000011_000015_000041_000023_000159_000191_000433_000919_003151_005311_002061_011277_004947_010549,
  1_044559_000001_000001_000005_000001_000029_000057_000023_000239_000179_000821_001825_001745_004357_004041_027517_008557_086969,
  1_044564_000001_000003_000001_000013_000003_000045_000091_000021_000221_000203_000683_001787_000375_004101_013555_043269_008063,
  1_044580_000001_000001_000005_000015_000017_000061_000095_000095_000285_000597_001967_004061_000389_003813_006061_050261_056035,
  1_044583_000001_000001_000007_000009_000009_000035_000103_000255_000239_000077_000145_004089_000757_016151_029963_001229_031895,
  1_044589_000001_000001_000007_000007_000029_000051_000063_000105_000055_000609_000665_002101_004605_007085_018543_064221_102503,
  1_044592_000001_000001_000003_000009_000023_000049_000083_000071_000191_000917_000039_001013_004689_002407_001733_031113_031263,
  1_044609_000001_000001_000005_000011_000031_000051_000017_000223_000325_000829_000541_003561_005319_015397_012479_057199_038611,
  1_044627_000001_000003_000001_000003_000019_000057_000019_000191_000427_000905_001111_000695_005447_004061_025543_045699_113283,
  1_044633_000001_000001_000003_000007_000005_000011_000059_000249_000375_000889_000563_002757_005857_003595_023183_001785_105017,
  1_044643_000001_000003_000005_000007_000011_000055_000095_000167_000027_000823_000903_002403_001137_003209_006313_061871_129865,
  1_044646_000001_000001_000003_000011_000025_000003_000089_000171_000209_000409_001357_003825_005261_010805_013493_003303_129987,
  1_044650_000001_000001_000005_000001_000023_000021_000003_000207_000471_000375_001785_002555_001613_016235_001585_048221_010197,
  1_044674_000001_000001_000001_000015_000013_000033_000089_000185_000331_000239_001401_000789_002687_015193_020911_018935_028751,
  1_044676_000001_000001_000001_000013_000027_000019_000111_000139_000385_000531_001069_002343_007405_010305_007049_048215_077591,
  1_044680_000001_000003_000007_000013_000023_000009_000113_000107_000441_000265_001617_000063_007629_005505_007059_047307_082527,
  1_044683_000001_000003_000001_000009_000027_000027_000035_000233_000189_000517_001285_001843_001569_014921_006617_044337_046917,
  1_044703_000001_000001_000003_000015_000007_000015_000009_000255_000109_000629_000437_003601_006591_010873_001765_046459_110991,
  1_044704_000001_000001_000005_000015_000017_000013_000115_000097_000401_000979_001139_002607_006537_005369_017775_007657_057175,
  1_044716_000001_000001_000005_000015_000027_000015_000043_000095_000271_000945_001205_003505_007403_013203_027259_024821_062921,
  1_044733_000001_000001_000007_000015_000009_000013_000053_000177_000093_000169_001933_001101_004847_015477_022107_013009_093675,
  1_044748_000001_000003_000001_000003_000013_000057_000121_000229_000353_000449_000769_001207_000557_005673_013129_029383_035925,
  1_044759_000001_000003_000003_000001_000031_000033_000005_000087_000461_000873_000795_002715_001421_014723_017917_020681_046103,
  1_044763_000001_000001_000007_000003_000029_000005_000049_000215_000341_000025_001473_000177_001443_014181_026723_049143_073461,
  1_044781_000001_000003_000001_000005_000017_000053_000005_000027_000001_000325_001335_002941_007195_008179_026971_063469_049357,
  1_044782_000001_000003_000005_000003_000003_000005_000029_000241_000119_000415_001371_003201_002815_015567_032521_018635_002101,
  1_044789_000001_000003_000001_000003_000007_000013_000127_000157_000271_000403_000187_003663_004073_012613_001305_031061_048361,
  1_044794_000001_000001_000003_000005_000001_000039_000041_000201_000113_000923_000621_000497_003823_012543_027273_058509_021613,
  1_044799_000001_000001_000001_000011_000005_000051_000093_000039_000345_000175_000679_000617_003445_008591_004017_005147_088847,
  1_044804_000001_000001_000007_000007_000007_000009_000063_000007_000089_000711_000487_000069_000447_003355_031929_034719_093629,
  1_044813_000001_000003_000001_000003_000027_000011_000051_000011_000471_000889_001935_002185_001277_003127_008853_017839_040279,
  1_044822_000001_000003_000003_000015_000025_000035_000071_000213_000121_000935_001601_000537_005753_008743_015243_059545_060399,
  1_044838_000001_000001_000003_000015_000031_000041_000051_000205_000123_000215_000305_003777_004103_007275_021603_056853_054575,
  1_044842_000001_000003_000007_000009_000017_000019_000037_000059_000193_000303_001079_003627_006503_014649_010283_064469_083677,
  1_044849_000001_000003_000001_000005_000011_000003_000115_000139_000213_000307_000721_001611_005093_011817_032503_038559_038449,
  1_044856_000001_000003_000001_000001_000017_000031_000041_000113_000135_000733_000723_002021_007397_015917_015741_007295_069885,
  1_044870_000001_000001_000007_000011_000031_000003_000125_000077_000089_000793_001441_001527_000457_009457_013581_062979_125279,
  1_044887_000001_000001_000001_000005_000009_000017_000019_000115_000043_000395_000183_002091_007021_007555_020165_045165_058925,
  1_044904_000001_000001_000001_000015_000023_000037_000097_000045_000357_000201_000425_003605_005305_010079_016397_040635_015355,
  1_044915_000001_000001_000003_000007_000003_000043_000065_000089_000051_000801_000917_002835_005675_002347_016587_019701_068655,
  1_044917_000001_000003_000007_000013_000011_000059_000093_000155_000053_000435_000165_003231_000429_012757_027033_014081_012625,
  1_044921_000001_000003_000001_000015_000015_000033_000121_000157_000271_000295_000901_001689_000709_013395_017773_014397_037743,
  1_044928_000001_000001_000001_000003_000007_000017_000125_000113_000223_000603_000425_003213_002781_002921_015181_018649_093493,
  1_044933_000001_000003_000003_000005_000001_000025_000003_000101_000151_000435_001339_001207_007687_012579_029331_004653_067353,
  1_044934_000001_000001_000007_000001_000029_000053_000101_000061_000031_000633_001899_003919_001879_003143_025319_045809_077425,
  1_044937_000001_000001_000005_000001_000017_000031_000079_000247_000077_000197_001693_000313_002183_014343_004511_026009_044943,
  1_044940_000001_000001_000007_000005_000031_000029_000119_000251_000345_000867_000271_000165_006425_008343_011251_028125_034849,
  1_044951_000001_000003_000001_000001_000013_000035_000009_000103_000365_000675_001653_004095_003123_008245_004679_018951_088543,
  1_044961_000001_000001_000001_000001_000023_000029_000109_000157_000253_000751_000145_002077_004555_007523_030099_037709_097369,
  1_044962_000001_000003_000003_000011_000005_000001_000051_000011_000203_000963_001961_000351_006697_008137_025933_053505_028531,
  1_044971_000001_000001_000007_000015_000027_000001_000031_000159_000447_000501_001873_002845_000875_001671_005049_038901_032559,
  1_044982_000001_000001_000003_000003_000029_000019_000033_000083_000071_000703_001861_003683_003589_015339_021075_040399_047853,
  1_044985_000001_000003_000003_000007_000005_000041_000061_000181_000319_000077_000777_002537_003887_002687_029227_055217_055813,
  1_044996_000001_000003_000003_000001_000025_000041_000023_000031_000031_000775_000693_000891_000861_007613_009557_043275_036311,
  1_044999_000001_000001_000007_000013_000011_000005_000099_000217_000081_000441_000765_003981_002921_009657_006905_030657_018395,
  1_045014_000001_000003_000001_000011_000021_000055_000025_000209_000013_001021_001373_000785_003243_001541_012033_017309_116517,
  1_045029_000001_000001_000001_000007_000003_000003_000061_000113_000453_000405_001321_002327_003529_012779_011707_055795_105137,
  1_045033_000001_000003_000001_000013_000015_000053_000017_000189_000197_000459_001999_000935_007835_009563_031231_047757_080807,
  1_045036_000001_000003_000005_000013_000011_000015_000091_000115_000427_000723_001815_003527_005917_004931_028297_012257_005587,
  1_045047_000001_000001_000005_000009_000031_000005_000077_000201_000373_000143_000581_001199_006807_006059_003133_057069_004895,
  1_045065_000001_000003_000001_000009_000017_000013_000127_000061_000235_000991_000279_001545_002875_008453_013329_039763_066897,
  1_045076_000001_000001_000003_000015_000031_000051_000003_000095_000221_000685_000635_001747_000177_009781_004859_045345_037607]

def dirRows17_2_1 : List Nat := [
  1_045085_000001_000003_000005_000001_000003_000055_000063_000051_000063_000707_000883_002985_003699_003881_008159_041775_041411,
  1_045086_000001_000001_000001_000011_000003_000041_000069_000181_000413_000033_000525_001883_006063_013787_001259_019497_008119,
  1_045090_000001_000001_000005_000015_000013_000027_000065_000063_000117_000831_000855_000369_001005_009069_016179_032027_006527,
  1_045107_000001_000003_000007_000005_000025_000051_000063_000163_000101_000299_001637_000641_002077_009195_011181_059783_109481,
  1_045119_000001_000003_000005_000013_000027_000013_000117_000253_000257_000919_000709_000411_005525_001247_019951_051423_034605,
  1_045121_000001_000001_000005_000005_000001_000037_000049_000125_000087_000291_000339_003235_001477_009787_019637_022855_103013,
  1_045128_000001_000003_000007_000015_000025_000017_000077_000023_000303_000739_001921_001425_006451_009521_006311_038551_123683,
  1_045139_000001_000003_000001_000007_000013_000019_000033_000073_000347_000085_001693_003671_000713_001191_003285_006815_061833,
  1_045151_000001_000001_000003_000003_000013_000053_000081_000177_000305_000967_000551_001177_002315_004899_005733_011147_128895,
  1_045157_000001_000003_000005_000003_000017_000017_000093_000173_000417_000645_001631_001817_006127_003545_006127_022331_059751,
  1_045162_000001_000001_000005_000011_000007_000053_000061_000117_000133_000141_000283_003351_006745_000599_007221_050583_009067,
  1_045164_000001_000003_000007_000003_000029_000045_000071_000177_000097_000897_000589_003319_001821_007207_025715_013043_096695,
  1_045176_000001_000003_000003_000001_000013_000039_000019_000049_000419_000905_001063_004023_000145_001479_022197_043883_045503,
  1_045179_000001_000003_000003_000015_000009_000045_000045_000201_000061_000193_000375_002439_002339_015981_005197_006285_109389,
  1_045198_000001_000001_000007_000013_000029_000051_000093_000223_000509_001003_001861_003715_002511_013843_025297_001241_012157,
  1_045209_000001_000003_000005_000015_000019_000017_000095_000243_000251_000485_001837_001829_002081_015117_029635_063861_100397,
  1_045231_000001_000001_000007_000003_000001_000037_000031_000053_000483_000849_001197_003069_002539_002529_012749_064331_045757,
  1_045234_000001_000003_000007_000007_000001_000019_000025_000243_000335_000099_001507_002155_006085_002253_032439_016141_006781,
  1_045236_000001_000003_000007_000015_000009_000013_000035_000063_000371_000373_001891_003913_004577_015553_013079_060251_071193,
  1_045251_000001_000003_000001_000007_000015_000013_000105_000113_000409_000289_000057_001095_000791_015675_021471_042851_029203,
  1_045260_000001_000001_000001_000013_000001_000057_000065_000007_000153_000929_001325_000229_003841_008967_029889_049427_046853,
  1_045268_000001_000001_000003_000011_000029_000001_000079_000111_000479_000931_001619_000505_004503_004055_018849_003979_046091,
  1_045277_000001_000001_000007_000003_000031_000027_000127_000063_000219_000043_000883_001265_005733_009051_017059_061625_093843,
  1_045299_000001_000001_000007_000007_000023_000021_000035_000211_000243_000399_001225_001415_005923_002143_025303_036171_126349,
  1_045301_000001_000003_000001_000003_000003_000013_000077_000205_000271_000393_000769_002101_004045_006159_003409_044065_102799,
  1_045338_000001_000001_000005_000015_000019_000001_000067_000199_000367_000051_000495_002051_003195_015239_010525_045319_050489,
  1_045344_000001_000001_000001_000009_000003_000019_000105_000147_000417_000399_000373_001025_002727_013779_030079_022723_041551,
  1_045349_000001_000001_000003_000001_000009_000015_000105_000095_000267_000995_000275_002627_003883_010785_008075_040591_054647,
  1_045364_000001_000001_000001_000005_000031_000037_000117_000185_000055_000273_000525_000445_004221_002081_016017_019859_003297,
  1_045367_000001_000003_000005_000013_000021_000013_000105_000231_000461_000831_000393_003253_001213_002625_003393_036715_104889,
  1_045371_000001_000003_000005_000015_000001_000017_000103_000129_000257_001003_000285_002927_003967_000053_005197_039665_050751,
  1_045373_000001_000001_000001_000013_000001_000061_000047_000255_000137_000849_000213_000301_000681_009547_028209_032941_072109,
  1_045376_000001_000001_000007_000011_000031_000015_000081_000117_000327_000289_001861_000861_006189_013425_018279_007635_116969,
  1_045381_000001_000003_000003_000003_000009_000011_000013_000181_000183_000621_000329_002751_003989_006345_020319_052267_079695,
  1_045400_000001_000001_000007_000013_000009_000001_000005_000125_000001_000735_000691_000013_003961_002273_018299_065221_020115,
  1_045406_000001_000003_000007_000001_000007_000003_000087_000115_000241_000101_000523_003019_007571_007721_027409_049751_097859,
  1_045416_000001_000003_000005_000011_000009_000005_000033_000059_000299_000191_000307_002115_002823_010187_010437_034137_093217,
  1_045422_000001_000003_000003_000007_000021_000031_000005_000113_000077_000215_000177_002029_007241_004465_031489_010165_019035,
  1_045427_000001_000003_000005_000001_000027_000063_000011_000161_000435_000941_001593_001765_001519_009111_012787_035961_105263,
  1_045440_000001_000001_000001_000009_000011_000057_000041_000229_000387_000617_001991_000221_002857_004337_013851_023185_111031,
  1_045458_000001_000001_000003_000005_000021_000027_000125_000083_000129_000919_000065_000403_002981_010111_017017_024829_012205,
  1_045467_000001_000003_000003_000009_000025_000019_000109_000047_000199_000395_001909_002819_005361_006629_007067_018755_017921,
  1_045474_000001_000001_000003_000015_000025_000037_000111_000129_000409_000291_001403_002785_003819_010245_024647_064799_064951,
  1_045476_000001_000003_000005_000011_000001_000007_000105_000223_000427_000661_001817_001023_000145_000927_006507_013235_030147,
  1_045488_000001_000003_000005_000013_000007_000015_000065_000125_000121_000113_000923_002729_001397_014247_008487_054907_041921,
  1_045494_000001_000001_000005_000001_000013_000015_000047_000111_000453_000375_001705_001539_004103_000601_007499_033287_123689,
  1_045497_000001_000001_000005_000003_000021_000011_000087_000115_000483_000617_001593_002817_006519_016203_000361_034415_100829,
  1_045500_000001_000003_000007_000015_000023_000025_000041_000193_000473_000517_001195_003627_001089_013391_003653_025637_005643,
  1_045512_000001_000003_000001_000001_000013_000057_000029_000175_000035_000107_000005_003641_001843_001507_007591_039967_066859,
  1_045515_000001_000001_000003_000013_000001_000039_000031_000011_000493_000123_000523_000843_000133_007971_014131_051927_097943,
  1_045523_000001_000001_000003_000007_000023_000045_000005_000195_000195_000683_000497_001215_005855_014569_020441_029541_030431,
  1_045542_000001_000003_000001_000011_000031_000039_000127_000187_000187_000017_000817_000907_004657_008223_013305_036489_028909,
  1_045553_000001_000001_000007_000013_000009_000001_000059_000027_000449_000887_000039_000191_000803_002339_005213_002611_093175,
  1_045559_000001_000001_000001_000001_000029_000017_000105_000013_000175_000401_001145_000297_006873_000889_010301_048993_049959,
  1_045589_000001_000003_000005_000005_000001_000057_000081_000081_000403_000719_001887_002597_001069_005219_029767_046905_008025,
  1_045594_000001_000001_000005_000011_000013_000037_000041_000003_000487_000895_000343_001729_003777_008681_024737_034179_015015,
  1_045596_000001_000001_000001_000015_000009_000043_000067_000203_000071_000399_000023_000529_002375_015373_021013_017389_093809,
  1_045603_000001_000003_000007_000007_000009_000023_000081_000027_000039_000529_000631_000199_003555_000953_004249_039297_088107,
  1_045605_000001_000003_000001_000003_000031_000045_000033_000063_000319_000245_001567_003359_002051_011523_030177_020293_013245,
  1_045610_000001_000001_000001_000013_000009_000061_000039_000127_000453_001019_002037_003541_006983_010717_019587_008981_099637,
  1_045630_000001_000003_000005_000009_000015_000007_000055_000079_000093_000303_001423_000499_005499_000795_014553_016945_046161,
  1_045638_000001_000001_000007_000005_000021_000021_000027_000201_000147_000461_000363_000267_002963_003409_017835_040777_071879,
  1_045641_000001_000001_000007_000009_000023_000063_000115_000243_000103_000119_002023_002223_007989_001365_026181_004631_088001,
  1_045647_000001_000003_000005_000005_000027_000057_000101_000199_000461_000853_000449_002733_002225_008609_019461_015265_054079,
  1_045655_000001_000003_000003_000015_000029_000059_000115_000105_000145_000391_000303_000901_005481_001491_030441_022331_003841,
  1_045659_000001_000001_000003_000001_000027_000045_000011_000167_000073_000181_000253_001947_001731_015269_016971_012299_046439,
  1_045665_000001_000001_000007_000013_000011_000021_000083_000157_000075_000705_001709_000487_005029_009879_027589_021601_050575,
  1_045689_000001_000001_000005_000003_000027_000037_000101_000163_000115_000903_001137_003807_002899_003407_027935_014203_031009,
  1_045695_000001_000003_000005_000009_000031_000033_000063_000069_000159_000737_001973_003661_006159_001781_009239_012989_082947,
  1_045702_000001_000003_000005_000009_000015_000033_000041_000089_000183_000933_001305_001013_007245_016225_010891_006641_061699,
  1_045708_000001_000001_000005_000003_000025_000041_000091_000183_000045_000553_001817_003305_005169_009051_024917_052431_052505,
  1_045726_000001_000003_000003_000009_000003_000009_000127_000059_000117_001001_001255_003435_003797_008507_028593_024119_075569,
  1_045729_000001_000003_000001_000005_000017_000043_000045_000021_000461_000339_001127_002213_007351_014585_002001_032619_033825,
  1_045739_000001_000001_000005_000011_000003_000037_000061_000083_000101_000707_000861_003037_001867_007747_016313_058745_014387,
  1_045744_000001_000001_000005_000003_000027_000025_000099_000017_000293_000867_001655_002301_002007_007379_014487_018233_003625,
  1_045747_000001_000001_000007_000013_000025_000029_000021_000133_000207_000119_000423_001561_006587_001221_027295_048141_125473,
  1_045762_000001_000003_000003_000001_000019_000045_000039_000085_000127_000249_000157_001307_007343_006309_031073_016909_093223,
  1_045764_000001_000001_000005_000013_000019_000043_000111_000109_000385_000847_001071_001009_002783_008471_005719_050459_110507,
  1_045773_000001_000001_000005_000015_000001_000045_000039_000197_000209_000839_000485_003943_005939_011835_018297_061217_085015,
  1_045774_000001_000001_000001_000015_000005_000061_000001_000195_000415_000355_001593_000151_008143_003527_011633_044337_099749,
  1_045781_000001_000001_000005_000013_000011_000011_000117_000109_000091_000663_001351_002361_001409_009317_031133_017577_123919,
  1_045785_000001_000003_000003_000009_000003_000005_000115_000173_000459_000937_001581_000781_001069_000573_024025_030721_116837,
  1_045792_000001_000001_000001_000005_000021_000037_000047_000051_000021_000169_000119_003285_002543_014023_029179_013407_130491,
  1_045801_000001_000003_000005_000005_000025_000027_000041_000147_000485_000079_000737_000699_006763_016347_009265_052129_041431,
  1_045802_000001_000001_000001_000003_000005_000033_000115_000187_000311_000717_001897_002215_002639_004167_001429_026359_052703,
  1_045812_000001_000003_000005_000005_000013_000051_000103_000005_000047_000683_000319_002969_007701_011031_009257_016725_080825,
  1_045816_000001_000003_000001_000011_000031_000047_000017_000205_000011_000411_000523_004053_006743_003095_003219_063163_084547,
  1_045829_000001_000001_000007_000015_000009_000055_000109_000225_000273_000595_001697_002059_000021_011319_023277_060613_004539,
  1_045833_000001_000001_000005_000013_000003_000059_000049_000239_000509_000847_000975_003361_005443_001941_029277_056379_038997,
  1_045847_000001_000003_000001_000007_000015_000005_000049_000019_000235_000437_001309_000827_004123_005839_022409_042535_098041,
  1_045851_000001_000001_000005_000015_000009_000033_000057_000153_000165_000215_000177_001271_001861_015489_004183_043701_114169,
  1_045854_000001_000003_000005_000005_000013_000003_000119_000089_000017_000421_001205_000835_004917_006113_028991_026839_114871,
  1_045863_000001_000003_000005_000001_000007_000049_000049_000159_000205_000601_001939_004063_005975_011747_010329_021103_016779,
  1_045870_000001_000001_000005_000015_000013_000033_000089_000021_000113_000639_000891_000989_000829_001435_011475_042711_067049,
  1_045901_000001_000001_000005_000005_000009_000059_000057_000105_000385_000733_001175_000329_006809_007175_027267_009941_014203,
  1_045910_000001_000003_000001_000013_000021_000053_000083_000139_000287_000659_001991_003225_004153_004325_016803_027719_086263,
  1_045920_000001_000003_000005_000013_000027_000021_000111_000105_000029_000573_000405_002781_001737_012057_025263_016903_045389,
  1_045932_000001_000001_000005_000005_000023_000023_000061_000027_000335_000279_000937_002509_004751_002993_028069_030187_003595,
  1_045938_000001_000001_000005_000007_000029_000037_000117_000071_000221_000875_001987_002329_005953_015901_029813_017419_004745,
  1_045940_000001_000003_000003_000013_000021_000051_000077_000085_000053_000573_001129_003415_002283_005221_029991_046091_065843]

def dirRows17_2_2 : List Nat := [
  1_045943_000001_000001_000001_000003_000017_000051_000089_000211_000463_000743_001189_004083_001437_005219_008373_015559_018557,
  1_045949_000001_000001_000005_000003_000029_000027_000001_000207_000285_000739_000505_001587_006565_014195_004995_039453_061023,
  1_045953_000001_000003_000003_000015_000007_000057_000019_000045_000039_000881_001207_002829_003265_002637_007843_062889_053289,
  1_045963_000001_000001_000001_000011_000031_000021_000073_000245_000087_000457_001523_002397_001157_008237_026195_023149_106523,
  1_045971_000001_000003_000005_000013_000003_000055_000003_000179_000107_000085_000639_002711_006359_001599_002325_059573_111941,
  1_045989_000001_000001_000001_000013_000017_000061_000045_000253_000045_000149_001251_000139_007113_006503_027675_037301_021713,
  1_045999_000001_000003_000005_000009_000031_000031_000067_000079_000355_000225_001187_000761_004927_005481_009139_013399_035653,
  1_046001_000001_000001_000005_000003_000007_000003_000095_000119_000161_000529_001443_001099_000609_003919_010935_037779_092993,
  1_046008_000001_000001_000007_000009_000013_000021_000013_000007_000165_000173_000989_002315_002305_013115_006933_056233_112113,
  1_046022_000001_000001_000007_000003_000009_000011_000025_000045_000493_000119_000839_003907_002273_014113_029453_055181_000667,
  1_046026_000001_000003_000005_000015_000025_000033_000015_000023_000245_000517_001883_002865_001483_007043_032615_012261_049297,
  1_046034_000001_000003_000007_000009_000031_000035_000089_000103_000245_000441_001709_001321_003743_003767_023885_043587_018017,
  1_046040_000001_000003_000007_000005_000023_000043_000103_000007_000047_000187_001257_003517_000591_016263_012047_016699_081633,
  1_046043_000001_000001_000005_000015_000005_000005_000079_000011_000327_000719_000037_002913_006107_003463_025901_006125_100647,
  1_046045_000001_000001_000001_000011_000013_000029_000083_000251_000041_000125_001137_002627_004643_000029_024631_051435_098643,
  1_046061_000001_000001_000007_000003_000027_000003_000069_000245_000365_000599_001575_002969_003441_012327_018951_056167_013861,
  1_046062_000001_000003_000003_000011_000005_000047_000103_000233_000351_000821_000867_003199_006133_004627_022663_014775_083205,
  1_046076_000001_000003_000001_000013_000009_000035_000027_000251_000281_000727_000873_003713_005247_008407_017739_057207_126201,
  1_046084_000001_000001_000007_000011_000011_000035_000053_000115_000093_000663_000625_000565_003137_007869_018845_049155_083395,
  1_046094_000001_000003_000003_000005_000021_000013_000099_000151_000319_000009_001363_001489_002545_001963_001271_024815_043355,
  1_046102_000001_000003_000005_000009_000015_000051_000109_000085_000067_000131_001947_000181_007331_015163_002255_033449_078107,
  1_046118_000001_000001_000007_000009_000027_000061_000001_000163_000309_000739_000453_001837_002093_016021_008485_019755_061335,
  1_046149_000001_000003_000005_000007_000003_000013_000011_000195_000091_000143_000203_002785_007319_007153_019265_011597_063365,
  1_046154_000001_000003_000001_000009_000029_000001_000123_000247_000253_000757_000191_001699_006625_001785_029199_029409_032577,
  1_046167_000001_000003_000005_000011_000023_000021_000031_000035_000383_000587_000065_001695_004045_012305_012437_005919_051465,
  1_046173_000001_000001_000005_000009_000011_000013_000123_000171_000499_000877_001785_000561_002547_001797_027679_056305_093223,
  1_046177_000001_000003_000001_000003_000025_000041_000063_000243_000219_000533_000753_001903_003257_011901_004777_028629_111141,
  1_046192_000001_000003_000003_000005_000031_000047_000001_000253_000283_000995_001787_001767_006599_011913_021515_039259_117727,
  1_046197_000001_000001_000007_000007_000031_000035_000039_000255_000463_000763_000881_002583_000347_014343_022761_045821_119155,
  1_046201_000001_000003_000005_000009_000005_000037_000043_000055_000423_000525_000157_003593_002831_011539_015675_011695_100609,
  1_046214_000001_000003_000003_000005_000011_000009_000027_000057_000409_000201_001029_002461_005823_002593_032031_004203_055327,
  1_046217_000001_000001_000007_000015_000015_000025_000069_000083_000309_000687_001607_000819_007381_003697_005289_033153_048157,
  1_046223_000001_000001_000005_000005_000031_000057_000041_000195_000201_000059_002045_002213_006695_003839_017331_004981_026803,
  1_046226_000001_000001_000001_000011_000007_000053_000109_000169_000387_000181_000391_000019_004159_000299_029059_027781_110193,
  1_046228_000001_000003_000007_000015_000005_000031_000095_000155_000047_000601_001463_001799_008027_003003_018067_024589_108171,
  1_046237_000001_000003_000003_000007_000011_000061_000021_000121_000117_000149_001037_003829_003581_015223_017051_034539_037263,
  1_046241_000001_000003_000003_000003_000015_000015_000115_000091_000443_000309_001073_002053_000789_007415_026253_062657_049729,
  1_046251_000001_000003_000005_000005_000031_000019_000023_000221_000019_000105_001105_002025_004209_007531_030191_040777_046069,
  1_046259_000001_000001_000001_000007_000029_000045_000029_000215_000033_000021_001147_001725_003711_002759_012731_057031_042361,
  1_046262_000001_000001_000005_000015_000013_000059_000111_000169_000317_000841_001387_003513_003137_008265_031789_026963_126219,
  1_046266_000001_000001_000003_000001_000023_000021_000013_000113_000071_000177_000345_003149_001461_012945_003971_059759_061839,
  1_046294_000001_000003_000005_000013_000009_000019_000103_000017_000095_000617_001477_000263_004259_012899_024351_047431_011583,
  1_046300_000001_000003_000005_000011_000013_000011_000007_000061_000013_000063_001687_000631_000381_005899_010225_019657_037087,
  1_046303_000001_000003_000005_000003_000007_000053_000011_000193_000103_000427_001097_000299_002905_005019_031803_028931_047495,
  1_046309_000001_000003_000003_000011_000021_000031_000125_000249_000233_000941_000975_002287_007837_006481_011021_052829_063023,
  1_046321_000001_000001_000007_000015_000013_000017_000033_000085_000503_000011_000689_000637_004063_012223_001835_017161_035213,
  1_046331_000001_000003_000005_000013_000025_000037_000021_000135_000377_000623_000895_002547_002757_009055_017337_065457_024737,
  1_046339_000001_000001_000001_000015_000025_000011_000017_000095_000065_000271_001791_000841_001441_011177_010087_063963_071481,
  1_046342_000001_000003_000005_000011_000031_000001_000037_000107_000109_000459_001185_002155_000271_011775_023243_053517_103669,
  1_046354_000001_000003_000001_000009_000001_000049_000023_000141_000169_000475_000469_002271_001379_013139_001765_063625_014143,
  1_046370_000001_000001_000001_000009_000013_000007_000023_000219_000381_000105_000743_001745_002999_000661_007245_039653_099913,
  1_046372_000001_000003_000001_000011_000007_000035_000009_000215_000041_000537_001569_001803_003613_000667_015089_039485_085457,
  1_046379_000001_000001_000001_000015_000009_000049_000075_000235_000119_000097_000273_000209_002707_002071_021943_060249_057737,
  1_046382_000001_000001_000005_000015_000031_000019_000033_000049_000279_000461_000143_003001_003539_001015_027597_035389_036483,
  1_046393_000001_000003_000007_000001_000023_000051_000123_000247_000485_000343_001365_000593_006465_012305_029375_030641_043165,
  1_046402_000001_000001_000007_000013_000015_000011_000125_000051_000235_000717_001427_003203_001711_012607_008805_005773_027467,
  1_046407_000001_000003_000005_000005_000005_000013_000051_000181_000133_000977_000469_002513_006819_012985_008917_047317_047557,
  1_046416_000001_000001_000005_000007_000003_000007_000071_000017_000345_000921_001621_002801_005825_000827_017711_033701_113503,
  1_046425_000001_000003_000001_000001_000017_000007_000099_000083_000073_000349_000567_000713_005639_004969_011549_035317_028995,
  1_046437_000001_000003_000003_000009_000011_000053_000123_000227_000391_000775_001013_003971_006183_014453_006403_057063_007123,
  1_046444_000001_000001_000001_000015_000027_000013_000051_000147_000151_000535_002017_003019_006791_003931_012529_030855_033243,
  1_046447_000001_000003_000001_000001_000027_000043_000103_000085_000135_000207_000621_000251_003723_010893_029533_031023_011043,
  1_046449_000001_000003_000007_000005_000007_000039_000055_000133_000141_000063_000237_003299_000861_015123_011859_013271_032893,
  1_046456_000001_000003_000007_000009_000023_000017_000073_000197_000113_000725_000137_002835_002877_006913_022949_056071_067597,
  1_046462_000001_000003_000007_000007_000015_000003_000015_000253_000051_000443_000015_002549_007833_004713_029211_022339_006009,
  1_046472_000001_000003_000005_000015_000019_000055_000035_000059_000281_000995_001113_000605_002345_010009_014629_011757_053241,
  1_046475_000001_000001_000001_000011_000003_000031_000011_000193_000437_001003_000873_000909_006513_002045_010495_017387_025461,
  1_046486_000001_000001_000003_000005_000021_000061_000047_000177_000379_000773_000951_000419_004455_010171_017403_019045_087327,
  1_046490_000001_000003_000003_000011_000031_000041_000069_000229_000207_000299_001743_001417_004785_001327_026967_043077_124319,
  1_046495_000001_000003_000007_000015_000019_000037_000065_000219_000033_000691_000205_001577_004775_008427_028315_053559_100789,
  1_046501_000001_000003_000005_000011_000005_000039_000055_000147_000139_000871_001563_003661_004791_000423_030007_001589_020255,
  1_046514_000001_000001_000003_000015_000005_000061_000089_000083_000261_000519_001367_002019_003799_008237_009011_028995_001587,
  1_046526_000001_000001_000007_000015_000017_000055_000049_000041_000353_000507_001565_003365_007947_010391_001323_061591_126305,
  1_046528_000001_000003_000003_000005_000013_000019_000049_000195_000355_000915_001867_003513_001239_004809_016925_022947_092641,
  1_046538_000001_000001_000007_000003_000031_000051_000045_000241_000055_000195_001233_003675_008077_004981_017679_053025_077927,
  1_046551_000001_000003_000005_000011_000023_000005_000093_000049_000277_000979_001093_003031_006131_008085_019121_045305_006705,
  1_046552_000001_000001_000007_000013_000029_000025_000083_000105_000469_000729_001495_002607_002681_013959_000101_001913_002671,
  1_046564_000001_000001_000001_000015_000007_000019_000063_000105_000253_000807_001889_002433_001591_016267_011997_018939_113313,
  1_046579_000001_000001_000005_000003_000013_000023_000029_000227_000337_000115_000783_000475_006949_009485_001797_018713_123981,
  1_046586_000001_000003_000003_000009_000021_000043_000115_000225_000147_000753_000919_001157_002901_014813_030035_052553_030225,
  1_046602_000001_000001_000003_000015_000023_000019_000065_000083_000457_000965_000579_002133_000291_002033_007533_052995_092243,
  1_046615_000001_000001_000001_000005_000011_000003_000023_000245_000255_000373_001119_003695_006449_013497_000817_032215_103599,
  1_046616_000001_000003_000001_000005_000005_000019_000057_000053_000145_000441_001253_000929_001299_011491_029457_011245_055717,
  1_046621_000001_000001_000007_000013_000009_000013_000073_000085_000127_000029_000629_000409_002487_013079_003767_027985_110139,
  1_046635_000001_000001_000005_000011_000029_000039_000027_000009_000487_000623_000757_002879_000669_012521_023471_047933_041721,
  1_046643_000001_000001_000007_000015_000021_000009_000059_000039_000325_000787_001347_003039_007333_009793_019337_041285_048339,
  1_046645_000001_000003_000003_000011_000011_000021_000127_000045_000173_000981_000483_003707_003651_010545_016865_062105_114847,
  1_046649_000001_000003_000005_000011_000011_000049_000089_000179_000393_000455_001775_001903_008173_012589_017281_057687_056153,
  1_046667_000001_000003_000001_000003_000007_000007_000059_000223_000255_000559_000375_002427_006921_003709_024767_016213_060373,
  1_046670_000001_000001_000007_000015_000003_000031_000037_000129_000307_001023_001807_000519_006779_008997_015383_004391_061161,
  1_046672_000001_000001_000001_000001_000009_000025_000053_000027_000263_000459_001015_000417_004195_010931_020507_019299_082371,
  1_046678_000001_000001_000003_000001_000007_000007_000049_000221_000047_000007_001747_001533_003089_014369_032609_064157_078139,
  1_046681_000001_000003_000007_000005_000005_000013_000101_000231_000227_000019_001359_003017_001405_003715_003541_000933_001117,
  1_046684_000001_000001_000007_000015_000005_000063_000059_000253_000269_000781_001639_002247_001041_000667_007055_021221_084447,
  1_046687_000001_000001_000007_000003_000009_000013_000115_000247_000215_000173_000457_001125_005613_013171_017847_026323_068461,
  1_046705_000001_000003_000005_000009_000015_000019_000095_000213_000425_000567_001625_001659_006961_010569_020985_017255_089919,
  1_046708_000001_000003_000005_000005_000003_000011_000107_000123_000265_000743_000499_001885_006079_007791_024953_030925_112517,
  1_046721_000001_000001_000005_000015_000029_000027_000103_000195_000119_000873_001751_002091_006623_007583_020413_052367_016831,
  1_046724_000001_000001_000007_000007_000021_000015_000111_000197_000089_000107_001317_002107_001951_000189_031663_063007_021405,
  1_046739_000001_000003_000001_000013_000027_000015_000093_000251_000209_000093_001419_003785_001899_003143_003205_016309_121455]

def dirRows17_2_3 : List Nat := [
  1_046757_000001_000001_000007_000007_000017_000043_000023_000251_000425_000591_001101_001317_006369_014209_010257_033813_059557,
  1_046762_000001_000001_000007_000003_000005_000041_000065_000059_000327_000369_001867_001045_004953_003155_025679_008545_022753,
  1_046764_000001_000001_000005_000003_000005_000025_000117_000097_000369_000721_001459_002501_004899_005299_003859_002509_127723,
  1_046776_000001_000003_000003_000001_000027_000013_000065_000185_000255_000543_002013_002027_001131_004067_001327_044639_053275,
  1_046784_000001_000001_000007_000003_000011_000015_000053_000067_000265_000477_000971_003201_000051_010599_023691_010493_130347,
  1_046790_000001_000003_000007_000007_000019_000035_000047_000061_000375_000547_001867_001147_007775_012757_015101_063243_089817,
  1_046796_000001_000001_000005_000003_000005_000021_000057_000059_000145_000901_000835_001093_006487_012727_020585_006309_067803,
  1_046799_000001_000001_000001_000011_000013_000031_000075_000171_000189_000741_001923_003503_004887_015423_002499_039125_004125,
  1_046802_000001_000003_000007_000001_000029_000031_000103_000207_000383_000631_001017_001693_006251_009429_017491_060959_068131,
  1_046813_000001_000001_000001_000001_000019_000045_000127_000105_000451_000287_000657_003521_002021_015793_008993_034837_065441,
  1_046814_000001_000001_000007_000009_000017_000015_000013_000189_000255_000753_001779_003047_001179_013201_028249_005909_035775,
  1_046824_000001_000003_000003_000003_000005_000011_000125_000207_000375_000375_000135_002939_001141_012211_000727_016137_052253,
  1_046832_000001_000003_000007_000009_000029_000003_000083_000221_000281_000299_000667_003435_000589_008039_007991_024289_013079,
  1_046841_000001_000003_000005_000013_000009_000011_000011_000099_000337_000155_000233_002497_003385_015045_005783_040915_019201,
  1_046856_000001_000001_000007_000005_000005_000023_000025_000223_000341_000149_000505_000893_004933_014899_029899_000207_125359,
  1_046862_000001_000003_000003_000015_000003_000005_000043_000165_000021_000993_001091_003849_006005_001905_007199_013495_076915,
  1_046864_000001_000001_000001_000015_000001_000019_000055_000217_000179_000431_000935_002219_008135_015071_017437_043271_115963,
  1_046869_000001_000001_000007_000015_000007_000061_000045_000157_000441_000107_001955_002877_005285_012157_021783_060999_102949,
  1_046874_000001_000001_000001_000003_000009_000029_000041_000075_000081_000073_001859_002923_003009_010847_030257_044527_021933,
  1_046895_000001_000001_000003_000003_000029_000029_000103_000003_000401_000197_000237_003727_007919_013669_026869_064987_001581,
  1_046900_000001_000001_000005_000013_000013_000047_000099_000209_000045_000745_001239_000663_005535_003777_010479_015327_001441,
  1_046903_000001_000003_000001_000009_000001_000049_000031_000231_000015_001001_000773_002113_001957_015271_025355_007461_033089,
  1_046927_000001_000001_000001_000005_000013_000031_000123_000123_000439_000373_001817_002555_007905_003151_002311_062083_045535,
  1_046946_000001_000003_000001_000003_000031_000037_000083_000117_000177_000483_001285_001725_000821_002115_012893_054301_036491,
  1_046948_000001_000003_000003_000003_000009_000013_000087_000007_000467_000287_001173_002739_003293_000883_009123_030799_110221,
  1_046955_000001_000003_000001_000015_000003_000005_000119_000235_000393_000789_000067_001193_001613_008607_017371_016723_103747,
  1_046965_000001_000003_000001_000013_000013_000047_000061_000051_000447_000001_001221_001619_003785_005851_010557_051181_006535,
  1_046972_000001_000003_000005_000011_000001_000001_000085_000119_000195_000177_000805_001161_004851_015765_024405_041757_110081,
  1_046976_000001_000001_000007_000001_000017_000021_000089_000013_000059_000169_001847_002401_006243_002841_006153_016039_047407,
  1_046985_000001_000001_000003_000015_000021_000053_000103_000187_000143_000897_000065_003677_000213_004027_022365_053703_082951,
  1_046999_000001_000003_000005_000005_000025_000005_000039_000049_000055_000071_000825_002123_002345_005683_018027_029897_053023,
  1_047003_000001_000001_000003_000005_000013_000055_000027_000077_000327_000429_001219_002103_007095_013461_031027_015383_098485,
  1_047006_000001_000003_000001_000003_000009_000041_000033_000241_000487_000229_001743_000951_002319_015595_003213_005959_090721,
  1_047016_000001_000001_000007_000001_000029_000045_000045_000163_000123_000227_000305_001577_005465_005639_014507_065155_071425,
  1_047030_000001_000001_000005_000001_000003_000005_000033_000015_000203_000141_000465_003509_006653_014193_007073_022525_022951,
  1_047034_000001_000001_000007_000003_000027_000039_000003_000027_000075_000821_001329_003655_004715_007659_031957_060219_079123,
  1_047053_000001_000003_000005_000013_000029_000045_000111_000019_000207_000387_000087_003731_007427_013351_009497_034285_025623,
  1_047056_000001_000001_000003_000011_000019_000039_000079_000219_000097_000125_000947_001397_003645_001021_009403_038695_054985,
  1_047059_000001_000003_000003_000007_000003_000003_000045_000093_000065_000289_001843_001599_000897_016159_023485_024699_043123,
  1_047072_000001_000003_000005_000003_000015_000001_000081_000219_000299_000429_001115_001763_006381_000869_007817_000143_023583,
  1_047077_000001_000001_000003_000005_000001_000035_000095_000147_000425_001011_001039_002875_003089_003685_009995_013279_060923,
  1_047099_000001_000001_000005_000007_000005_000059_000105_000241_000151_000307_000735_001541_003115_012331_019535_056965_127015,
  1_047105_000001_000003_000005_000007_000005_000033_000083_000179_000065_000397_000787_003425_001305_010713_006973_009007_112081,
  1_047108_000001_000003_000007_000013_000029_000011_000037_000031_000271_000501_000897_001383_005333_013627_022091_038421_094575,
  1_047112_000001_000003_000001_000001_000009_000061_000087_000115_000013_000079_000391_002385_007157_003369_026035_000883_034705,
  1_047115_000001_000001_000003_000009_000021_000029_000015_000165_000053_000719_001509_001295_004437_008229_017961_055297_062635,
  1_047117_000001_000001_000007_000005_000027_000021_000023_000141_000341_000423_000009_002693_005555_005797_013179_001107_033489,
  1_047120_000001_000003_000001_000013_000027_000033_000101_000029_000379_000119_001259_000861_006843_000069_003253_061977_080061,
  1_047129_000001_000001_000003_000011_000001_000037_000035_000043_000105_000655_000221_000873_000091_009095_008999_044033_024807,
  1_047135_000001_000003_000003_000007_000029_000015_000023_000227_000399_000305_002007_000747_002717_014767_006515_040617_007873,
  1_047151_000001_000001_000005_000015_000021_000043_000039_000007_000261_000421_000505_001433_001155_005621_002337_054027_054039,
  1_047154_000001_000001_000001_000009_000015_000039_000049_000185_000503_000895_001321_000375_004245_004929_009637_050561_065733,
  1_047156_000001_000001_000005_000015_000007_000029_000027_000155_000423_000631_001295_000973_004227_002637_008479_029527_070505,
  1_047166_000001_000003_000001_000003_000031_000033_000013_000067_000195_000335_001577_003715_000559_007251_007215_046443_125359,
  1_047171_000001_000003_000001_000009_000017_000037_000015_000119_000079_000851_000911_003549_000099_009221_029897_063489_034937,
  1_047195_000001_000003_000005_000009_000031_000011_000125_000001_000265_000467_000835_002997_002401_009615_019397_050947_029963,
  1_047204_000001_000001_000005_000003_000011_000021_000063_000015_000471_000763_001963_002815_004419_011457_007151_027009_124847,
  1_047213_000001_000001_000007_000003_000019_000009_000097_000059_000375_000109_000519_000305_002787_003001_014199_027415_035403,
  1_047222_000001_000001_000001_000003_000013_000047_000003_000093_000307_000979_000419_002817_003741_000305_001813_034549_116959,
  1_047228_000001_000003_000005_000013_000013_000019_000035_000231_000493_000973_000895_001583_001843_009057_027705_032333_130347,
  1_047241_000001_000001_000001_000013_000031_000035_000081_000011_000363_000229_001865_002849_007805_000877_003965_045337_033239,
  1_047242_000001_000003_000005_000001_000015_000003_000125_000093_000191_000405_001359_000929_003085_007907_007777_007815_103717,
  1_047247_000001_000001_000003_000007_000015_000033_000061_000235_000283_000141_000817_001611_000665_013113_004197_045831_044505,
  1_047249_000001_000001_000005_000005_000025_000003_000063_000159_000223_000531_001147_002323_002715_010319_032203_023943_095407,
  1_047250_000001_000003_000003_000003_000003_000033_000037_000099_000317_000811_000515_000339_006527_011149_013071_007177_001549,
  1_047261_000001_000003_000001_000011_000031_000053_000009_000017_000297_000259_001235_000053_007065_001721_008191_021663_013393,
  1_047266_000001_000003_000007_000007_000029_000041_000127_000179_000113_000191_000783_000861_006509_005199_003369_018327_030647,
  1_047268_000001_000003_000001_000007_000023_000041_000049_000155_000135_000513_001127_001443_008081_002553_010389_035459_122513,
  1_047278_000001_000001_000007_000003_000025_000003_000117_000125_000283_000165_001409_001587_007915_012899_012239_048161_007385,
  1_047286_000001_000003_000007_000003_000023_000019_000029_000047_000007_000723_000455_004013_002739_012303_029883_051485_001571,
  1_047312_000001_000001_000001_000011_000001_000031_000111_000199_000207_000209_001163_002865_005335_002647_009125_006737_099881,
  1_047315_000001_000003_000001_000011_000031_000019_000059_000153_000065_000133_001399_002709_000905_003257_013603_046299_015139,
  1_047321_000001_000003_000001_000001_000023_000019_000123_000115_000059_000667_000333_002461_001843_016049_012353_017297_107779,
  1_047322_000001_000001_000005_000001_000005_000029_000091_000241_000097_000557_001701_002441_002995_013103_009261_055833_000843,
  1_047324_000001_000001_000001_000005_000015_000019_000023_000189_000069_000091_000427_003149_005199_013073_032273_041503_098749,
  1_047331_000001_000003_000005_000011_000019_000003_000071_000125_000307_000241_000861_000681_005657_005189_007555_002037_072921,
  1_047338_000001_000001_000005_000005_000029_000061_000093_000061_000421_000685_000883_001559_005875_010561_011761_018879_031577,
  1_047366_000001_000003_000007_000015_000009_000029_000041_000241_000365_000941_001087_003743_006781_009467_001409_020605_002361,
  1_047372_000001_000001_000005_000013_000025_000029_000007_000021_000041_000621_001751_003731_002667_008613_020999_003851_039677,
  1_047375_000001_000001_000007_000005_000017_000023_000025_000043_000401_000749_000975_000091_005277_002711_019847_041419_011851,
  1_047378_000001_000001_000007_000009_000013_000037_000113_000089_000435_000749_001553_001853_007709_005449_025055_045207_002269,
  1_047387_000001_000003_000001_000011_000003_000059_000079_000013_000035_000901_000165_000907_007579_012739_024679_054163_061059,
  1_047389_000001_000001_000005_000007_000009_000047_000101_000061_000025_000461_001737_002825_004439_005363_028433_061979_120401,
  1_047390_000001_000003_000003_000003_000001_000055_000103_000001_000449_000473_000375_002609_004933_003411_019663_006067_061129,
  1_047396_000001_000001_000003_000009_000027_000029_000053_000151_000391_000507_000425_003469_006605_005783_031747_037677_116037,
  1_047400_000001_000001_000001_000005_000005_000043_000061_000067_000319_000553_001163_003095_004447_007505_015617_026167_011145,
  1_047405_000001_000001_000005_000007_000003_000003_000009_000161_000155_000869_000337_003693_006847_008449_015077_054769_123335,
  1_047408_000001_000003_000003_000007_000011_000019_000017_000071_000105_000649_000323_003033_001695_015973_006361_003163_017669,
  1_047411_000001_000003_000007_000013_000013_000009_000003_000251_000149_000513_000637_002211_006397_001741_008547_003165_038241,
  1_047431_000001_000001_000005_000005_000001_000057_000073_000035_000287_000347_000221_003261_007693_005443_006175_018181_023733,
  1_047443_000001_000003_000007_000005_000005_000019_000001_000167_000005_000825_000815_001369_007657_006169_009583_034761_081003,
  1_047459_000001_000003_000003_000005_000015_000017_000023_000157_000475_000297_001495_000811_008135_011453_009683_055505_084361,
  1_047466_000001_000001_000001_000011_000001_000063_000059_000189_000205_001023_001065_001095_002293_014629_029399_002925_028327,
  1_047479_000001_000003_000001_000003_000031_000033_000085_000183_000383_000731_001223_003353_003703_005655_031265_012249_022127,
  1_047480_000001_000003_000005_000007_000007_000029_000061_000003_000375_000095_001815_004065_006287_003797_032397_050581_123371,
  1_047495_000001_000003_000001_000009_000013_000037_000057_000139_000043_000561_000425_003603_001167_010281_031825_032673_106169,
  1_047504_000001_000003_000005_000003_000015_000041_000029_000223_000079_000851_001741_002241_005659_009773_018369_037239_014831,
  1_047519_000001_000003_000001_000001_000007_000011_000083_000063_000051_000521_001911_000475_005207_003219_010257_040461_009087,
  1_047520_000001_000003_000005_000007_000023_000017_000097_000195_000005_000451_001971_001881_000921_008729_003443_064529_067747,
  1_047530_000001_000001_000003_000009_000021_000063_000045_000181_000429_000605_000169_003493_002381_002887_019515_053151_060147]

def dirRows17_2_4 : List Nat := [
  1_047537_000001_000003_000003_000007_000015_000011_000117_000161_000333_000139_000587_002331_003175_012093_012649_052381_107117,
  1_047555_000001_000001_000005_000015_000023_000057_000019_000057_000507_000461_000799_000611_001589_010909_007649_017817_024677,
  1_047558_000001_000001_000003_000015_000001_000061_000009_000201_000401_000387_000527_002855_002339_003813_011825_014273_073745,
  1_047567_000001_000003_000001_000005_000001_000037_000027_000105_000475_000335_001169_003233_003225_012861_010133_036673_055025,
  1_047569_000001_000001_000001_000009_000027_000053_000055_000197_000229_000005_000093_001157_007929_009745_005295_015359_075567,
  1_047572_000001_000001_000007_000005_000011_000003_000109_000081_000457_000159_001899_000557_001067_000295_002661_001145_008745,
  1_047582_000001_000001_000001_000015_000031_000029_000077_000171_000411_000425_001041_002791_002567_005357_021871_027689_103485,
  1_047591_000001_000003_000005_000011_000019_000047_000023_000097_000405_000667_002045_002951_002063_007775_020629_034283_026925,
  1_047595_000001_000003_000005_000007_000005_000051_000125_000067_000165_000145_000733_001649_005787_004333_024355_033397_101001,
  1_047598_000001_000003_000007_000011_000013_000007_000117_000147_000449_000201_000953_000553_001839_006903_010417_042751_036823,
  1_047609_000001_000001_000003_000005_000003_000021_000109_000035_000095_000953_000211_002849_005681_016287_016553_030345_069729,
  1_047612_000001_000003_000007_000005_000025_000037_000021_000143_000317_000621_001417_000283_003801_015375_003799_013345_059727,
  1_047616_000001_000003_000003_000009_000003_000037_000113_000127_000123_000979_001225_002585_002055_002571_016727_038863_074347,
  1_047625_000001_000003_000003_000003_000023_000013_000049_000111_000277_000143_001171_000605_000091_013693_001971_018209_114203,
  1_047640_000001_000001_000001_000009_000027_000033_000073_000009_000093_000343_000055_003045_002029_003665_028483_006601_072085,
  1_047649_000001_000001_000001_000015_000017_000055_000087_000231_000103_001005_001451_003617_007477_002045_010683_039053_001289,
  1_047655_000001_000003_000007_000007_000025_000055_000039_000089_000489_000609_001969_000159_007485_010713_028371_014935_095347,
  1_047661_000001_000003_000003_000013_000025_000009_000083_000167_000025_000135_002017_003313_001493_007799_022479_049471_020149,
  1_047688_000001_000001_000001_000015_000025_000013_000063_000117_000097_000449_001331_000229_006027_001023_026705_015283_060385,
  1_047711_000001_000001_000007_000005_000005_000037_000003_000079_000337_000861_001549_000915_007303_001503_019245_060721_045313,
  1_047717_000001_000003_000007_000015_000019_000001_000011_000039_000505_000757_001627_002137_003209_007651_031291_045913_026851,
  1_047721_000001_000003_000001_000005_000025_000021_000085_000233_000171_000269_000367_001651_003961_002487_001977_007027_002725,
  1_047724_000001_000001_000005_000015_000013_000023_000081_000145_000201_000323_000425_002785_001149_012617_011451_023205_117691,
  1_047727_000001_000001_000007_000011_000029_000037_000069_000141_000015_000773_001299_002147_008129_012227_027811_058701_103637,
  1_047730_000001_000003_000005_000013_000003_000033_000029_000227_000261_000221_000823_001399_005107_002423_023809_042175_028207,
  1_047739_000001_000003_000001_000015_000021_000001_000121_000255_000259_000441_000045_001899_002489_004155_018317_052695_000607,
  1_047745_000001_000003_000005_000009_000025_000043_000115_000111_000329_000997_000753_001513_006949_003197_028275_048855_025089,
  1_047752_000001_000003_000003_000003_000025_000009_000021_000213_000111_000173_000913_001465_004437_009725_001455_053517_081843,
  1_047758_000001_000003_000005_000005_000005_000025_000003_000159_000019_000203_000181_003447_006395_002145_011289_016797_059567,
  1_047765_000001_000003_000003_000001_000029_000025_000043_000115_000257_000833_000379_000941_004389_005795_012593_002471_127149,
  1_047770_000001_000003_000001_000009_000003_000015_000081_000141_000155_000515_001677_002569_001105_015653_024143_003439_017317,
  1_047782_000001_000003_000001_000013_000027_000013_000103_000087_000027_000971_000671_000629_004943_013897_004003_021507_040193,
  1_047786_000001_000003_000005_000009_000001_000049_000011_000015_000511_000837_001953_001585_001867_009095_000543_016993_115187,
  1_047791_000001_000001_000005_000011_000021_000049_000037_000061_000009_000629_001025_001635_004047_015491_028481_043235_053165,
  1_047793_000001_000001_000005_000007_000015_000057_000121_000119_000405_000029_000655_003085_007131_014761_002273_047113_008603,
  1_047796_000001_000001_000003_000003_000011_000045_000051_000107_000367_000235_000675_003777_006081_016319_019499_036893_025579,
  1_047814_000001_000001_000007_000011_000001_000013_000043_000159_000415_000423_001223_002201_001089_010189_012457_026691_003603,
  1_047823_000001_000001_000003_000003_000003_000037_000109_000067_000487_000785_000637_003931_000929_014153_025283_000483_014371,
  1_047826_000001_000001_000007_000009_000031_000059_000009_000245_000479_000113_001419_003265_008131_011123_032519_012141_082059,
  1_047837_000001_000001_000001_000007_000025_000025_000031_000013_000081_000217_000997_001161_001049_005487_008487_057807_126115,
  1_047854_000001_000001_000003_000015_000001_000023_000063_000039_000503_000933_001915_000687_000547_000779_007689_038607_125229,
  1_047856_000001_000001_000003_000003_000031_000049_000051_000087_000099_000327_000783_003487_007307_002759_022781_056343_126805,
  1_047871_000001_000003_000003_000011_000027_000043_000099_000197_000275_000019_000775_000329_003815_014277_003363_026375_075427,
  1_047879_000001_000001_000005_000015_000015_000019_000065_000109_000103_000411_001591_002569_001981_004773_007861_006303_127421,
  1_047880_000001_000003_000001_000013_000001_000053_000107_000151_000317_000201_001053_002701_005039_002179_010085_031727_085579,
  1_047885_000001_000003_000001_000009_000005_000055_000071_000143_000187_000029_001363_002403_002675_002187_012123_032825_056461,
  1_047886_000001_000001_000007_000011_000005_000057_000091_000095_000085_000597_000925_000011_001915_009159_009997_029565_111655,
  1_047903_000001_000001_000005_000009_000025_000057_000079_000189_000205_000687_000471_000601_005343_009031_007853_006079_040567,
  1_047907_000001_000001_000003_000001_000031_000053_000067_000191_000511_000369_001273_003859_004253_014469_003427_017691_022599,
  1_047913_000001_000001_000003_000009_000017_000053_000101_000219_000041_000663_000635_003889_002197_008125_008313_014957_111445,
  1_047916_000001_000001_000005_000005_000007_000049_000113_000009_000399_000257_000617_000063_002773_004411_001193_054449_089003,
  1_047928_000001_000001_000007_000011_000013_000029_000077_000073_000161_000419_000985_000303_002237_015217_026621_020441_113955,
  1_047936_000001_000003_000003_000009_000017_000039_000037_000139_000289_000421_001021_002635_002805_005815_009101_048077_114009,
  1_047945_000001_000001_000001_000015_000025_000043_000071_000035_000103_000827_001301_003567_003425_003689_014453_010733_081257,
  1_047948_000001_000003_000005_000005_000015_000031_000041_000161_000481_000231_001135_003045_000439_011785_014863_039729_059539,
  1_047956_000001_000001_000005_000007_000027_000009_000081_000141_000395_000105_000041_003719_003105_013685_007451_031381_082907,
  1_047965_000001_000003_000001_000013_000015_000025_000127_000231_000433_000837_001923_001301_002479_003243_021605_055789_011311,
  1_047970_000001_000003_000005_000007_000017_000005_000027_000111_000217_000445_001245_001029_007663_010291_016483_037503_110205,
  1_047972_000001_000001_000001_000007_000031_000021_000051_000235_000487_000457_001687_002947_005067_013779_007671_007257_119141,
  1_047981_000001_000001_000005_000013_000025_000031_000059_000183_000033_000887_000469_000813_007939_011775_005795_026227_057703,
  1_047987_000001_000003_000003_000015_000017_000007_000019_000087_000365_000177_001157_001023_003055_015439_027187_032593_112507,
  1_048010_000001_000001_000001_000009_000019_000049_000103_000239_000207_000409_001613_002793_005477_011221_021611_019963_099333,
  1_048012_000001_000003_000003_000011_000017_000001_000103_000077_000093_000197_001883_004053_004613_011571_001841_023189_004235,
  1_048023_000001_000003_000005_000009_000009_000049_000029_000231_000167_000593_001909_002457_000323_010549_006551_045597_096591,
  1_048033_000001_000001_000007_000011_000015_000039_000033_000061_000013_000879_001589_002169_000125_002427_013029_024919_014147,
  1_048051_000001_000003_000005_000005_000025_000053_000049_000255_000263_000917_001997_000171_002945_014243_012983_021821_119547,
  1_048071_000001_000001_000001_000015_000005_000025_000113_000235_000311_000377_001059_001365_003457_008699_018617_025119_110659,
  1_048075_000001_000001_000005_000001_000009_000061_000001_000137_000301_000085_001527_003831_000923_013753_020909_014007_022939,
  1_048077_000001_000001_000007_000009_000023_000017_000031_000107_000055_000293_000425_003513_003503_010075_006299_040007_054355,
  1_048080_000001_000003_000005_000005_000027_000039_000095_000187_000239_000949_000531_003541_000099_006339_032295_010377_111287,
  1_048099_000001_000001_000005_000015_000019_000039_000023_000089_000185_000047_000087_001721_002471_013221_013201_000031_012897,
  1_048106_000001_000003_000001_000009_000007_000007_000109_000241_000039_000687_000175_000139_000583_001629_019775_006371_121879,
  1_048114_000001_000001_000001_000013_000013_000009_000073_000153_000367_000425_000217_003981_005203_001111_012333_059799_105259,
  1_048120_000001_000001_000003_000005_000007_000033_000027_000123_000335_000727_001619_003999_007799_002807_002251_045835_113193,
  1_048128_000001_000003_000001_000007_000025_000003_000049_000163_000447_000555_000647_001461_005881_015755_032233_048915_096203,
  1_048145_000001_000003_000007_000007_000021_000011_000061_000101_000323_000165_001489_002933_003363_008471_004311_065279_123813,
  1_048152_000001_000003_000001_000001_000015_000001_000101_000225_000473_000479_001237_000113_007591_002883_003891_053703_014607,
  1_048155_000001_000003_000005_000003_000017_000051_000023_000031_000487_000957_001623_002329_002801_006213_007523_014131_023893,
  1_048182_000001_000001_000005_000007_000009_000039_000093_000105_000013_000481_000053_003785_005621_011889_000993_023611_073651,
  1_048188_000001_000003_000007_000015_000021_000057_000097_000069_000339_000289_001805_002661_001165_006079_001127_051285_054453,
  1_048203_000001_000001_000003_000003_000003_000003_000001_000179_000123_001011_001363_000231_006983_009499_000091_052573_032565,
  1_048217_000001_000003_000003_000015_000005_000037_000097_000007_000189_000547_001965_003821_004907_008181_012857_007907_019361,
  1_048218_000001_000001_000005_000003_000029_000033_000045_000099_000359_000337_001377_000577_003117_009545_030093_026147_128509,
  1_048236_000001_000003_000005_000011_000007_000049_000099_000249_000037_000755_000383_002845_004153_000695_011099_033653_105155,
  1_048241_000001_000003_000001_000001_000019_000003_000003_000177_000097_000323_001367_000213_004391_011223_026497_012289_039047,
  1_048244_000001_000001_000003_000007_000003_000033_000073_000199_000339_000479_001797_003905_002849_005667_018015_036653_083491,
  1_048264_000001_000001_000005_000003_000027_000059_000027_000241_000049_000161_000451_003993_002489_010681_011895_060405_047021,
  1_048269_000001_000001_000007_000005_000009_000023_000115_000131_000383_000895_001591_000585_002571_007485_031535_012871_095717,
  1_048278_000001_000001_000001_000015_000013_000049_000003_000157_000311_000159_001239_000159_005643_006405_011763_034609_075259,
  1_048282_000001_000001_000001_000013_000011_000041_000119_000003_000165_000943_002035_000179_000357_014591_020099_004787_012659,
  1_048288_000001_000001_000005_000011_000013_000009_000067_000139_000259_000947_001559_000283_001557_011297_029753_021953_100317,
  1_048311_000001_000001_000007_000011_000013_000039_000105_000083_000109_000723_001643_003599_001471_013653_004583_018595_091935,
  1_048315_000001_000001_000005_000009_000025_000005_000069_000189_000209_000779_001421_000467_000849_012887_010317_003005_100813,
  1_048317_000001_000003_000007_000011_000019_000001_000093_000239_000333_000713_001525_000813_005913_010811_007077_020573_086999,
  1_048329_000001_000003_000001_000005_000025_000001_000107_000153_000225_000889_001319_000497_002193_011511_017553_023733_083179,
  1_048330_000001_000003_000003_000003_000005_000045_000051_000037_000443_000851_000263_004067_002629_010887_029081_030489_001161,
  1_048337_000001_000001_000003_000009_000025_000019_000115_000031_000347_000641_001103_001121_007051_014071_016663_048517_024655,
  1_048350_000001_000001_000003_000015_000011_000033_000123_000181_000225_000437_000875_001997_000209_005487_001989_006745_038423,
  1_048353_000001_000003_000007_000005_000027_000005_000105_000203_000051_000683_001523_000347_006881_004353_004531_029589_108053,
  1_048360_000001_000001_000003_000009_000015_000033_000127_000145_000125_000429_000915_001307_001495_003553_026797_036819_121375]

def dirRows17_2_5 : List Nat := [
  1_048374_000001_000003_000005_000015_000007_000001_000055_000099_000007_000405_000885_000059_005359_013969_032037_053399_077293,
  1_048380_000001_000001_000007_000001_000029_000031_000089_000069_000405_000837_001949_002337_001139_014129_016867_015167_021117,
  1_048405_000001_000001_000003_000005_000003_000025_000061_000175_000135_000109_000959_000501_000013_016057_025031_016321_027617,
  1_048406_000001_000003_000001_000005_000017_000039_000059_000113_000025_000707_001641_003489_006193_010085_013837_057851_077475,
  1_048409_000001_000001_000003_000005_000017_000035_000111_000163_000253_000641_000715_001101_004411_010771_020241_046415_114719,
  1_048412_000001_000003_000001_000001_000007_000011_000077_000059_000071_000869_001505_000751_004367_009603_029735_007333_062487,
  1_048416_000001_000003_000007_000009_000003_000051_000093_000195_000497_000659_001563_003801_006933_009089_010891_009853_093611,
  1_048419_000001_000003_000001_000007_000021_000047_000061_000117_000293_000281_001547_003437_004947_012119_021425_005591_023951,
  1_048425_000001_000001_000007_000013_000019_000059_000121_000249_000147_000759_001963_000465_007785_007015_000081_047869_123845,
  1_048434_000001_000001_000007_000013_000005_000035_000045_000069_000167_000263_000979_002855_001845_005531_017167_007363_089233,
  1_048443_000001_000003_000003_000003_000017_000043_000109_000193_000389_000867_001403_001271_007127_013977_022547_053997_024475,
  1_048445_000001_000001_000001_000005_000025_000043_000047_000163_000417_000967_000819_002433_000439_008499_029705_032697_109963,
  1_048453_000001_000001_000001_000015_000019_000005_000083_000237_000431_000697_001383_002499_006907_009033_012147_023479_017649,
  1_048454_000001_000003_000005_000013_000027_000035_000103_000095_000239_000903_000537_000601_000417_015859_016533_016753_128229,
  1_048482_000001_000001_000003_000001_000011_000055_000057_000009_000229_000135_000805_002745_002023_012645_029135_039051_017065,
  1_048491_000001_000003_000005_000003_000013_000025_000077_000029_000449_000031_001733_001451_003895_011551_001011_022817_035959,
  1_048501_000001_000003_000003_000003_000001_000031_000093_000047_000255_000393_000571_000443_006079_006245_011773_042087_040651,
  1_048517_000001_000003_000001_000005_000017_000049_000119_000219_000375_000337_000029_003409_003187_015243_025853_044385_103675,
  1_048518_000001_000003_000007_000015_000015_000021_000079_000109_000081_000119_000603_001665_007813_003485_011801_048693_108307,
  1_048545_000001_000001_000001_000015_000009_000005_000103_000141_000181_000841_000007_001217_007713_004843_009089_053641_003029,
  1_048548_000001_000003_000003_000001_000029_000047_000013_000179_000439_000387_001553_003141_000947_004893_029119_030865_014207,
  1_048552_000001_000001_000001_000015_000029_000001_000041_000135_000043_000673_001527_000883_003211_005195_030219_047133_056819,
  1_048569_000001_000003_000005_000013_000013_000047_000097_000219_000277_000397_001901_000821_001961_000705_007291_019435_123563,
  1_048575_000001_000001_000007_000015_000005_000049_000093_000059_000221_000205_000115_000559_005633_005819_006923_018301_072639,
  1_048580_000001_000003_000005_000013_000029_000049_000025_000203_000125_000385_000487_001897_002177_006859_006105_000763_036673,
  1_048584_000001_000003_000003_000009_000023_000063_000009_000115_000489_000089_001113_001351_008181_002569_018263_032619_024795,
  1_048590_000001_000001_000005_000011_000025_000051_000097_000155_000015_000139_001275_003479_005851_003099_007417_057155_090185,
  1_048595_000001_000003_000001_000011_000001_000037_000067_000221_000493_000475_001881_002277_004365_009411_016629_065229_028803,
  1_048602_000001_000003_000001_000001_000015_000053_000039_000141_000453_000151_000335_000795_001515_002719_024197_021153_129549,
  1_048604_000001_000001_000001_000007_000019_000031_000059_000123_000073_000149_000469_001199_003603_001539_029157_050031_022109,
  1_048618_000001_000001_000003_000015_000023_000051_000045_000211_000423_000553_001289_001125_006347_006711_023761_014109_017261,
  1_048625_000001_000003_000005_000013_000005_000007_000035_000185_000263_000791_000161_000325_004771_011913_031595_056675_068615,
  1_048626_000001_000001_000005_000009_000019_000027_000089_000147_000055_000197_001695_000099_000755_015115_001933_041439_085063,
  1_048638_000001_000001_000007_000007_000017_000011_000103_000055_000281_000707_001973_002055_005015_005713_003717_044149_008033,
  1_048668_000001_000003_000001_000005_000021_000049_000055_000093_000161_000565_000081_003241_003709_008185_016935_060369_118127,
  1_048677_000001_000003_000007_000009_000027_000001_000105_000133_000397_000351_001021_000739_000161_009971_024733_029239_068853,
  1_048678_000001_000001_000007_000001_000001_000019_000097_000243_000073_000969_000313_000399_002955_002467_018265_060637_035457,
  1_048687_000001_000003_000001_000011_000029_000025_000035_000035_000469_000143_001195_000911_001023_014685_010933_016449_102113,
  1_048692_000001_000001_000005_000003_000031_000021_000065_000181_000013_000235_000501_003621_003567_008771_032747_059231_091551,
  1_048696_000001_000001_000001_000013_000029_000021_000013_000033_000193_000565_000203_003927_004749_009897_026109_014221_027733,
  1_048704_000001_000001_000001_000005_000029_000041_000007_000125_000391_000295_000533_002135_003107_007711_027811_055767_078821,
  1_048707_000001_000001_000007_000003_000019_000025_000117_000195_000155_000685_000147_002049_003751_004585_024893_036895_080371,
  1_048714_000001_000003_000005_000005_000023_000041_000009_000125_000315_000809_001019_001453_004605_013753_030641_050677_094781,
  1_048731_000001_000001_000001_000007_000027_000045_000103_000199_000037_000291_000651_000185_006715_015387_030873_063051_123231,
  1_048740_000001_000001_000005_000007_000017_000005_000075_000129_000401_000107_001681_002039_000299_012399_030947_026327_091589,
  1_048750_000001_000003_000003_000015_000017_000019_000109_000019_000493_000797_000209_000929_002821_000395_022173_027803_087953,
  1_048761_000001_000003_000007_000005_000007_000005_000071_000159_000483_000389_001817_004093_000963_004253_031267_063919_062113,
  1_048785_000001_000003_000003_000015_000009_000049_000089_000049_000015_000061_002041_002357_002173_003349_032565_023207_021177,
  1_048786_000001_000001_000001_000013_000015_000021_000031_000143_000387_000371_000567_001903_003793_009559_007055_031251_013663,
  1_048798_000001_000001_000003_000013_000003_000007_000049_000031_000255_000581_000627_001947_002965_002787_008275_059785_019979,
  1_048807_000001_000003_000003_000013_000029_000047_000053_000133_000301_000253_001215_003409_005745_000247_031585_005555_031011,
  1_048808_000001_000003_000007_000015_000023_000049_000001_000089_000141_000423_000707_000645_007955_010485_027223_035867_045461,
  1_048814_000001_000001_000003_000003_000029_000025_000123_000063_000197_000429_000169_003229_003797_004029_029947_052781_016065,
  1_048826_000001_000003_000003_000007_000029_000017_000083_000095_000199_000253_000133_000265_006723_006207_012863_061311_021937,
  1_048828_000001_000003_000007_000013_000019_000061_000089_000151_000249_000597_001389_000717_005111_003285_006251_050237_108703,
  1_048834_000001_000003_000005_000011_000001_000023_000035_000061_000143_000045_000625_001693_004943_002213_009317_007601_028359,
  1_048840_000001_000003_000003_000015_000029_000043_000115_000023_000167_000355_000977_000439_004767_009967_022997_054725_125637,
  1_048845_000001_000003_000007_000001_000029_000045_000083_000071_000395_000247_000001_000113_006393_012445_016137_035125_102053,
  1_048858_000001_000001_000001_000007_000017_000055_000017_000159_000033_000237_000207_001297_005611_006023_017709_060905_003533,
  1_048864_000001_000003_000001_000013_000027_000057_000027_000235_000141_000917_001655_000659_000939_000559_002651_000705_080141,
  1_048869_000001_000003_000007_000003_000003_000017_000111_000117_000467_000129_001105_003457_002093_008513_019941_022111_054597,
  1_048870_000001_000003_000007_000003_000005_000017_000059_000195_000023_000547_001799_001427_000391_004043_010407_031055_038495,
  1_048879_000001_000001_000001_000007_000021_000009_000071_000033_000209_000773_001243_003239_003763_015229_009609_024395_056145,
  1_048887_000001_000003_000005_000013_000013_000045_000071_000091_000023_000553_000665_001753_005173_004355_014317_042517_032307,
  1_048899_000001_000003_000005_000011_000031_000003_000037_000095_000063_000425_001611_002983_005075_001375_014305_011099_101203,
  1_048911_000001_000001_000003_000001_000021_000007_000015_000141_000389_000871_000617_000271_001037_013569_013019_058899_054097,
  1_048920_000001_000003_000007_000001_000013_000025_000021_000251_000467_000373_001539_004065_001871_000791_026315_064187_119455,
  1_048926_000001_000003_000001_000003_000025_000037_000043_000009_000187_000323_000409_000443_002861_014145_026185_024049_109613,
  1_048929_000001_000001_000003_000007_000021_000061_000003_000081_000445_000673_001269_000613_001279_008209_022911_048017_054181,
  1_048971_000001_000001_000001_000015_000025_000063_000071_000147_000217_000491_000183_000977_004967_003471_008791_011843_068005,
  1_048974_000001_000001_000001_000005_000025_000043_000013_000237_000057_000919_001641_000399_004269_007357_003465_063901_061329,
  1_048981_000001_000001_000007_000015_000027_000057_000047_000187_000295_000117_001223_002963_004995_013279_025107_056089_037293,
  1_048998_000001_000001_000005_000013_000029_000019_000083_000121_000129_000931_001933_001141_003125_003321_022019_052729_119643,
  1_049007_000001_000001_000001_000001_000021_000019_000049_000241_000227_000057_001919_000113_006993_004687_001043_005247_015565,
  1_049028_000001_000003_000003_000015_000005_000021_000065_000129_000485_000173_001663_002419_004279_004167_025827_028457_068219,
  1_049031_000001_000001_000003_000001_000017_000009_000065_000021_000487_000875_001111_001679_006451_014825_023931_016053_079687,
  1_049056_000001_000003_000003_000005_000013_000005_000049_000015_000267_000389_001111_001505_005815_006285_026075_000167_070325,
  1_049065_000001_000001_000003_000011_000005_000015_000057_000171_000407_000497_001979_002819_001267_006893_006601_030971_024477,
  1_049079_000001_000001_000001_000015_000007_000005_000069_000181_000195_000847_001245_004019_002469_001407_017013_043437_016307,
  1_049083_000001_000003_000001_000011_000015_000017_000115_000197_000215_000035_001489_000659_004725_011339_030259_052539_013365,
  1_049088_000001_000001_000001_000013_000023_000043_000021_000033_000017_000969_001321_002469_004371_007685_006817_020179_113483,
  1_049093_000001_000003_000007_000003_000031_000011_000079_000055_000123_000263_001061_002087_000183_011623_020703_060291_115261,
  1_049100_000001_000001_000005_000013_000005_000053_000021_000071_000399_000165_001997_002667_007361_008863_027859_017235_077623,
  1_049103_000001_000003_000003_000015_000021_000055_000027_000031_000371_000289_000253_001453_000105_007035_014787_002281_128359,
  1_049124_000001_000001_000003_000015_000023_000029_000003_000143_000047_000255_000115_002741_006773_016267_005975_003689_097497,
  1_049136_000001_000001_000001_000015_000009_000057_000109_000043_000359_000365_001577_004091_007399_010521_007983_056119_065451,
  1_049139_000001_000003_000007_000007_000029_000055_000115_000155_000121_000679_000663_002345_003765_004493_009555_024043_041467,
  1_049142_000001_000001_000003_000001_000019_000055_000067_000255_000355_000701_002027_003703_007839_001701_007657_036429_036623,
  1_049145_000001_000003_000005_000005_000029_000007_000031_000123_000021_000901_001581_003993_005105_009715_018347_027415_019253,
  1_049146_000001_000003_000005_000003_000003_000053_000121_000105_000051_000577_000157_002151_005105_007855_008595_024457_055931,
  1_049171_000001_000003_000001_000009_000023_000025_000067_000115_000079_000809_001215_000943_001075_007103_000729_018791_115977,
  1_049187_000001_000003_000001_000013_000003_000057_000105_000161_000277_000393_001671_002765_005781_013429_024075_010931_050951,
  1_049190_000001_000003_000005_000009_000019_000061_000009_000227_000455_000541_000721_002855_000949_010159_013801_048199_026747,
  1_049194_000001_000003_000001_000003_000025_000061_000053_000177_000441_000697_001845_003573_006673_009691_000911_046387_064727,
  1_049196_000001_000001_000001_000011_000007_000013_000095_000221_000455_000967_000869_000883_006301_005261_018401_035745_114645,
  1_049207_000001_000003_000001_000011_000015_000007_000115_000217_000235_000539_000491_000603_002201_000241_025445_029773_122695,
  1_049216_000001_000001_000005_000003_000019_000009_000071_000193_000131_000927_001931_003981_007537_010811_027285_045865_106171,
  1_049219_000001_000001_000007_000005_000005_000021_000107_000077_000363_000733_001011_003259_005263_015043_019153_032117_129409,
  1_049222_000001_000001_000003_000013_000021_000005_000009_000103_000369_000699_000329_001065_000895_013211_019017_005359_038335,
  1_049240_000001_000001_000007_000015_000021_000011_000073_000153_000371_000753_000805_003519_005839_001809_007201_008189_068361]

def dirRows17_2_6 : List Nat := [
  1_049250_000001_000003_000007_000009_000027_000045_000025_000175_000317_000381_000961_000619_004827_015161_019091_029369_021097,
  1_049262_000001_000001_000005_000005_000007_000007_000021_000069_000023_000589_001413_000653_000911_013599_018349_047307_064047,
  1_049276_000001_000001_000001_000013_000027_000023_000087_000249_000135_000727_000375_003641_001489_013053_005151_062689_101347,
  1_049289_000001_000001_000005_000011_000007_000039_000001_000109_000203_000961_000973_001181_002357_005123_031481_058345_052705,
  1_049292_000001_000001_000001_000015_000025_000015_000085_000049_000077_000235_001761_002731_004157_002057_027587_030299_052997,
  1_049298_000001_000001_000005_000003_000001_000013_000047_000219_000051_000521_000625_003243_007093_010823_009559_058191_095573,
  1_049319_000001_000003_000005_000013_000027_000063_000013_000007_000167_000909_001559_002103_001807_000943_028997_031015_085407,
  1_049320_000001_000001_000003_000005_000017_000021_000101_000163_000477_000223_000175_003435_007071_005121_028015_033365_121057,
  1_049325_000001_000003_000007_000001_000011_000035_000111_000041_000261_000045_001009_002827_004019_005029_022289_020235_013481,
  1_049333_000001_000003_000005_000005_000015_000041_000109_000007_000329_000447_000065_001317_006169_015947_031191_047091_060643,
  1_049340_000001_000003_000007_000007_000021_000013_000029_000113_000511_000407_001211_002065_000455_010049_005745_048589_048669,
  1_049343_000001_000001_000005_000005_000021_000045_000089_000019_000279_000165_001897_000957_008045_000565_004959_037173_100773,
  1_049352_000001_000003_000001_000015_000009_000017_000099_000143_000489_000633_001721_001255_003655_010083_029079_017109_010035,
  1_049363_000001_000001_000003_000003_000003_000023_000047_000009_000255_000169_001103_001799_007899_007673_019259_061919_112831,
  1_049375_000001_000001_000005_000005_000031_000037_000083_000229_000093_000575_001589_002353_000185_007783_009413_009617_123197,
  1_049391_000001_000003_000005_000007_000031_000007_000113_000255_000231_000309_001215_000737_003635_014631_028737_045127_111399,
  1_049405_000001_000001_000007_000001_000011_000005_000055_000235_000369_000983_000873_000655_006277_011425_011191_038231_088941,
  1_049413_000001_000003_000001_000009_000003_000001_000119_000093_000245_000167_000853_002543_000203_005313_014129_006283_107117,
  1_049420_000001_000003_000003_000013_000021_000033_000059_000167_000435_000163_001873_003341_002895_013205_014147_019567_100127,
  1_049425_000001_000001_000005_000009_000007_000015_000039_000081_000475_000511_001585_000063_006861_010055_003577_048999_080979,
  1_049431_000001_000001_000005_000013_000021_000029_000017_000003_000499_000739_001257_002925_008179_013367_018879_019917_109907,
  1_049432_000001_000003_000007_000013_000015_000057_000109_000019_000265_000579_000233_002507_005059_014713_009549_041915_056199,
  1_049441_000001_000003_000003_000005_000031_000025_000085_000163_000187_000795_001597_001963_000473_004673_004555_051365_073817,
  1_049456_000001_000003_000003_000013_000025_000035_000071_000251_000033_000971_000235_001919_006705_014657_023417_056377_021071,
  1_049476_000001_000003_000003_000011_000003_000029_000085_000193_000011_000831_000029_001233_006199_011991_009205_003323_023749,
  1_049479_000001_000003_000007_000007_000011_000015_000001_000017_000087_000665_001593_002331_000845_007821_000089_007057_114975,
  1_049504_000001_000001_000005_000011_000009_000037_000039_000079_000455_000397_001431_001541_007629_015133_021395_035619_123801,
  1_049514_000001_000001_000001_000007_000011_000059_000067_000045_000169_000869_001547_002947_003025_012967_029927_022181_044783,
  1_049528_000001_000001_000005_000007_000003_000057_000123_000253_000369_000537_000083_001147_003469_009775_014137_038899_101143,
  1_049543_000001_000003_000005_000003_000019_000035_000011_000215_000343_000677_001873_001211_003129_009017_029595_001291_039397,
  1_049544_000001_000001_000007_000003_000025_000007_000061_000229_000187_000839_000747_003347_004321_013201_019665_056951_085273,
  1_049550_000001_000001_000001_000001_000011_000005_000051_000041_000227_000895_000553_002673_006581_006583_015429_033211_100599,
  1_049558_000001_000003_000003_000005_000021_000027_000091_000065_000213_000341_000723_000567_004761_011549_015041_023079_055245,
  1_049568_000001_000001_000003_000001_000015_000043_000083_000057_000473_000453_001351_002055_005769_003887_029481_057915_014017,
  1_049578_000001_000003_000003_000003_000021_000029_000121_000137_000099_000527_000711_001169_007869_006245_025423_038989_087019,
  1_049600_000001_000001_000005_000011_000009_000061_000125_000007_000207_000245_001019_000635_007099_013133_011809_056705_018801,
  1_049612_000001_000003_000007_000009_000015_000031_000037_000205_000439_000651_000255_000971_004311_007137_011821_045041_031081,
  1_049633_000001_000001_000005_000009_000007_000055_000051_000147_000371_000881_000359_003021_001141_014515_014605_064067_098231,
  1_049634_000001_000003_000001_000003_000029_000009_000109_000021_000437_000321_000753_003227_002929_014787_002451_054331_115921,
  1_049636_000001_000003_000005_000007_000001_000029_000013_000167_000089_000185_000409_000209_006625_005237_022513_002095_026427,
  1_049643_000001_000001_000001_000003_000003_000031_000025_000145_000027_000345_000957_000823_007873_009469_029115_012455_039447,
  1_049654_000001_000001_000003_000003_000031_000015_000099_000181_000247_000165_000441_000059_001181_002851_001337_004929_031079,
  1_049657_000001_000001_000003_000011_000003_000047_000041_000053_000041_000435_000945_003839_008083_004927_026919_024689_061015,
  1_049663_000001_000003_000003_000009_000007_000021_000121_000233_000493_000271_000549_001627_005861_000377_020751_052927_003649,
  1_049667_000001_000001_000001_000007_000015_000049_000029_000149_000057_000513_000873_000093_000337_012559_024287_027771_028207,
  1_049693_000001_000001_000005_000007_000007_000007_000075_000161_000419_000601_000055_002599_005325_012419_026755_005103_010231,
  1_049700_000001_000003_000005_000015_000003_000055_000067_000183_000007_000371_000141_004093_004567_013971_003327_020701_078819,
  1_049703_000001_000001_000001_000013_000015_000041_000045_000029_000375_000235_001985_001051_005863_007043_011143_059381_055007,
  1_049712_000001_000003_000001_000015_000015_000029_000015_000101_000395_000039_001839_001689_000429_000405_029337_028573_010599,
  1_049717_000001_000003_000003_000011_000007_000005_000011_000153_000235_000227_000561_001037_002283_006657_006729_017939_029809,
  1_049718_000001_000001_000001_000005_000015_000059_000033_000069_000275_000447_000661_002071_005811_010463_032707_064503_106313,
  1_049721_000001_000001_000007_000001_000021_000053_000021_000235_000497_000309_001207_001613_007739_012785_007743_037671_029197,
  1_049727_000001_000003_000005_000009_000009_000051_000033_000105_000275_000917_001911_003607_000865_000899_005405_059593_113965,
  1_049730_000001_000003_000001_000007_000007_000063_000051_000083_000481_000347_001323_003549_002873_012527_016515_061077_063239,
  1_049735_000001_000001_000001_000001_000013_000021_000087_000139_000461_000215_001173_001197_002091_011247_025647_023443_105761,
  1_049739_000001_000001_000001_000001_000027_000033_000021_000027_000365_000075_000351_002111_003897_013325_004821_041355_095681,
  1_049747_000001_000003_000005_000005_000015_000041_000015_000093_000397_000461_001993_000321_004375_001205_018417_037549_030181,
  1_049765_000001_000003_000005_000015_000001_000049_000101_000129_000215_000773_001265_002245_002517_016261_032149_003545_027631,
  1_049770_000001_000001_000001_000015_000005_000005_000003_000127_000265_000721_000875_003117_002177_007843_015871_022687_089347,
  1_049772_000001_000003_000007_000011_000029_000023_000069_000041_000155_000257_000563_000509_006105_009169_018341_025373_127397,
  1_049777_000001_000001_000005_000013_000031_000023_000065_000131_000131_000061_001979_002737_003793_003617_014385_000189_084567,
  1_049789_000001_000001_000001_000013_000021_000033_000043_000097_000083_000903_001971_003209_005391_007703_013795_003895_078045,
  1_049817_000001_000003_000003_000005_000017_000053_000113_000237_000269_000083_000589_004029_003309_014531_011359_025803_025525,
  1_049829_000001_000001_000007_000001_000021_000035_000043_000073_000251_000705_001737_003341_001581_009663_006251_016329_044491,
  1_049839_000001_000003_000003_000007_000017_000005_000065_000019_000203_000717_000807_001759_006907_015801_030369_002655_069565,
  1_049844_000001_000001_000001_000001_000031_000021_000075_000221_000115_000395_001495_002739_001745_005981_028045_056581_130695,
  1_049851_000001_000003_000001_000009_000027_000005_000113_000123_000367_000701_000647_000117_002389_012309_001747_023421_021583,
  1_049854_000001_000001_000001_000015_000027_000057_000095_000081_000347_000765_001435_001727_000153_006051_027085_062787_040903,
  1_049874_000001_000001_000003_000011_000023_000029_000023_000029_000169_000653_000835_000357_005113_005293_011779_023567_064569,
  1_049883_000001_000001_000007_000013_000031_000007_000101_000235_000099_000247_001267_000509_003927_014317_003217_024389_034215,
  1_049886_000001_000003_000003_000005_000021_000027_000033_000229_000033_000551_000815_003551_004261_013325_031117_040689_066549,
  1_049892_000001_000003_000007_000001_000023_000001_000099_000011_000139_000569_000365_001233_003281_007817_008833_047699_097825,
  1_049895_000001_000001_000003_000001_000019_000039_000019_000151_000025_000073_001271_001435_003109_002571_009191_048257_061001,
  1_049914_000001_000003_000007_000001_000023_000063_000001_000115_000159_000943_001637_001443_000809_010705_012563_063111_096343,
  1_049931_000001_000001_000007_000015_000005_000017_000065_000157_000045_000199_000371_002497_004367_009109_031955_064253_069279,
  1_049933_000001_000003_000003_000015_000029_000045_000103_000183_000087_000543_000097_001545_002719_005619_028871_004049_111825,
  1_049934_000001_000001_000005_000007_000027_000063_000065_000241_000103_000483_000579_003589_005673_013283_024193_031993_072713,
  1_049941_000001_000003_000007_000009_000021_000035_000059_000183_000459_000211_000753_003941_005389_010535_002895_044307_026577,
  1_049952_000001_000003_000001_000003_000009_000011_000015_000141_000159_000853_001975_004027_008053_016129_032687_029117_067507,
  1_049967_000001_000003_000003_000001_000019_000051_000055_000167_000085_000869_000437_000457_007879_002097_004403_002139_010589,
  1_049969_000001_000003_000003_000015_000019_000033_000063_000229_000197_000269_001189_000317_005087_003147_000787_064317_043293,
  1_049972_000001_000003_000005_000011_000025_000025_000121_000037_000371_000117_001683_002921_000671_011353_032273_057597_056901,
  1_049976_000001_000003_000007_000007_000009_000037_000091_000159_000195_000001_000077_002085_000985_009999_005639_025041_066393,
  1_049979_000001_000001_000007_000005_000011_000017_000067_000021_000301_000971_000591_003809_004795_012301_016977_027495_098539,
  1_049999_000001_000003_000001_000009_000013_000053_000083_000205_000111_000609_000631_000023_001781_015401_001563_034367_040345,
  1_050008_000001_000003_000007_000001_000031_000023_000101_000047_000055_000905_000953_000733_005173_005937_017703_031077_049707,
  1_050030_000001_000003_000005_000003_000005_000003_000127_000171_000511_000289_000685_001157_006521_003301_003017_058857_055289,
  1_050041_000001_000001_000005_000001_000001_000029_000059_000007_000423_000083_000797_002633_002015_001657_007575_039819_000181,
  1_050042_000001_000003_000005_000015_000025_000027_000039_000099_000083_000381_000401_001033_000867_015645_028643_034917_053215,
  1_050044_000001_000003_000005_000015_000017_000001_000067_000063_000355_000841_000681_002807_000531_015295_007859_064031_121519,
  1_050057_000001_000003_000001_000005_000021_000057_000063_000247_000467_000101_000129_002627_004763_000479_011145_008861_069803,
  1_050060_000001_000003_000001_000015_000013_000013_000077_000039_000297_000401_001653_000659_003909_013179_010477_045967_001665,
  1_050075_000001_000003_000007_000005_000029_000017_000035_000157_000309_000747_001717_001279_006103_003509_017499_022989_043157,
  1_050077_000001_000001_000001_000007_000011_000051_000055_000119_000145_000505_000179_003979_001237_012801_015921_013561_069161,
  1_050091_000001_000001_000005_000007_000013_000009_000073_000203_000247_000257_001607_001183_006237_012327_005059_051645_088781,
  1_050096_000001_000003_000005_000009_000001_000009_000027_000059_000235_000081_000689_002457_000893_006107_027643_040145_002329,
  1_050099_000001_000001_000001_000011_000011_000019_000065_000063_000027_000513_001473_002955_008037_004991_022035_041965_082589,
  1_050106_000001_000003_000001_000001_000009_000053_000097_000095_000247_000379_000259_002789_001433_015299_018309_051813_063271,
  1_050116_000001_000001_000005_000001_000011_000041_000069_000193_000391_000027_001511_001575_001161_014741_025193_031149_079573,
  1_050133_000001_000003_000007_000015_000019_000031_000101_000009_000111_000427_000531_001335_000767_015075_028373_054015_108021]

def dirRows17_2_7 : List Nat := [
  1_050144_000001_000003_000001_000003_000029_000017_000083_000163_000179_000703_002027_003027_005267_016111_023929_009653_038633,
  1_050153_000001_000003_000005_000009_000003_000007_000111_000001_000311_000143_001563_002605_000301_002447_005009_063767_037529,
  1_050154_000001_000003_000005_000005_000023_000023_000097_000011_000475_000741_001385_002491_001717_014587_006289_027651_021873,
  1_050168_000001_000001_000005_000001_000031_000031_000119_000093_000209_000861_001591_001233_003469_009799_005969_035965_110841,
  1_050179_000001_000001_000005_000013_000019_000031_000069_000107_000423_000651_000757_000665_001297_009985_014983_003153_026425,
  1_050188_000001_000001_000005_000003_000023_000005_000089_000077_000461_000799_000683_002885_000845_012847_026721_013145_088689,
  1_050194_000001_000001_000003_000003_000019_000003_000041_000071_000247_000293_001047_002349_006815_002413_013683_051421_110737,
  1_050203_000001_000003_000003_000009_000019_000051_000091_000193_000447_000305_000751_001757_001547_012683_004645_039767_006433,
  1_050212_000001_000001_000007_000001_000011_000051_000083_000175_000461_000259_001337_000175_000877_015895_022487_008079_071291,
  1_050216_000001_000001_000001_000011_000013_000023_000019_000069_000285_000629_000563_002433_000815_004851_010617_059949_059119,
  1_050222_000001_000003_000005_000005_000019_000049_000047_000027_000343_000579_000197_000035_007051_002441_030091_009645_101899,
  1_050229_000001_000001_000003_000003_000021_000025_000125_000215_000159_000259_001915_002193_004213_016157_008665_010967_112793,
  1_050230_000001_000001_000005_000011_000029_000011_000053_000045_000121_000533_000257_001749_006311_007715_012037_012003_038987,
  1_050234_000001_000003_000001_000011_000025_000031_000093_000191_000231_000801_000361_001275_005031_007927_026333_039795_045875,
  1_050251_000001_000001_000005_000001_000007_000037_000117_000035_000257_000225_001769_001805_001593_001507_027741_031561_052107,
  1_050253_000001_000001_000003_000003_000027_000023_000055_000005_000137_000677_000459_002821_001331_005845_017751_017557_060495,
  1_050262_000001_000001_000007_000007_000005_000047_000085_000017_000287_000757_002013_002233_002975_013769_023199_032117_084429,
  1_050266_000001_000003_000003_000011_000001_000015_000039_000133_000079_000915_000147_001489_002319_013715_031317_046785_064147,
  1_050272_000001_000001_000003_000011_000001_000025_000083_000069_000395_000537_000895_000565_002781_012685_007831_036369_027871,
  1_050287_000001_000001_000001_000001_000013_000017_000059_000179_000509_000979_000315_003495_001773_016375_027873_018065_020285,
  1_050295_000001_000001_000005_000001_000027_000031_000039_000251_000121_000899_000751_001603_007501_000425_025791_035407_110405,
  1_050305_000001_000001_000007_000011_000011_000003_000107_000247_000079_000349_000405_003469_002201_008007_022891_007901_011413,
  1_050306_000001_000001_000001_000011_000015_000055_000121_000151_000127_000239_000115_000611_006191_015435_019831_064745_110473,
  1_050311_000001_000001_000007_000001_000021_000025_000057_000011_000031_000823_001855_002337_007655_010845_022167_036977_094265,
  1_050320_000001_000003_000005_000001_000031_000011_000117_000097_000341_000953_001499_002487_000559_008609_006321_020669_028945,
  1_050323_000001_000003_000007_000001_000005_000027_000015_000161_000083_000139_000075_003645_005227_016199_001833_021767_067579,
  1_050325_000001_000001_000007_000005_000031_000035_000075_000115_000451_000773_001987_001069_000651_000961_016317_018391_056519,
  1_050339_000001_000001_000001_000001_000031_000011_000023_000255_000215_000251_000867_002381_002351_013189_017705_033569_102361,
  1_050356_000001_000003_000007_000001_000017_000049_000049_000125_000445_000947_001985_002113_003025_006277_001981_033329_099413,
  1_050365_000001_000003_000003_000003_000027_000007_000059_000109_000037_000777_001359_002157_003185_007317_030887_010499_126563,
  1_050366_000001_000003_000003_000009_000027_000005_000099_000167_000457_000363_002031_001805_004661_008695_004667_061129_081143,
  1_050368_000001_000001_000005_000013_000005_000047_000095_000249_000289_000631_001739_002947_007169_013019_010429_016197_011539,
  1_050377_000001_000003_000007_000015_000027_000045_000093_000131_000269_000835_000399_001133_006509_001279_003635_017977_038667,
  1_050386_000001_000001_000005_000003_000017_000051_000001_000077_000105_000237_000995_002643_006921_006707_030129_001543_094501,
  1_050397_000001_000001_000001_000007_000029_000001_000117_000033_000141_000805_001553_003943_000045_008911_024191_045191_036525,
  1_050411_000001_000001_000007_000007_000031_000021_000097_000029_000179_000345_001059_000701_007709_015831_022923_057233_058961,
  1_050414_000001_000001_000003_000015_000015_000005_000085_000227_000013_000351_001167_003283_006833_000565_021019_053249_004639,
  1_050425_000001_000003_000003_000005_000027_000001_000005_000089_000101_000295_000481_002397_001459_003729_003703_025109_069237,
  1_050451_000001_000003_000007_000013_000031_000037_000069_000147_000505_000487_001701_001145_002061_010067_018269_013049_092091,
  1_050463_000001_000003_000003_000001_000029_000039_000033_000199_000499_000377_001081_003787_004843_016287_023397_019083_091381,
  1_050467_000001_000001_000001_000013_000021_000061_000121_000251_000511_000615_000625_002245_005951_016165_002155_037301_068319,
  1_050473_000001_000001_000001_000015_000019_000035_000057_000099_000001_000097_001177_003109_007213_005447_025251_024803_107449,
  1_050487_000001_000003_000001_000011_000011_000059_000095_000135_000329_000931_000843_002847_000463_010725_003933_032325_044545,
  1_050501_000001_000001_000007_000013_000013_000057_000029_000175_000011_000701_000231_002907_005555_016159_001249_038049_040115,
  1_050505_000001_000001_000005_000015_000023_000037_000047_000221_000465_000631_000057_001189_002083_006561_010725_008015_021231,
  1_050514_000001_000003_000007_000005_000009_000025_000031_000047_000139_000639_000999_002909_000039_016227_016967_030555_125541,
  1_050516_000001_000003_000003_000009_000005_000003_000009_000009_000043_000999_000159_003063_003661_007089_028929_055305_105521,
  1_050536_000001_000003_000001_000011_000017_000007_000003_000057_000457_000753_000135_003721_001111_007267_012603_050511_085433,
  1_050547_000001_000003_000005_000001_000027_000003_000107_000187_000247_000891_001311_000423_001767_014769_022119_036225_094267,
  1_050566_000001_000003_000005_000015_000001_000013_000065_000035_000435_000557_001755_001343_002647_000179_007781_062903_018741,
  1_050572_000001_000001_000007_000015_000029_000057_000063_000227_000407_000163_001207_002717_002731_001737_006379_014937_046683,
  1_050583_000001_000001_000001_000009_000025_000035_000093_000001_000077_000677_000875_003787_003075_014033_023017_003487_014999,
  1_050593_000001_000003_000003_000009_000003_000045_000115_000061_000437_000823_001401_000459_000301_005519_031003_064499_001757,
  1_050599_000001_000003_000001_000011_000023_000037_000069_000215_000197_000961_001501_002953_003679_006775_024679_044215_052357,
  1_050613_000001_000003_000001_000015_000029_000023_000001_000133_000451_000677_000687_001269_005987_011975_011929_063691_048683,
  1_050617_000001_000001_000001_000007_000013_000031_000013_000071_000355_000345_001193_003421_007601_007413_006719_028681_097605,
  1_050618_000001_000001_000005_000013_000023_000003_000015_000253_000109_000017_000341_000471_001131_014901_031783_041369_064139,
  1_050620_000001_000001_000003_000001_000025_000025_000085_000157_000443_000083_000269_003789_007977_007783_028433_030563_082805,
  1_050628_000001_000001_000007_000005_000003_000011_000083_000063_000253_000349_000217_002733_004183_002759_007617_041749_014015,
  1_050638_000001_000001_000005_000007_000007_000007_000091_000201_000449_000247_000889_003829_003529_014253_024091_033521_006049,
  1_050652_000001_000001_000003_000007_000025_000007_000123_000161_000227_000965_000511_000619_004359_011833_012859_026091_003867,
  1_050655_000001_000001_000007_000009_000005_000041_000071_000111_000095_000261_001809_003835_007625_012085_028885_064829_048981,
  1_050662_000001_000001_000005_000003_000013_000055_000057_000079_000457_000785_000653_001429_003879_013559_003953_018205_005777,
  1_050665_000001_000003_000005_000009_000023_000025_000107_000255_000151_000191_000119_003367_001081_012691_003575_038171_042573,
  1_050673_000001_000001_000007_000015_000003_000023_000115_000233_000265_000187_001961_001303_005101_001035_006803_014557_004527,
  1_050683_000001_000001_000003_000011_000019_000037_000045_000167_000017_000793_001361_003571_005889_014421_020453_005093_059927,
  1_050689_000001_000001_000007_000015_000003_000053_000001_000011_000159_000389_000171_002351_007189_003109_001541_053595_024247,
  1_050690_000001_000001_000007_000001_000007_000043_000075_000175_000253_000687_001811_003277_000447_008711_014281_053265_007379,
  1_050692_000001_000001_000005_000003_000021_000045_000113_000025_000309_000031_001765_000305_001423_000115_026421_050267_122115,
  1_050696_000001_000003_000005_000013_000015_000047_000017_000017_000445_000775_000243_003959_007263_009375_012017_057399_058203,
  1_050704_000001_000003_000003_000001_000031_000037_000037_000213_000125_000929_000243_001011_002841_004499_016961_012639_023381,
  1_050713_000001_000003_000001_000003_000007_000053_000031_000165_000311_000239_000731_001759_001769_000203_023201_020267_033381,
  1_050719_000001_000003_000003_000011_000001_000001_000073_000057_000497_000693_000693_000861_005587_016307_008559_028785_091147,
  1_050738_000001_000003_000001_000003_000011_000061_000011_000241_000473_000479_001831_001771_000025_010217_032683_040165_098433,
  1_050757_000001_000001_000005_000003_000017_000051_000039_000027_000189_000631_000689_002849_001849_009143_019263_032729_023031,
  1_050761_000001_000001_000005_000009_000015_000039_000103_000083_000485_000689_001561_000055_005219_012069_032225_007781_114299,
  1_050764_000001_000001_000001_000001_000031_000049_000071_000145_000485_000907_001551_003931_004081_002159_024747_006953_015887,
  1_050770_000001_000001_000003_000007_000027_000061_000057_000153_000015_000881_000271_000267_005827_007625_018179_003769_042211,
  1_050776_000001_000003_000001_000003_000021_000049_000065_000177_000341_000851_001825_003347_000113_008077_001117_009463_115821,
  1_050803_000001_000003_000005_000011_000027_000017_000075_000035_000475_000389_000313_002187_007005_000911_021921_010979_013705,
  1_050805_000001_000001_000005_000009_000001_000049_000015_000021_000163_000355_000193_003473_004451_005325_028343_000251_125963,
  1_050806_000001_000003_000007_000001_000009_000063_000009_000129_000453_000887_001841_000597_001989_014755_007847_007581_000251,
  1_050816_000001_000003_000007_000013_000031_000015_000123_000003_000427_000101_001039_001355_003653_002871_028937_031243_108827,
  1_050826_000001_000003_000007_000013_000003_000017_000071_000243_000145_000747_001933_001105_000455_006355_020321_060075_031575,
  1_050840_000001_000003_000005_000005_000011_000025_000095_000085_000461_000459_000313_000173_001413_015761_031481_063793_029047,
  1_050845_000001_000003_000007_000007_000003_000005_000003_000095_000107_000995_001203_002965_002419_005325_017667_040205_091059,
  1_050852_000001_000001_000003_000009_000025_000003_000113_000079_000359_000069_000093_001539_000483_012701_019075_035021_017929,
  1_050855_000001_000003_000005_000001_000031_000035_000067_000097_000105_000381_000973_001355_003901_003847_012343_064309_029835,
  1_050862_000001_000003_000007_000001_000011_000033_000117_000237_000449_000101_000317_000023_005157_008187_028839_029465_097485,
  1_050876_000001_000003_000005_000005_000001_000049_000093_000071_000089_000607_001143_003271_005825_008529_018479_023859_040571,
  1_050879_000001_000003_000001_000003_000013_000035_000079_000009_000315_000943_001199_001521_002023_011745_008273_027643_089545,
  1_050882_000001_000003_000005_000001_000021_000003_000015_000111_000019_000895_001539_003331_006741_009087_005231_013435_060645,
  1_050894_000001_000003_000001_000009_000025_000009_000109_000253_000263_000425_000915_001955_000659_006249_011803_034523_022645,
  1_050899_000001_000001_000001_000009_000015_000023_000013_000079_000369_000689_000565_000743_003897_008837_013753_017213_086801,
  1_050905_000001_000001_000001_000005_000031_000027_000111_000231_000025_000617_000897_001325_004885_005731_002027_034639_067863,
  1_050924_000001_000001_000003_000013_000001_000009_000029_000023_000095_000113_001035_002729_006555_000335_024795_035387_031301,
  1_050936_000001_000001_000001_000007_000003_000053_000091_000143_000167_000773_000207_000031_004993_007953_026997_040031_113939,
  1_050944_000001_000001_000003_000005_000017_000043_000121_000231_000411_000575_001621_003079_000535_003313_019443_058271_054207,
  1_050973_000001_000001_000001_000007_000011_000041_000061_000081_000097_000091_001987_000981_003745_000819_023785_048331_063761,
  1_050974_000001_000001_000005_000013_000007_000029_000025_000073_000355_000669_000241_000065_002249_005551_005217_058573_034049]

def dirRows17_2_8 : List Nat := [
  1_051002_000001_000001_000007_000011_000001_000045_000125_000107_000127_000639_001989_002727_002103_008985_030249_040037_040931,
  1_051007_000001_000001_000005_000013_000021_000059_000099_000131_000359_000615_000665_000577_002559_003555_011355_026213_076427,
  1_051009_000001_000003_000003_000001_000019_000009_000085_000111_000381_000661_000561_003419_001355_008473_000329_004989_009087,
  1_051029_000001_000001_000007_000005_000011_000023_000033_000095_000343_000009_001579_002663_006245_000267_007187_025381_103181,
  1_051036_000001_000001_000007_000011_000023_000007_000113_000049_000089_000587_001221_000409_000873_015531_002721_044519_025349,
  1_051063_000001_000003_000003_000001_000017_000017_000045_000239_000453_000639_001433_002829_006009_012447_009393_059979_093343,
  1_051067_000001_000001_000003_000015_000019_000061_000125_000101_000219_000327_001551_001623_000951_008379_021009_064089_021891,
  1_051070_000001_000001_000005_000007_000023_000005_000111_000043_000057_000071_000407_004027_004869_012033_019941_051969_120115,
  1_051074_000001_000003_000007_000015_000017_000049_000031_000145_000185_000169_001559_004011_005293_007559_023487_012213_002757,
  1_051079_000001_000003_000007_000003_000003_000059_000119_000003_000509_000539_001623_000539_001405_003913_000213_030293_068497,
  1_051083_000001_000001_000001_000009_000015_000043_000067_000171_000397_000233_000379_001681_006877_009169_019667_001971_115347,
  1_051093_000001_000001_000005_000015_000001_000045_000025_000133_000099_000181_001825_003485_005633_004629_030181_015761_087161,
  1_051094_000001_000001_000005_000003_000005_000055_000097_000117_000303_000591_000733_003631_004305_000169_005361_064491_071793,
  1_051124_000001_000001_000005_000011_000019_000009_000005_000147_000223_000051_001763_003899_007393_008107_019619_060509_061427,
  1_051131_000001_000001_000001_000015_000015_000003_000103_000015_000423_000649_000613_001387_006229_004147_017517_000225_035697,
  1_051151_000001_000003_000001_000003_000021_000057_000077_000193_000203_000649_000631_003753_004259_003983_027707_033623_083857,
  1_051153_000001_000003_000003_000005_000011_000037_000095_000201_000083_000643_001639_000153_007683_015249_023859_027021_043321,
  1_051156_000001_000003_000005_000013_000023_000031_000069_000215_000303_000433_001325_001013_002903_012659_003813_034497_059651,
  1_051165_000001_000003_000001_000009_000015_000039_000113_000253_000173_000393_000019_002343_002939_008871_029741_002141_121675,
  1_051175_000001_000001_000007_000009_000007_000009_000091_000211_000169_000299_000507_002849_001321_015397_023949_032387_108691,
  1_051184_000001_000001_000007_000013_000001_000021_000119_000127_000229_000253_000039_000323_001831_000121_017385_045511_043743,
  1_051187_000001_000001_000001_000015_000025_000025_000097_000209_000375_000945_001343_002205_001701_013085_025547_055555_129395,
  1_051203_000001_000001_000001_000005_000031_000025_000091_000255_000163_000169_000703_001607_004731_007413_010013_010925_109151,
  1_051220_000001_000003_000003_000009_000015_000047_000071_000219_000009_000037_000231_003227_003447_008129_023421_030113_120725,
  1_051224_000001_000003_000003_000011_000015_000047_000093_000203_000299_000865_000151_003999_001245_008487_013355_027373_093583,
  1_051233_000001_000003_000007_000005_000013_000007_000097_000081_000271_000095_000513_000365_005039_000403_005285_029475_129347,
  1_051234_000001_000001_000007_000007_000009_000027_000025_000207_000161_000785_001453_003031_000763_002313_029347_061457_052561,
  1_051239_000001_000003_000003_000011_000025_000025_000039_000061_000165_000803_001435_003643_000299_013751_024239_053955_094889,
  1_051246_000001_000003_000005_000009_000009_000013_000063_000221_000123_000947_000905_000913_000953_007429_025409_043017_002217,
  1_051248_000001_000001_000003_000003_000031_000019_000107_000211_000503_000675_001921_003027_001273_005699_020683_055605_119803,
  1_051251_000001_000001_000003_000003_000009_000017_000115_000183_000325_000259_002013_001505_006999_011573_005315_018731_009405,
  1_051257_000001_000003_000001_000005_000029_000037_000081_000145_000005_000851_001803_002011_006655_003601_011325_017137_068501,
  1_051266_000001_000003_000005_000001_000025_000051_000111_000019_000075_000765_001843_000139_007253_012967_013387_048631_124881,
  1_051280_000001_000003_000003_000007_000015_000029_000007_000231_000013_000901_001913_003817_003993_003049_032367_004201_090837,
  1_051285_000001_000003_000001_000011_000027_000005_000109_000057_000081_000147_001141_002153_005255_006367_000189_005959_088843,
  1_051286_000001_000003_000005_000005_000019_000035_000017_000149_000407_000889_001583_001727_000465_010785_006043_021785_080935,
  1_051289_000001_000001_000003_000007_000015_000021_000105_000249_000427_000491_000923_003189_008103_003875_018347_035799_036703,
  1_051295_000001_000001_000003_000015_000003_000045_000093_000197_000265_000309_001909_001635_001743_009499_021897_036889_067449,
  1_051296_000001_000003_000001_000011_000015_000057_000031_000231_000363_000879_001377_001941_006969_010721_021933_033419_102939,
  1_051311_000001_000001_000003_000009_000003_000057_000049_000051_000071_000991_000885_001367_002937_009301_029893_009867_113711,
  1_051329_000001_000003_000007_000007_000011_000059_000123_000247_000051_000659_001323_003371_003417_012295_002021_062753_028059,
  1_051350_000001_000001_000007_000011_000003_000057_000053_000001_000203_000287_000219_003531_001365_006235_030187_004479_029567,
  1_051356_000001_000001_000007_000009_000005_000041_000041_000039_000137_000495_000149_002421_007365_011381_025403_016063_047491,
  1_051363_000001_000001_000005_000013_000025_000025_000047_000025_000213_000661_001345_000883_007573_003291_021303_008033_102639,
  1_051365_000001_000001_000005_000003_000009_000049_000075_000221_000455_000139_001533_003155_001023_007249_010129_063165_001713,
  1_051370_000001_000003_000005_000011_000017_000001_000023_000241_000083_000359_001243_002791_002975_006271_019035_055057_007625,
  1_051372_000001_000003_000001_000009_000017_000061_000109_000255_000447_000939_000899_000551_007049_004247_017333_043369_030105,
  1_051377_000001_000001_000003_000005_000003_000031_000079_000039_000225_000605_001893_003523_005391_006879_018619_002339_108295,
  1_051383_000001_000001_000005_000001_000029_000015_000123_000039_000239_000057_000843_002799_004755_004993_023383_045559_048359,
  1_051384_000001_000001_000005_000005_000007_000005_000099_000001_000351_000213_001061_000721_000343_016071_029641_055607_076727,
  1_051397_000001_000003_000001_000007_000009_000009_000015_000025_000087_000595_000071_003769_002583_010105_028639_048899_049753,
  1_051407_000001_000003_000005_000003_000031_000029_000099_000077_000323_000615_000581_001725_002471_016263_004903_000205_055441,
  1_051422_000001_000001_000005_000011_000017_000053_000047_000053_000125_000717_000867_001251_004009_013981_010165_004769_117431,
  1_051435_000001_000001_000003_000007_000007_000019_000119_000027_000163_000011_000693_003197_003981_012591_026017_062113_048391,
  1_051440_000001_000001_000003_000015_000013_000017_000013_000081_000019_000821_000677_000233_005227_014855_018269_018895_090041,
  1_051446_000001_000001_000003_000009_000027_000061_000125_000221_000415_000183_001137_001879_003451_003599_027317_053449_035499,
  1_051463_000001_000003_000003_000015_000003_000027_000053_000093_000017_000405_000373_002531_003121_002299_001593_034623_102389,
  1_051467_000001_000001_000001_000011_000023_000019_000085_000087_000209_000017_001805_004067_007401_006097_005865_061383_042971,
  1_051491_000001_000001_000007_000009_000029_000043_000099_000125_000385_000347_000097_001121_001533_010545_017383_048649_078443,
  1_051493_000001_000003_000003_000013_000007_000009_000095_000105_000463_000911_000357_000423_005701_002389_016307_017817_108775,
  1_051494_000001_000003_000005_000011_000021_000021_000079_000053_000511_000995_001709_001715_006031_010507_010735_048817_028569,
  1_051508_000001_000003_000005_000007_000031_000049_000043_000109_000267_000981_001529_003611_003379_001295_027489_046721_058423,
  1_051518_000001_000003_000003_000011_000003_000031_000021_000003_000079_000031_001885_003029_006337_015457_008995_009955_095019,
  1_051520_000001_000001_000007_000013_000009_000009_000077_000073_000111_000769_000813_001599_005925_001063_012151_054125_067723,
  1_051526_000001_000001_000001_000007_000013_000005_000043_000201_000379_000199_000769_003227_003995_001543_021903_010651_122007,
  1_051529_000001_000003_000007_000013_000011_000053_000083_000201_000231_000137_000617_002395_002513_006659_009387_015653_096927,
  1_051530_000001_000003_000001_000013_000029_000019_000097_000057_000231_000985_000805_001169_000831_015867_020195_053533_099735,
  1_051537_000001_000001_000003_000013_000019_000015_000019_000039_000099_000031_000421_000755_007439_004927_019893_015449_047937,
  1_051547_000001_000003_000003_000009_000001_000017_000071_000037_000289_000537_000069_003687_006537_012295_028403_006627_072991,
  1_051559_000001_000003_000003_000015_000031_000053_000021_000223_000451_000309_000895_003923_003149_005167_001979_031425_053485,
  1_051565_000001_000003_000001_000001_000029_000007_000005_000197_000445_000455_000185_000633_000897_004561_028833_039477_046665,
  1_051568_000001_000001_000003_000009_000029_000019_000045_000239_000323_001005_000101_002083_007403_010401_000987_032301_058141,
  1_051580_000001_000003_000003_000005_000031_000017_000007_000141_000245_000301_001607_003381_007517_006663_006327_015321_019963,
  1_051583_000001_000001_000007_000005_000005_000037_000109_000031_000285_000767_001689_002961_005511_015415_032011_014889_007237,
  1_051584_000001_000001_000003_000007_000031_000035_000047_000157_000407_000719_001213_001241_002475_010321_011547_052641_021603,
  1_051593_000001_000001_000001_000007_000005_000045_000035_000137_000403_000321_001151_000529_006297_003059_027791_018387_101431,
  1_051594_000001_000001_000003_000011_000021_000019_000097_000121_000377_000325_000741_001601_001115_006233_019089_040491_053259,
  1_051607_000001_000001_000001_000009_000003_000013_000083_000243_000443_000091_001455_001875_003327_007245_012735_014943_044163,
  1_051608_000001_000003_000005_000011_000001_000015_000107_000211_000025_000125_000623_001319_006133_012177_001377_032547_110919,
  1_051620_000001_000001_000003_000003_000007_000039_000023_000099_000433_000581_000053_003421_000733_012767_023595_022957_088821,
  1_051624_000001_000001_000001_000013_000005_000053_000103_000127_000409_000379_001155_003097_006529_011685_022147_046003_059771,
  1_051642_000001_000003_000003_000003_000015_000037_000009_000067_000237_000079_000697_001943_001021_003217_016013_014727_105729,
  1_051649_000001_000001_000007_000001_000009_000043_000055_000079_000063_000553_000871_002881_006487_004667_024263_041995_060907,
  1_051652_000001_000001_000007_000007_000023_000031_000055_000023_000451_000593_000085_000043_000965_012491_015121_016129_090639,
  1_051659_000001_000001_000007_000013_000011_000053_000021_000123_000237_000147_000511_002105_005961_004465_004015_019069_089203,
  1_051661_000001_000003_000005_000001_000001_000039_000059_000239_000391_000091_000923_000085_001047_001489_031119_058485_129171,
  1_051670_000001_000003_000005_000013_000003_000021_000035_000205_000219_000795_000901_002465_005887_000275_022003_029659_050589,
  1_051674_000001_000003_000001_000005_000001_000035_000127_000147_000159_000791_001643_001811_001199_003851_009681_019845_127075,
  1_051698_000001_000003_000003_000007_000017_000019_000013_000223_000395_000971_000125_000181_004455_013305_030433_046161_122277,
  1_051707_000001_000003_000001_000003_000019_000001_000015_000071_000425_000459_000655_002251_005525_007611_005819_001255_043107,
  1_051725_000001_000001_000005_000015_000003_000009_000083_000191_000439_000663_000399_002263_001857_015421_002079_002381_059193,
  1_051737_000001_000003_000005_000005_000001_000007_000009_000077_000347_000419_001329_003173_007295_003631_013435_003217_018053,
  1_051753_000001_000003_000003_000007_000029_000039_000035_000071_000119_000745_000603_002247_000377_003297_030983_027857_105739,
  1_051754_000001_000001_000005_000013_000009_000059_000057_000239_000247_000921_001383_002315_000241_004435_024661_006129_122727,
  1_051779_000001_000001_000005_000007_000003_000015_000039_000165_000027_000803_000609_003081_006009_012665_024155_051647_003857,
  1_051791_000001_000003_000005_000011_000027_000041_000061_000255_000195_000169_000557_001739_004029_001791_000471_016321_049801,
  1_051796_000001_000003_000007_000013_000017_000045_000035_000177_000109_000113_000551_000219_004065_000303_015489_025427_012349,
  1_051809_000001_000003_000005_000005_000025_000015_000079_000165_000231_000867_000483_003563_006611_011277_003193_037455_127373,
  1_051816_000001_000003_000003_000011_000025_000021_000047_000255_000027_000543_000485_002675_005893_003029_003857_050967_014681,
  1_051819_000001_000003_000007_000011_000003_000023_000081_000135_000077_000227_000417_001733_005175_015295_015985_050329_048641]

def dirRows17_2_9 : List Nat := [
  1_051827_000001_000003_000005_000001_000003_000047_000033_000067_000201_000235_001299_003703_001959_008091_011115_010869_009595,
  1_051829_000001_000003_000007_000013_000001_000045_000061_000049_000471_000923_001827_002175_001433_003473_003781_007923_121525,
  1_051834_000001_000003_000005_000007_000025_000059_000113_000019_000415_000839_000167_003549_007435_006573_000767_002751_018383,
  1_051836_000001_000003_000003_000001_000005_000011_000125_000241_000395_000423_000955_002551_000963_008197_030253_010473_028505,
  1_051846_000001_000001_000001_000003_000005_000031_000069_000103_000153_000505_001507_002827_000165_004943_008343_054253_087593,
  1_051849_000001_000003_000003_000001_000007_000037_000027_000075_000251_000623_000965_001907_006063_000761_000765_010103_043479,
  1_051855_000001_000001_000001_000013_000007_000021_000053_000219_000267_000057_000959_000579_002951_013797_003249_029895_047467,
  1_051858_000001_000001_000005_000009_000013_000007_000085_000107_000003_000635_001235_001339_003263_003895_025911_007521_034149,
  1_051869_000001_000001_000005_000015_000029_000037_000073_000043_000413_000993_000499_000719_001557_014397_011245_058197_127901,
  1_051870_000001_000001_000005_000015_000009_000037_000087_000057_000063_000337_000927_001887_006407_011237_023233_053567_120449,
  1_051874_000001_000001_000003_000007_000027_000011_000085_000227_000159_000849_000647_001977_004623_007343_008089_004251_026609,
  1_051918_000001_000001_000005_000011_000011_000003_000105_000191_000189_000627_000367_003935_006647_013069_026195_023137_056427,
  1_051926_000001_000001_000003_000003_000029_000051_000039_000003_000437_001011_001061_001747_003051_011165_008155_009723_041035,
  1_051932_000001_000003_000007_000015_000009_000043_000079_000195_000265_000395_001349_000337_000911_015767_003593_042859_070181,
  1_051936_000001_000003_000007_000007_000011_000047_000011_000085_000489_000801_001177_003861_003517_009209_027505_012291_035691,
  1_051948_000001_000001_000003_000009_000015_000061_000071_000123_000287_000419_001079_003489_003519_012739_021341_024323_033961,
  1_051954_000001_000003_000007_000003_000009_000017_000119_000137_000389_000391_000601_001875_002197_005271_013289_043597_043279,
  1_051959_000001_000003_000007_000015_000029_000035_000041_000171_000183_000701_001673_000981_005479_000021_011353_064953_088189,
  1_051971_000001_000003_000003_000013_000015_000035_000035_000081_000297_000245_000475_000393_005401_012369_021129_065213_125013,
  1_051983_000001_000001_000007_000013_000015_000057_000025_000143_000389_000111_001219_002195_000769_009005_010367_039435_003631,
  1_051992_000001_000003_000003_000013_000009_000029_000009_000047_000127_000377_001195_001221_005751_015481_010537_029909_112691,
  1_051997_000001_000001_000003_000005_000017_000047_000029_000001_000299_000651_001023_001601_005917_003781_018421_042393_051789,
  1_052016_000001_000003_000003_000015_000031_000051_000101_000147_000367_000159_000359_000705_003773_008649_031373_005733_058287,
  1_052021_000001_000003_000005_000011_000011_000051_000055_000079_000147_000917_001945_001725_000289_012777_030099_003013_091527,
  1_052031_000001_000001_000007_000013_000001_000051_000033_000027_000169_000573_000117_002479_000761_001283_032723_013589_088821,
  1_052033_000001_000001_000001_000003_000023_000013_000033_000207_000137_000391_001309_004093_006889_000827_009331_057113_110193,
  1_052034_000001_000001_000001_000013_000015_000057_000115_000053_000059_000443_000001_003545_006923_006603_008631_041703_008519,
  1_052048_000001_000001_000005_000005_000025_000029_000053_000153_000107_000423_001829_002469_001843_000889_031727_020701_006343,
  1_052053_000001_000001_000007_000013_000011_000041_000007_000219_000077_000663_000329_002639_001111_001293_016771_020731_046973,
  1_052057_000001_000003_000003_000015_000023_000019_000045_000107_000111_000155_001595_001821_000471_006089_021587_049259_085393,
  1_052067_000001_000003_000001_000003_000027_000021_000039_000227_000359_000885_000449_002615_003519_005377_016017_057159_082399,
  1_052076_000001_000003_000003_000015_000031_000033_000077_000033_000087_000821_000701_002859_001777_003007_016757_005447_003557,
  1_052079_000001_000001_000001_000015_000011_000031_000127_000079_000363_000341_000169_003451_006351_006867_013511_000833_103151,
  1_052081_000001_000003_000005_000007_000027_000023_000005_000067_000159_000535_000103_000843_008187_006891_019169_022565_095255,
  1_052109_000001_000003_000005_000005_000015_000027_000053_000049_000343_000815_001203_001031_006359_001337_001629_047783_103391,
  1_052127_000001_000003_000001_000001_000013_000019_000051_000185_000045_000549_000619_002247_002541_010421_031507_060785_087139,
  1_052128_000001_000003_000001_000015_000029_000009_000047_000127_000041_000767_001375_002183_007169_012855_015021_000377_069327,
  1_052133_000001_000001_000003_000009_000005_000023_000023_000203_000101_000809_001155_002885_003901_003081_001827_065373_106133,
  1_052148_000001_000003_000003_000013_000003_000021_000073_000135_000353_000905_001757_001361_003801_015541_002261_017159_018037,
  1_052155_000001_000001_000007_000007_000027_000023_000057_000033_000225_000407_001709_001159_006353_013341_015883_017339_050423,
  1_052157_000001_000001_000003_000015_000013_000021_000033_000091_000183_000975_001623_003187_005495_008947_007031_019687_104483,
  1_052172_000001_000003_000005_000007_000017_000025_000077_000001_000335_000085_001783_002617_004463_003807_012883_024487_066205,
  1_052178_000001_000001_000003_000015_000023_000037_000083_000093_000211_000757_000903_002681_000049_000435_021057_063635_036489,
  1_052184_000001_000003_000001_000013_000003_000045_000063_000057_000065_000021_000627_001467_000051_015887_027465_059227_108233,
  1_052199_000001_000001_000007_000005_000015_000041_000053_000057_000301_000677_000803_001675_006937_003159_014281_022355_037783,
  1_052200_000001_000001_000005_000013_000015_000043_000039_000245_000191_000875_001505_002085_003903_000185_024461_028939_098771,
  1_052205_000001_000001_000007_000009_000017_000025_000029_000031_000439_000159_000533_003177_004155_000403_023735_061817_121909,
  1_052206_000001_000001_000003_000015_000029_000043_000111_000047_000483_000513_000063_002423_004979_005159_015499_033391_051575,
  1_052232_000001_000001_000005_000015_000015_000043_000013_000041_000445_000929_001365_002023_006173_006067_030969_051457_051179,
  1_052237_000001_000003_000003_000011_000015_000017_000093_000235_000159_000599_000635_001113_001017_007413_007737_020051_079127,
  1_052243_000001_000001_000001_000015_000005_000019_000081_000065_000479_000119_001831_002515_002929_015395_031607_029969_049935,
  1_052246_000001_000003_000001_000013_000023_000047_000045_000151_000051_000217_000803_003265_005907_014371_008287_025659_027655,
  1_052252_000001_000001_000001_000013_000013_000053_000011_000063_000501_000487_001683_001147_004693_002761_019359_002215_112393,
  1_052261_000001_000003_000003_000001_000031_000015_000061_000237_000129_000119_000135_000039_006509_003753_016997_003841_024521,
  1_052265_000001_000003_000005_000007_000005_000027_000113_000251_000217_000923_000229_002259_005241_006331_006773_041929_089605,
  1_052266_000001_000001_000005_000009_000017_000041_000021_000185_000095_000137_001151_000195_000913_000531_015731_022893_093521,
  1_052273_000001_000001_000005_000001_000029_000057_000123_000011_000345_000581_000227_001539_007527_008537_016429_008437_018953,
  1_052274_000001_000001_000003_000007_000007_000021_000103_000239_000115_000513_001287_003717_000331_005453_018943_017247_064975,
  1_052288_000001_000003_000007_000011_000021_000037_000079_000083_000093_000155_001297_001371_001109_006569_021137_029237_024007,
  1_052300_000001_000001_000001_000013_000017_000011_000127_000089_000397_000497_001017_000721_002837_005623_031745_052243_107225,
  1_052303_000001_000001_000007_000009_000015_000043_000029_000215_000449_000233_000313_002587_002903_002735_004539_050481_085279,
  1_052321_000001_000001_000003_000015_000013_000035_000109_000211_000299_000255_001595_000533_001801_013965_025277_052347_013447,
  1_052322_000001_000001_000001_000015_000009_000023_000115_000119_000207_000973_001339_001315_006465_009917_004593_065435_002515,
  1_052328_000001_000003_000003_000003_000007_000025_000115_000115_000213_000845_001445_001217_001563_012491_005197_044409_079895,
  1_052333_000001_000001_000001_000003_000009_000033_000031_000203_000019_000895_001145_002893_004807_007501_006999_054883_013797,
  1_052351_000001_000001_000003_000001_000019_000051_000073_000029_000451_000533_000083_002477_000335_009703_009747_057427_069443,
  1_052357_000001_000001_000007_000005_000021_000011_000053_000133_000165_000291_000591_001419_003661_004697_021363_053467_084063,
  1_052372_000001_000001_000007_000003_000013_000007_000085_000049_000193_000289_001531_000709_002351_012085_028553_057145_129517,
  1_052381_000001_000001_000001_000001_000017_000019_000013_000213_000075_000977_000811_001813_007293_013795_028569_028133_011949,
  1_052386_000001_000001_000005_000001_000027_000011_000047_000089_000271_000065_001651_002331_003289_006227_015027_019959_022945,
  1_052395_000001_000003_000007_000009_000017_000037_000017_000245_000249_000501_000405_000951_003005_009757_010265_035575_070529,
  1_052403_000001_000003_000001_000015_000021_000047_000015_000075_000113_000045_000125_001393_003361_013477_024325_039743_067409,
  1_052423_000001_000003_000005_000001_000013_000003_000033_000051_000463_000241_001421_001607_003937_003405_026653_033955_097915,
  1_052427_000001_000003_000007_000013_000029_000017_000041_000193_000461_000787_000459_004019_001887_013831_009387_025215_069801,
  1_052432_000001_000003_000001_000011_000031_000055_000013_000235_000085_000953_000109_000233_001893_013225_026165_059237_015845,
  1_052438_000001_000001_000001_000013_000011_000043_000127_000193_000143_000831_000875_002471_007011_003063_021979_042113_080581,
  1_052444_000001_000003_000007_000001_000005_000001_000063_000055_000349_000525_000441_002695_003301_015737_013355_016727_025001,
  1_052457_000001_000003_000007_000007_000031_000023_000087_000099_000331_000101_001341_000003_001447_009507_018627_002503_057597,
  1_052468_000001_000001_000001_000009_000011_000019_000089_000141_000269_000031_001933_000429_007765_005905_015327_025913_017281,
  1_052480_000001_000003_000001_000009_000023_000061_000075_000015_000121_000635_001409_000615_007841_011993_001637_026073_070763,
  1_052498_000001_000003_000003_000001_000005_000063_000085_000003_000443_000087_001201_000275_003457_016187_026839_016593_036335,
  1_052516_000001_000001_000005_000005_000027_000061_000001_000145_000287_000563_001135_002703_000733_010209_003937_023807_056857,
  1_052520_000001_000003_000003_000007_000001_000041_000097_000155_000305_000395_001607_001171_001061_012301_008041_012111_066831,
  1_052525_000001_000003_000007_000015_000009_000061_000127_000225_000125_000231_000087_002433_006951_002999_024859_061685_111943,
  1_052531_000001_000003_000005_000015_000013_000039_000087_000057_000305_000469_001929_001559_001383_002779_003883_000845_045181,
  1_052540_000001_000001_000001_000015_000019_000001_000023_000041_000207_000731_000501_001147_006543_005011_000483_056889_048993,
  1_052545_000001_000003_000003_000015_000021_000035_000075_000129_000441_000497_000953_000201_006849_002893_006351_062163_084127,
  1_052546_000001_000001_000001_000009_000021_000031_000091_000079_000345_000649_001529_000805_004931_012887_030167_052305_092561,
  1_052552_000001_000001_000005_000001_000003_000021_000121_000223_000067_000185_000801_000889_007443_008419_019929_011451_011487,
  1_052557_000001_000001_000003_000015_000021_000051_000119_000031_000197_000773_000617_002055_000799_009105_012353_033635_027589,
  1_052569_000001_000003_000005_000003_000027_000011_000041_000105_000289_000877_001175_003111_003161_012537_018001_038061_059089,
  1_052575_000001_000003_000003_000005_000003_000027_000101_000253_000225_000915_001757_001601_003391_010443_003983_058427_093391,
  1_052582_000001_000003_000001_000007_000009_000043_000085_000115_000169_000285_001267_003791_002701_005599_010099_048105_045219,
  1_052594_000001_000001_000007_000013_000025_000057_000035_000223_000265_000451_001913_002715_008017_003725_007079_034611_061159,
  1_052615_000001_000001_000003_000007_000023_000027_000093_000195_000449_000845_000865_000655_004263_012743_007467_007929_007095,
  1_052619_000001_000003_000005_000005_000029_000051_000109_000123_000227_000693_002033_003829_007187_004027_017861_045093_007355,
  1_052624_000001_000001_000001_000011_000027_000031_000127_000075_000443_000479_000865_001377_000711_003791_027235_017405_025975,
  1_052645_000001_000003_000005_000007_000001_000049_000079_000167_000471_000453_000211_000265_008163_006517_003413_017283_051961,
  1_052663_000001_000003_000001_000005_000017_000029_000015_000239_000385_000239_000425_002197_003553_014913_014889_031645_067477,
  1_052664_000001_000003_000003_000005_000001_000011_000025_000105_000367_000253_001395_002077_002613_004535_018215_037657_048283]

def dirRows17_2_10 : List Nat := [
  1_052675_000001_000003_000003_000001_000001_000041_000007_000161_000437_000659_000833_003175_002063_014497_006655_008817_127321,
  1_052687_000001_000003_000001_000011_000017_000027_000003_000051_000075_000183_001889_000287_005429_014007_014445_047395_094543,
  1_052696_000001_000001_000007_000013_000029_000009_000109_000019_000073_000003_001529_000457_006413_004113_014733_024455_044623,
  1_052701_000001_000003_000001_000015_000015_000031_000083_000025_000263_000229_001801_000377_001703_008571_010393_052021_100937,
  1_052706_000001_000003_000005_000009_000025_000057_000079_000019_000117_000437_000275_003439_006393_002111_008317_003521_096927,
  1_052708_000001_000003_000001_000013_000027_000043_000103_000171_000361_000949_000347_000809_005819_002763_010447_035129_046985,
  1_052711_000001_000003_000005_000011_000017_000001_000027_000037_000473_000851_001057_000831_004373_005179_018193_048731_064317,
  1_052726_000001_000003_000001_000007_000017_000005_000019_000217_000439_000549_001983_002473_006059_005271_010279_007793_114357,
  1_052748_000001_000003_000001_000005_000025_000019_000099_000065_000507_000527_000825_002517_002299_001725_009913_005779_012207,
  1_052754_000001_000003_000001_000001_000029_000041_000119_000027_000411_000475_000461_001885_002339_004945_024665_013621_078129,
  1_052756_000001_000003_000001_000011_000027_000029_000119_000155_000487_000029_001545_000675_001417_006119_012451_021345_039377,
  1_052759_000001_000001_000003_000007_000019_000005_000111_000227_000049_000307_000549_000737_004793_013885_022971_018653_069573,
  1_052769_000001_000003_000003_000001_000027_000059_000087_000007_000379_000497_000903_000591_006105_001957_025849_055957_120181,
  1_052784_000001_000003_000005_000015_000019_000031_000043_000001_000035_000341_000311_001343_003625_016181_031047_059679_089231,
  1_052790_000001_000001_000001_000015_000021_000019_000093_000229_000049_000597_001465_002027_005935_012269_020239_017861_026311,
  1_052804_000001_000001_000001_000001_000003_000031_000115_000087_000129_000419_000871_002469_003807_004473_025025_036923_067959,
  1_052807_000001_000001_000001_000003_000023_000031_000041_000247_000295_000369_001131_002183_008097_007609_004387_037565_050177,
  1_052808_000001_000003_000001_000011_000009_000017_000111_000249_000417_000775_000217_001435_006295_005065_002967_055361_091933,
  1_052819_000001_000003_000005_000007_000019_000021_000071_000219_000411_000031_000335_002915_003687_005691_012405_034659_076721,
  1_052826_000001_000003_000005_000013_000029_000031_000095_000203_000149_000399_000547_002529_002485_003371_020219_033647_034217,
  1_052828_000001_000003_000005_000013_000031_000041_000097_000115_000427_000035_001319_002335_000715_002541_004507_049395_033895,
  1_052832_000001_000003_000007_000015_000003_000049_000003_000049_000153_000093_001343_001035_005685_015855_015751_027663_099553,
  1_052835_000001_000001_000007_000005_000027_000007_000053_000135_000453_000981_001767_003503_001259_011973_023259_041051_096593,
  1_052849_000001_000001_000007_000009_000005_000059_000057_000141_000041_000639_001681_000145_007019_006621_014221_012051_071871,
  1_052859_000001_000001_000003_000001_000013_000039_000007_000187_000007_000919_001555_002111_006507_002099_010643_022851_082033,
  1_052877_000001_000003_000007_000009_000025_000059_000027_000225_000239_000715_001115_002309_007785_011849_008991_054305_107305,
  1_052880_000001_000001_000007_000011_000021_000051_000001_000223_000481_000195_002005_002651_006797_012201_011013_001843_065167,
  1_052896_000001_000003_000003_000011_000027_000003_000117_000005_000255_000595_000399_001329_001437_012061_032679_016655_076235,
  1_052899_000001_000001_000007_000013_000021_000001_000035_000159_000329_000037_001247_002663_003889_014603_025799_045363_087963,
  1_052905_000001_000001_000007_000007_000007_000011_000053_000215_000351_000329_001039_000969_004449_014785_028617_025953_078663,
  1_052913_000001_000001_000007_000007_000027_000017_000019_000223_000143_000433_000789_001941_005527_000711_025097_004571_121975,
  1_052933_000001_000003_000001_000013_000011_000047_000031_000249_000325_001003_000509_002741_003953_001691_012661_016097_080211,
  1_052934_000001_000003_000007_000009_000027_000011_000021_000129_000025_000057_001523_003631_002639_002541_014249_034539_070551,
  1_052938_000001_000001_000005_000003_000031_000047_000047_000073_000071_000783_001353_002157_002563_014015_000997_031611_118649,
  1_052957_000001_000001_000005_000005_000025_000035_000025_000207_000349_000503_000121_003455_005783_010899_012745_035117_036679,
  1_052979_000001_000003_000001_000003_000011_000039_000123_000177_000019_000441_001979_001257_001351_004253_015145_044559_059379,
  1_052981_000001_000003_000007_000003_000007_000035_000041_000203_000439_001013_001055_001165_001043_011183_001795_031253_113693,
  1_052986_000001_000003_000001_000013_000007_000043_000057_000001_000229_000345_000631_000841_007923_005971_020489_047917_066833,
  1_053005_000001_000001_000001_000015_000027_000005_000031_000117_000153_000755_001207_000619_008185_004329_009979_057255_079045,
  1_053008_000001_000003_000003_000007_000023_000001_000007_000227_000337_000417_001895_000765_007799_013599_027253_004485_112391,
  1_053024_000001_000003_000005_000013_000027_000063_000005_000087_000101_000351_000953_002235_001587_005479_026529_034165_083303,
  1_053029_000001_000001_000005_000015_000001_000043_000063_000193_000143_000711_001779_003531_001355_016253_014595_032343_131021,
  1_053054_000001_000001_000001_000009_000029_000037_000029_000071_000011_000877_001301_002415_005593_001855_025223_006805_012901,
  1_053073_000001_000001_000007_000009_000031_000005_000049_000063_000185_000373_000129_001695_007841_004477_017809_042771_120221,
  1_053083_000001_000001_000005_000003_000015_000043_000049_000045_000047_000775_000699_002787_007831_004189_018317_063933_083669,
  1_053086_000001_000003_000005_000003_000023_000033_000085_000255_000119_000685_001245_001647_001999_013063_009241_049017_032619,
  1_053095_000001_000001_000007_000015_000029_000015_000125_000233_000189_000411_001251_003459_007213_010081_004403_056819_017103,
  1_053102_000001_000003_000003_000011_000021_000013_000093_000125_000213_000793_001057_002363_000661_012213_002259_003787_091451,
  1_053107_000001_000003_000005_000005_000019_000035_000005_000153_000507_000691_001743_001777_007579_014229_010155_018529_035945,
  1_053126_000001_000003_000007_000005_000027_000035_000013_000077_000189_000793_000877_000643_002787_005817_022589_058363_049059,
  1_053130_000001_000003_000007_000009_000009_000037_000021_000251_000119_000895_001023_000091_004317_010943_007355_036961_036903,
  1_053138_000001_000003_000003_000013_000019_000049_000015_000105_000399_000029_001903_003503_003453_015429_031503_057815_034009,
  1_053144_000001_000001_000005_000001_000019_000035_000049_000097_000335_000665_001871_000887_004713_000517_009571_041601_009673,
  1_053156_000001_000003_000005_000013_000029_000045_000111_000233_000251_000407_001135_002791_006525_011633_022295_065381_117511,
  1_053163_000001_000001_000003_000003_000017_000007_000065_000043_000391_000091_000315_003559_000479_007337_025629_000785_019855,
  1_053165_000001_000001_000005_000009_000029_000031_000067_000017_000381_000875_001001_000415_002263_004415_011263_000309_117623,
  1_053173_000001_000001_000007_000011_000025_000001_000059_000061_000247_000649_000687_000907_001037_013935_007229_039769_092755,
  1_053177_000001_000003_000005_000015_000021_000051_000027_000079_000343_000785_001567_001349_007991_008531_011243_061351_021297,
  1_053183_000001_000001_000001_000003_000031_000041_000067_000169_000083_000959_000813_001953_002467_012369_031431_050761_075731,
  1_053192_000001_000001_000005_000011_000025_000037_000083_000163_000003_000161_001249_003009_007167_005473_010561_044899_130879,
  1_053195_000001_000001_000007_000011_000009_000061_000061_000113_000081_000205_000731_003887_005525_013415_025181_011557_059343,
  1_053200_000001_000003_000007_000005_000019_000027_000107_000089_000295_000715_001439_001285_005813_008895_007233_032905_003273,
  1_053212_000001_000001_000005_000001_000029_000011_000125_000253_000445_000295_001721_001271_002203_002215_007613_055655_112157,
  1_053219_000001_000001_000005_000011_000011_000013_000111_000055_000019_000551_001365_000477_002513_012311_022485_023291_092447,
  1_053221_000001_000001_000007_000011_000009_000005_000003_000109_000507_000441_001767_001781_003077_000219_029293_021237_071159,
  1_053245_000001_000001_000003_000011_000003_000045_000099_000113_000367_000569_001907_001281_000051_013693_014639_032999_077461,
  1_053254_000001_000003_000005_000011_000005_000019_000097_000011_000473_000937_001623_001507_003245_009331_016005_037505_040085,
  1_053257_000001_000001_000007_000013_000021_000061_000103_000111_000035_000141_000061_001043_001989_001311_029021_002617_089915,
  1_053265_000001_000003_000007_000015_000019_000031_000039_000175_000371_000459_001293_001645_001125_001199_004811_055721_076071,
  1_053266_000001_000001_000007_000003_000003_000035_000017_000007_000091_000317_001615_003559_000191_002579_015027_058711_036009,
  1_053268_000001_000001_000001_000013_000001_000027_000045_000087_000443_000443_000853_003917_001437_004053_014861_002897_109853,
  1_053275_000001_000001_000005_000003_000021_000047_000073_000195_000115_000517_001781_002341_000805_005679_012053_029113_100479,
  1_053277_000001_000001_000007_000001_000025_000027_000061_000167_000203_000057_000527_001071_007131_008403_009943_011503_033081,
  1_053284_000001_000001_000005_000013_000031_000043_000035_000195_000177_000229_001401_004011_002363_015787_021125_032103_062337,
  1_053294_000001_000001_000005_000011_000019_000013_000003_000249_000119_000035_000747_001419_005451_013043_019813_054859_094825,
  1_053308_000001_000003_000001_000009_000017_000013_000051_000125_000391_000157_001199_001805_001763_011831_020915_038547_014221,
  1_053314_000001_000001_000007_000001_000023_000061_000025_000069_000435_000183_001379_001211_005529_009447_004575_014127_091867,
  1_053319_000001_000003_000003_000015_000011_000015_000101_000135_000419_000685_001097_000787_002045_003393_026221_023653_116917,
  1_053326_000001_000003_000001_000011_000029_000023_000013_000153_000027_000683_001569_000413_000261_010291_023763_015579_039337,
  1_053328_000001_000003_000007_000007_000019_000023_000121_000023_000339_000165_001137_002791_000319_016111_014847_028171_079237,
  1_053340_000001_000003_000001_000005_000009_000059_000033_000019_000191_000707_001883_001683_001161_012905_012299_022201_019811,
  1_053364_000001_000003_000001_000003_000027_000011_000069_000199_000415_000251_001079_001709_004539_007867_021321_033617_053459,
  1_053367_000001_000001_000003_000009_000019_000059_000021_000095_000275_000213_001819_000721_006271_011845_009573_016105_012755,
  1_053377_000001_000001_000001_000015_000023_000007_000091_000235_000043_000095_000913_000715_003229_012339_023089_030963_129525,
  1_053395_000001_000001_000007_000009_000007_000041_000043_000131_000485_000621_001293_001955_005215_006545_029225_053587_046901,
  1_053398_000001_000003_000001_000005_000007_000057_000097_000199_000225_000707_001223_001829_000497_012587_024551_012907_082411,
  1_053407_000001_000001_000003_000007_000021_000009_000063_000015_000263_000957_000155_004021_004455_002025_016981_019743_088619,
  1_053413_000001_000001_000007_000005_000031_000003_000027_000045_000369_000747_001559_001429_008049_015069_019897_050067_052861,
  1_053414_000001_000001_000005_000013_000023_000035_000091_000139_000073_000275_000207_002709_003801_012755_019155_061629_005513,
  1_053417_000001_000001_000005_000007_000005_000025_000033_000045_000325_000847_000081_000891_003191_014115_025095_039867_003839,
  1_053443_000001_000003_000005_000013_000009_000031_000031_000113_000507_000833_000691_002041_004873_000081_021365_035265_037627,
  1_053473_000001_000001_000005_000013_000009_000051_000127_000131_000285_000683_000593_003411_006685_003601_012255_008337_080597,
  1_053476_000001_000001_000005_000015_000029_000013_000079_000199_000157_000421_001697_002063_002213_004141_021045_045785_124023,
  1_053480_000001_000003_000001_000011_000019_000005_000079_000057_000071_000373_000487_000671_003671_009093_020989_048477_104951,
  1_053486_000001_000003_000005_000015_000013_000007_000039_000243_000507_000739_001905_003431_004141_009345_027877_064735_112997,
  1_053506_000001_000003_000003_000005_000017_000025_000031_000243_000393_000061_000199_002825_006981_005887_022289_009201_077689,
  1_053542_000001_000003_000005_000015_000015_000063_000077_000039_000463_000883_000671_003285_006925_015085_001665_064005_130619,
  1_053546_000001_000003_000003_000011_000021_000015_000007_000115_000009_000879_001097_003993_003929_009809_022105_009549_031819,
  1_053554_000001_000001_000007_000015_000003_000009_000019_000097_000327_000105_001915_000205_003873_001229_029915_057375_108217,
  1_053563_000001_000001_000003_000011_000029_000041_000077_000011_000183_000073_001651_003739_003911_008695_015339_019293_001827]

def dirRows17_2_11 : List Nat := [
  1_053580_000001_000001_000001_000005_000023_000049_000035_000175_000099_000049_000615_001733_006901_002351_018765_055553_099791,
  1_053591_000001_000003_000007_000003_000025_000017_000067_000161_000507_000941_000035_002619_000339_000791_006485_064277_123867,
  1_053598_000001_000001_000003_000013_000011_000009_000079_000193_000075_000391_001753_003537_006971_006607_011933_004447_087793,
  1_053611_000001_000001_000001_000005_000019_000009_000063_000203_000051_000395_001365_002393_007265_011709_013721_004519_118765,
  1_053621_000001_000001_000003_000009_000017_000053_000029_000103_000325_000973_000903_000785_007535_009951_008121_012603_038679,
  1_053625_000001_000003_000001_000007_000007_000063_000001_000123_000439_000181_001373_002705_000995_010789_007495_054543_120109,
  1_053628_000001_000001_000007_000003_000017_000013_000079_000179_000165_000965_001537_003753_003497_012127_006983_048605_113057,
  1_053632_000001_000001_000005_000007_000003_000007_000041_000025_000267_000633_000019_001317_003445_012377_027881_055249_040841,
  1_053650_000001_000003_000005_000001_000031_000055_000043_000129_000411_000281_000001_000851_002419_007943_013721_039371_114557,
  1_053655_000001_000001_000007_000007_000023_000019_000083_000037_000009_000161_000125_003179_007973_009703_023199_032723_130915,
  1_053675_000001_000001_000007_000005_000027_000021_000011_000219_000403_000239_001723_002957_003029_009911_010981_035421_074025,
  1_053677_000001_000003_000001_000001_000031_000059_000069_000077_000395_000001_000157_001259_004913_002089_017619_051033_130899,
  1_053680_000001_000003_000003_000003_000019_000011_000083_000237_000103_000921_000487_001833_008187_003811_018887_009389_080927,
  1_053683_000001_000003_000007_000003_000017_000051_000107_000209_000187_000831_001501_001337_000803_010361_011347_065291_042219,
  1_053700_000001_000003_000003_000015_000007_000029_000061_000025_000413_000257_001185_004009_007463_001839_006645_028389_014449,
  1_053709_000001_000003_000001_000009_000005_000031_000083_000055_000375_000399_000945_000997_007649_012631_007691_053325_050173,
  1_053724_000001_000001_000005_000009_000013_000009_000083_000037_000487_000975_000487_003587_007285_007505_010155_000673_126505,
  1_053731_000001_000003_000005_000007_000021_000003_000035_000021_000367_000323_001579_003351_005465_013719_017033_042573_055079,
  1_053733_000001_000003_000003_000015_000011_000027_000121_000109_000267_000855_001417_003839_006535_001051_029355_023815_076031,
  1_053738_000001_000001_000007_000009_000005_000031_000035_000053_000369_000137_001545_000927_000825_001333_013637_011003_096963,
  1_053762_000001_000001_000005_000003_000029_000041_000031_000085_000035_000477_000227_003325_001213_000681_014591_031325_012199,
  1_053767_000001_000003_000007_000011_000011_000011_000033_000255_000335_000747_000855_000031_006101_000293_020423_047521_062573,
  1_053785_000001_000001_000001_000015_000031_000015_000033_000175_000321_000441_001197_003579_004989_009275_030485_001077_122947,
  1_053786_000001_000003_000005_000015_000023_000021_000127_000223_000249_000373_001309_001469_005701_009097_029897_026627_038489,
  1_053795_000001_000003_000007_000003_000003_000035_000083_000149_000259_000315_001467_001953_006035_007961_010901_025171_130713,
  1_053802_000001_000001_000003_000009_000007_000063_000055_000033_000375_000421_000151_001721_001999_014937_017539_048323_097345,
  1_053812_000001_000001_000005_000005_000003_000021_000047_000019_000227_000131_001591_003779_000929_013879_013489_019805_020135,
  1_053821_000001_000001_000007_000001_000031_000025_000087_000125_000213_000135_000809_003067_005035_007407_002193_031423_123973,
  1_053827_000001_000003_000005_000013_000017_000019_000077_000169_000345_000115_000227_000649_003609_015063_001895_017533_095859,
  1_053833_000001_000003_000005_000015_000017_000029_000017_000011_000145_000601_001871_000851_008161_014029_010039_004247_062393,
  1_053841_000001_000001_000007_000013_000025_000005_000049_000231_000261_000071_000335_004081_007915_011367_017087_026041_128737,
  1_053848_000001_000001_000001_000013_000013_000021_000077_000113_000373_001005_000109_002877_003001_015011_002465_037015_069049,
  1_053869_000001_000001_000003_000015_000031_000033_000119_000121_000041_000009_001567_000577_001687_012117_017049_000675_010729,
  1_053897_000001_000003_000005_000011_000031_000007_000047_000041_000127_000081_000273_001649_000975_003953_017021_024163_012599,
  1_053905_000001_000003_000001_000003_000027_000041_000075_000237_000317_000085_001995_002255_002191_006441_026629_025797_097681,
  1_053912_000001_000001_000001_000003_000011_000005_000031_000109_000227_000977_000059_000793_003305_010905_016529_021345_002403,
  1_053921_000001_000003_000005_000009_000009_000037_000107_000129_000421_000383_001415_000885_003383_009547_007303_041745_059919,
  1_053928_000001_000001_000007_000007_000029_000027_000059_000177_000097_000299_001019_001393_007763_005715_009253_058035_023431,
  1_053948_000001_000003_000003_000003_000023_000013_000051_000101_000075_000857_001699_002687_003983_010427_019845_049503_096033,
  1_053954_000001_000001_000001_000007_000021_000051_000025_000071_000265_000999_001259_000625_000775_011045_020769_042597_115521,
  1_053968_000001_000003_000001_000013_000025_000047_000021_000245_000201_000667_001193_001087_000407_006057_014929_035291_057615,
  1_053977_000001_000001_000001_000007_000027_000025_000093_000085_000321_001009_001045_001901_000349_011393_010917_010413_094125,
  1_053983_000001_000001_000001_000015_000003_000063_000059_000051_000307_000135_000785_001921_006921_005689_008487_021061_069903,
  1_053984_000001_000003_000007_000001_000013_000047_000059_000155_000107_000573_000843_002849_006685_005927_031747_021541_094271,
  1_054002_000001_000001_000007_000015_000023_000007_000085_000169_000209_000527_001027_003745_004773_014893_010789_001243_087133,
  1_054007_000001_000001_000005_000009_000001_000001_000053_000057_000245_000899_001785_001951_007651_010909_030167_040789_066965,
  1_054013_000001_000001_000001_000007_000017_000033_000065_000079_000455_000677_000157_001313_001573_009697_004161_004609_042783,
  1_054014_000001_000003_000007_000007_000027_000015_000109_000113_000239_000521_000563_002493_001471_015817_014515_048465_066009,
  1_054021_000001_000003_000005_000003_000029_000033_000125_000169_000483_000593_001665_000657_003799_015829_029591_025813_040987,
  1_054026_000001_000003_000001_000011_000015_000025_000021_000215_000341_000241_001599_003807_006633_015137_015377_056881_047499,
  1_054028_000001_000003_000003_000003_000015_000049_000089_000117_000191_000641_000675_002671_004243_001617_020261_042669_119173,
  1_054031_000001_000001_000001_000013_000013_000043_000073_000103_000183_000239_000555_002121_004889_001431_020601_021545_011809,
  1_054036_000001_000003_000001_000009_000009_000009_000121_000051_000077_000455_001481_000427_001961_012149_021273_016295_021909,
  1_054067_000001_000001_000005_000011_000019_000055_000037_000063_000493_000663_000945_002191_002491_011545_007407_036295_094293,
  1_054069_000001_000003_000005_000015_000025_000035_000103_000033_000171_000425_000409_000005_002519_002239_030557_020007_069079,
  1_054074_000001_000001_000005_000011_000013_000029_000071_000021_000035_000833_000191_000365_007013_012413_010227_056705_061705,
  1_054076_000001_000001_000001_000001_000021_000013_000087_000113_000063_000537_000283_000925_002147_001683_031239_002775_131021,
  1_054105_000001_000001_000003_000009_000023_000001_000117_000019_000487_000235_000877_000149_000369_009615_012501_060175_035741,
  1_054111_000001_000001_000007_000009_000005_000025_000107_000199_000339_000755_000245_002861_001119_014683_002221_005227_081479,
  1_054118_000001_000001_000001_000015_000005_000015_000037_000063_000511_000219_000783_003245_005563_013231_022311_016803_010393,
  1_054129_000001_000003_000007_000005_000001_000015_000009_000021_000287_000991_000555_000771_007683_001661_006553_043735_118713,
  1_054145_000001_000003_000001_000003_000003_000029_000119_000157_000013_000599_000537_002921_005207_011621_001515_006351_118429,
  1_054157_000001_000001_000005_000001_000027_000039_000111_000117_000481_000025_000549_000913_006427_007703_023099_050501_007617,
  1_054158_000001_000001_000007_000005_000029_000063_000043_000151_000063_000043_000197_003165_003879_012435_000461_064475_060597,
  1_054163_000001_000003_000001_000011_000031_000035_000059_000207_000387_000441_001293_002117_003751_012653_002811_042585_033297,
  1_054166_000001_000003_000007_000015_000027_000047_000013_000015_000135_000433_000615_000001_000171_011503_027117_064635_122191,
  1_054172_000001_000001_000007_000001_000023_000023_000107_000135_000311_000395_000373_002771_000081_012513_016739_006715_094999,
  1_054185_000001_000003_000005_000007_000019_000009_000021_000139_000307_000231_000065_000059_007767_002897_003503_058163_048807,
  1_054186_000001_000003_000005_000013_000023_000005_000051_000247_000125_000911_001395_001337_003215_015811_012729_021495_022597,
  1_054188_000001_000003_000005_000005_000001_000019_000123_000125_000197_000533_001699_001397_003473_015201_024493_003395_098261,
  1_054208_000001_000001_000003_000007_000029_000039_000069_000097_000353_000293_001103_000543_005015_009913_006965_061921_122073,
  1_054223_000001_000001_000003_000013_000019_000041_000117_000253_000449_000231_000865_003055_004751_003277_022863_003249_038359,
  1_054237_000001_000003_000005_000013_000009_000007_000107_000017_000251_000501_001925_003733_005035_013213_012535_013705_073047,
  1_054241_000001_000003_000007_000005_000023_000005_000083_000045_000457_000667_000913_001167_007063_010915_010911_020501_061823,
  1_054244_000001_000003_000003_000013_000007_000015_000029_000223_000503_000713_000667_003989_005927_005909_027633_017615_097931,
  1_054259_000001_000003_000007_000013_000019_000053_000025_000041_000311_000327_001323_003361_001095_012701_001065_034155_034705,
  1_054273_000001_000001_000007_000007_000011_000035_000063_000073_000179_000477_000467_004043_003097_016089_012749_018233_050299,
  1_054276_000001_000003_000003_000013_000005_000027_000031_000207_000357_000469_000607_000961_007393_006707_025833_022337_119083,
  1_054280_000001_000001_000003_000003_000007_000053_000047_000055_000267_000107_001307_002151_000793_015605_012153_013075_076529,
  1_054294_000001_000003_000005_000001_000013_000035_000063_000191_000375_000221_001603_002049_005363_001481_032271_022635_118603,
  1_054298_000001_000001_000001_000011_000017_000063_000013_000003_000353_000943_000443_000141_007441_012335_004499_015923_063677,
  1_054303_000001_000003_000007_000013_000021_000051_000125_000061_000203_000001_000707_003893_004627_003125_014629_062721_085101,
  1_054304_000001_000001_000003_000005_000031_000023_000063_000241_000041_000721_000599_001761_002593_001685_031247_007811_087561,
  1_054309_000001_000001_000007_000009_000007_000053_000051_000009_000303_000675_001261_001591_004363_000015_029723_054533_103869,
  1_054310_000001_000003_000005_000007_000027_000021_000103_000113_000463_000379_000635_002363_000607_011445_022475_058433_093071,
  1_054316_000001_000001_000005_000005_000005_000063_000023_000067_000399_000279_000829_000945_006545_014951_005135_022889_087625,
  1_054336_000001_000001_000007_000015_000001_000059_000069_000123_000169_000821_001125_002051_003375_011691_001379_057461_124209,
  1_054354_000001_000001_000005_000015_000031_000057_000051_000059_000297_000459_000701_000241_002801_011893_004007_013165_079403,
  1_054359_000001_000001_000005_000009_000011_000041_000079_000047_000019_000529_000021_001871_000371_006269_007433_036183_096113,
  1_054375_000001_000001_000007_000005_000029_000003_000033_000191_000119_000501_001637_002903_003347_004581_017407_018169_010595,
  1_054376_000001_000003_000005_000011_000009_000035_000095_000193_000413_000727_001157_003331_005993_001781_022653_003975_110557,
  1_054381_000001_000001_000001_000001_000023_000005_000035_000065_000057_000515_000569_004031_007983_004603_029419_044847_063601,
  1_054390_000001_000003_000001_000007_000021_000005_000077_000023_000317_000803_000723_003229_007171_002883_010943_050323_108579,
  1_054396_000001_000003_000005_000011_000015_000053_000075_000127_000177_000019_000501_001201_005113_009069_008817_014725_104737,
  1_054399_000001_000003_000007_000009_000007_000039_000005_000121_000409_000103_001075_000451_007603_016023_032557_043159_094385,
  1_054409_000001_000003_000001_000011_000029_000057_000123_000141_000057_000945_001777_002427_002359_012839_007325_007945_129811,
  1_054424_000001_000003_000005_000015_000005_000003_000017_000055_000467_000061_000131_002891_006331_005859_020437_049425_080731,
  1_054434_000001_000001_000001_000015_000029_000013_000127_000181_000361_001019_001675_002755_006533_008957_014691_004285_065459,
  1_054436_000001_000001_000007_000011_000023_000043_000111_000183_000103_000269_000229_003291_001873_011349_029319_064829_019639,
  1_054439_000001_000003_000007_000011_000015_000063_000001_000253_000489_000863_001707_002769_003201_007901_018161_012515_130237]

def dirRows17_2_12 : List Nat := [
  1_054445_000001_000003_000001_000007_000001_000025_000043_000159_000505_000511_001745_001421_006779_011103_023535_061129_124571,
  1_054448_000001_000001_000003_000013_000019_000033_000017_000243_000481_000617_001061_001891_007165_006821_018505_008965_070179,
  1_054457_000001_000001_000007_000013_000017_000017_000065_000023_000255_000361_001873_001605_002041_011119_011419_063131_049207,
  1_054465_000001_000001_000005_000013_000015_000057_000027_000223_000199_000529_001115_001513_008083_011713_021005_050741_122223,
  1_054471_000001_000003_000005_000015_000029_000035_000107_000085_000141_000505_001553_001283_004581_005077_009461_059853_023219,
  1_054472_000001_000003_000005_000011_000011_000045_000053_000195_000199_000773_001911_000721_001563_003769_003267_030673_080313,
  1_054485_000001_000003_000007_000007_000021_000037_000009_000129_000431_000079_001559_002125_007781_006441_023533_046919_025315,
  1_054508_000001_000001_000005_000015_000011_000061_000077_000231_000349_000647_000225_000085_006789_012557_006505_021985_054965,
  1_054513_000001_000001_000005_000001_000019_000021_000033_000211_000347_000491_001119_001619_003739_011255_026705_059691_035337,
  1_054528_000001_000001_000003_000003_000029_000015_000007_000023_000279_000145_000699_000289_000475_001681_003201_064477_024919,
  1_054534_000001_000001_000007_000007_000023_000053_000075_000071_000315_000403_001521_001417_003749_011243_003951_061039_051143,
  1_054537_000001_000003_000007_000003_000015_000021_000081_000219_000249_000387_001405_003495_007143_002599_025435_015259_066069,
  1_054540_000001_000001_000005_000007_000031_000009_000063_000055_000409_000421_001851_000847_001593_010447_002833_013209_047285,
  1_054551_000001_000001_000003_000007_000015_000003_000035_000049_000253_000021_001705_000357_002751_009671_012429_004549_118691,
  1_054561_000001_000001_000005_000015_000001_000003_000097_000197_000043_000923_001273_000663_004291_012357_028221_015291_060989,
  1_054573_000001_000001_000007_000007_000015_000003_000035_000115_000449_000641_000743_001855_000359_010983_002831_043983_056465,
  1_054579_000001_000003_000007_000011_000001_000051_000069_000027_000029_000187_001673_001273_007987_001223_008971_053805_004413,
  1_054586_000001_000001_000003_000011_000001_000055_000091_000241_000035_000097_001027_003967_000703_003535_021681_055825_050423,
  1_054591_000001_000001_000007_000011_000021_000053_000111_000125_000011_000355_001585_003603_001705_016311_007045_015503_063625,
  1_054596_000001_000001_000005_000015_000025_000047_000031_000029_000333_000361_001831_001545_007751_008679_032453_061755_094637,
  1_054599_000001_000001_000003_000003_000023_000003_000079_000011_000367_000551_000281_001273_005097_012527_000473_033855_085783,
  1_054605_000001_000001_000001_000015_000027_000021_000107_000121_000187_000495_001877_001957_003647_013263_030729_018131_033689,
  1_054613_000001_000001_000005_000013_000003_000043_000041_000053_000127_000299_000839_003327_007929_009921_029471_018075_034283,
  1_054623_000001_000001_000007_000013_000031_000005_000059_000075_000335_000929_000379_000139_007121_009281_031161_003177_002615,
  1_054654_000001_000003_000007_000001_000011_000019_000081_000199_000425_000639_000497_000693_001271_007363_010543_052513_130549,
  1_054667_000001_000003_000003_000007_000021_000041_000101_000067_000363_000005_001455_001433_000081_015609_016231_013285_038995,
  1_054681_000001_000001_000003_000015_000011_000019_000123_000177_000429_000027_000141_003095_005379_002241_029877_059383_025199,
  1_054684_000001_000001_000007_000007_000019_000063_000093_000217_000279_000349_000149_002479_002355_006475_029993_037941_058715,
  1_054687_000001_000003_000007_000003_000021_000023_000059_000177_000489_000817_001209_001629_005805_003137_023767_062967_016609,
  1_054694_000001_000003_000003_000007_000009_000055_000059_000031_000191_000891_000833_001059_003007_002331_000385_058247_110697,
  1_054706_000001_000001_000003_000003_000011_000061_000009_000189_000079_000621_000209_002785_002959_004133_020691_045605_117089,
  1_054712_000001_000003_000003_000005_000005_000047_000031_000001_000451_000765_002027_002327_001725_014341_007997_006449_077893,
  1_054715_000001_000001_000007_000001_000007_000027_000027_000129_000227_000505_001461_000783_000945_012653_017913_061631_041875,
  1_054723_000001_000001_000001_000011_000013_000041_000041_000221_000483_000825_000451_000493_001717_010389_007805_037707_030733,
  1_054725_000001_000001_000005_000003_000031_000031_000075_000003_000323_000083_000563_000919_007387_001673_006157_007415_014947,
  1_054726_000001_000001_000007_000013_000019_000037_000029_000093_000153_000491_001033_001389_006361_011133_020049_024585_107325,
  1_054740_000001_000001_000001_000015_000003_000035_000079_000251_000383_000665_002033_003165_003411_015965_028281_056521_056479,
  1_054750_000001_000003_000001_000015_000023_000001_000087_000145_000443_000405_000635_001597_001455_005983_012741_055133_002815,
  1_054760_000001_000001_000001_000013_000011_000025_000019_000129_000023_000913_001121_000223_001991_013449_030443_050573_108467,
  1_054768_000001_000001_000007_000011_000029_000031_000049_000051_000415_000293_000173_004091_000159_002679_030643_058725_109287,
  1_054771_000001_000001_000001_000007_000015_000053_000069_000231_000387_000693_001299_001383_007935_010313_022403_059341_003347,
  1_054773_000001_000003_000003_000005_000009_000021_000111_000011_000469_000109_001565_003107_002975_012491_026773_033245_027589,
  1_054796_000001_000001_000003_000005_000003_000009_000103_000127_000345_000301_000857_002035_003269_013819_007555_005197_094557,
  1_054801_000001_000003_000007_000003_000031_000003_000061_000253_000221_000359_001281_001405_004819_001329_017773_029539_127043,
  1_054808_000001_000001_000007_000011_000017_000047_000105_000253_000253_000531_000119_002009_006125_009387_013141_029079_028361,
  1_054814_000001_000001_000003_000005_000021_000013_000021_000223_000079_000819_001425_001001_006517_008883_029997_030637_007717,
  1_054837_000001_000003_000001_000003_000001_000023_000113_000069_000235_000095_001873_000689_004611_013209_012681_016057_114071,
  1_054847_000001_000003_000003_000013_000025_000021_000093_000055_000253_000373_001659_000829_006539_007453_028195_033131_092559,
  1_054849_000001_000001_000003_000011_000025_000029_000081_000235_000429_000811_001867_002923_005949_004423_000093_064631_048357,
  1_054864_000001_000003_000005_000013_000029_000027_000035_000015_000105_000849_000247_003999_006441_012443_019817_049897_021515,
  1_054867_000001_000001_000005_000015_000013_000059_000003_000199_000267_000463_000655_003875_002895_013411_005081_022069_006053,
  1_054889_000001_000001_000005_000009_000005_000013_000111_000083_000281_000543_000629_001349_001863_009523_019201_039229_078265,
  1_054895_000001_000003_000007_000001_000029_000023_000109_000075_000347_000643_000097_001981_002797_011201_028355_054105_045551,
  1_054907_000001_000003_000001_000007_000009_000005_000077_000017_000179_000957_000621_000779_007117_001491_011563_010131_098335,
  1_054919_000001_000003_000003_000001_000003_000053_000039_000217_000309_000105_000485_003123_003143_002359_004923_022307_120319,
  1_054923_000001_000001_000007_000007_000011_000005_000065_000165_000321_000455_000625_002417_000999_014999_006777_013319_043399,
  1_054926_000001_000001_000007_000003_000011_000055_000043_000119_000135_000129_000581_003593_003475_014667_030509_005007_120135,
  1_054940_000001_000001_000001_000011_000007_000017_000095_000169_000401_000087_001425_001821_007619_003605_010993_035837_087311,
  1_054950_000001_000001_000007_000011_000011_000035_000029_000063_000395_000301_000373_002457_006859_001915_011215_041075_078219,
  1_054954_000001_000003_000005_000007_000025_000003_000097_000043_000273_000459_000103_003441_000071_010269_029893_046053_104801,
  1_054961_000001_000003_000003_000007_000031_000003_000121_000255_000073_000783_000977_000513_006527_001189_008925_023245_022287,
  1_054973_000001_000003_000003_000013_000015_000053_000051_000135_000465_000341_000263_001687_004085_014257_018745_046945_115475,
  1_054974_000001_000003_000001_000005_000031_000001_000001_000091_000511_000771_001501_002613_000991_003859_028911_065417_000201,
  1_054976_000001_000001_000007_000001_000027_000021_000107_000153_000163_000949_000811_003087_003443_005621_028795_058311_063763,
  1_054986_000001_000001_000007_000005_000029_000029_000057_000175_000029_000821_001545_002643_000725_016225_029111_019675_129995,
  1_054993_000001_000001_000007_000003_000031_000031_000061_000155_000265_000323_001829_003891_006393_008573_010627_010839_078683,
  1_055000_000001_000003_000005_000007_000029_000007_000067_000181_000313_000731_001761_001681_003673_008939_000811_048931_082021,
  1_055010_000001_000003_000001_000003_000011_000051_000081_000067_000173_000881_000855_003627_001613_004825_007035_036261_064899,
  1_055019_000001_000003_000007_000007_000015_000053_000123_000041_000265_000817_000807_003875_007675_016225_013313_062217_047647,
  1_055021_000001_000001_000003_000013_000023_000047_000125_000155_000403_000651_001693_002185_005565_009947_020893_011287_118943,
  1_055030_000001_000003_000007_000003_000019_000047_000069_000005_000209_000259_000367_003929_007579_012687_018109_051885_128281,
  1_055033_000001_000001_000007_000005_000027_000041_000045_000041_000205_001001_001509_002649_001141_005355_010265_034131_112111,
  1_055039_000001_000003_000007_000005_000019_000041_000103_000063_000049_000025_000271_000793_003217_004741_002563_061333_113205,
  1_055047_000001_000003_000003_000015_000015_000035_000013_000233_000277_000673_000545_000545_007419_006707_001867_058873_110027,
  1_055048_000001_000001_000007_000003_000009_000023_000067_000055_000003_001019_002001_002909_007311_009295_026953_043217_054597,
  1_055054_000001_000003_000005_000007_000013_000033_000067_000027_000075_000569_001777_000791_001223_001805_019167_060537_060039,
  1_055059_000001_000001_000005_000013_000015_000061_000049_000059_000289_000907_001055_003579_008169_012119_025479_032867_065343,
  1_055068_000001_000003_000005_000009_000005_000063_000091_000225_000377_000469_000891_000891_005115_011487_030151_044357_120077,
  1_055071_000001_000001_000001_000015_000029_000059_000019_000051_000295_000585_000149_000497_005837_011629_007825_018129_113797,
  1_055075_000001_000001_000003_000007_000031_000025_000077_000209_000183_000337_001753_002703_002559_011847_017349_027359_021771,
  1_055077_000001_000001_000007_000007_000013_000023_000069_000061_000353_000339_000833_001935_004333_010521_020331_062145_059245,
  1_055081_000001_000001_000005_000013_000019_000057_000035_000059_000203_000099_000487_002747_000637_008213_027053_000029_064335,
  1_055095_000001_000003_000005_000007_000027_000005_000071_000147_000339_000313_000913_002845_005713_004383_018969_054871_051931,
  1_055099_000001_000001_000001_000005_000007_000023_000019_000011_000111_000543_000311_001519_000387_010175_018209_014115_123421,
  1_055110_000001_000003_000007_000011_000007_000007_000123_000193_000417_000065_001317_003821_002315_014527_014113_025873_023977,
  1_055116_000001_000001_000003_000015_000021_000011_000003_000037_000115_000395_000877_001227_006997_004357_011397_052855_024899,
  1_055122_000001_000001_000007_000005_000015_000045_000045_000017_000441_000605_000429_000739_004759_005249_011311_055049_056909,
  1_055134_000001_000001_000001_000005_000003_000005_000077_000031_000407_000703_000385_000235_007751_000617_016013_027269_066971,
  1_055144_000001_000003_000003_000015_000025_000027_000019_000251_000465_000197_001039_003261_004557_004821_016083_043997_061371,
  1_055147_000001_000003_000003_000015_000021_000045_000013_000139_000213_000797_000619_002125_003805_004149_011427_059807_104587,
  1_055158_000001_000003_000001_000001_000029_000027_000025_000007_000371_000535_001613_001083_004221_008913_010601_006447_017619,
  1_055162_000001_000001_000003_000003_000013_000035_000037_000127_000285_000899_000307_000123_000129_014035_026503_064103_027155,
  1_055171_000001_000001_000007_000007_000027_000025_000045_000245_000271_000281_000069_003505_007087_001529_007121_030327_089131,
  1_055185_000001_000001_000003_000011_000013_000057_000031_000023_000455_000427_001683_003019_005827_008817_012943_000321_039951,
  1_055192_000001_000003_000001_000003_000031_000041_000069_000211_000385_000275_001569_002265_004017_011057_000015_016619_126967,
  1_055197_000001_000003_000003_000001_000027_000027_000021_000145_000125_000929_001371_001469_001591_005283_004651_001265_017161,
  1_055207_000001_000003_000007_000005_000029_000031_000041_000141_000049_000967_001421_000663_006089_003831_011353_038809_108605,
  1_055228_000001_000001_000007_000015_000011_000023_000091_000031_000009_000717_000265_001729_003563_008145_020441_022933_103683,
  1_055246_000001_000001_000007_000003_000017_000013_000047_000013_000241_001017_001803_002091_007379_002941_011783_036189_053513,
  1_055253_000001_000003_000001_000011_000031_000063_000107_000079_000427_000385_001497_001265_005135_013597_027343_056733_100595]

def dirRows17_2_13 : List Nat := [
  1_055254_000001_000003_000007_000003_000009_000015_000119_000029_000205_000151_001453_003575_003627_007815_003553_031457_014267,
  1_055281_000001_000003_000001_000007_000015_000021_000073_000047_000417_000029_001231_002477_000161_015997_004457_003939_043929,
  1_055300_000001_000001_000005_000005_000019_000049_000103_000251_000359_000069_000669_000299_008161_010579_013999_026859_092199,
  1_055303_000001_000001_000003_000001_000009_000027_000081_000007_000115_000029_001067_001933_003061_002885_027883_065227_059365,
  1_055307_000001_000001_000001_000005_000023_000017_000001_000113_000495_000155_001673_003945_008053_007935_003537_065141_011809,
  1_055312_000001_000001_000001_000015_000015_000059_000061_000213_000303_000851_001893_000615_006659_009351_016621_006097_114383,
  1_055328_000001_000003_000001_000007_000019_000011_000095_000127_000277_000677_001631_002563_003295_007029_004059_044079_128857,
  1_055331_000001_000003_000007_000011_000027_000049_000099_000043_000279_000771_000123_002969_000699_012915_022039_062257_079359,
  1_055337_000001_000001_000007_000003_000019_000045_000045_000113_000251_000883_000715_001541_001573_003345_023855_062681_057591,
  1_055348_000001_000001_000005_000015_000011_000001_000051_000015_000135_000519_000961_001447_004425_002139_003309_035111_074143,
  1_055352_000001_000003_000007_000007_000017_000039_000109_000025_000011_000549_000315_002175_000685_011837_009151_006277_045011,
  1_055357_000001_000001_000001_000009_000027_000007_000095_000001_000385_000167_000453_001027_004105_016351_000019_010375_062833,
  1_055372_000001_000003_000007_000013_000017_000019_000107_000011_000441_000171_000185_003567_001245_012161_030257_048105_087105,
  1_055375_000001_000003_000003_000009_000015_000005_000109_000225_000085_000919_000513_003559_005411_009009_027391_025115_084875,
  1_055377_000001_000003_000003_000007_000011_000037_000081_000051_000121_000025_001897_002121_006425_016087_004259_029501_118067,
  1_055394_000001_000001_000007_000003_000005_000053_000073_000127_000137_000739_000543_001723_001163_002791_018519_001459_050869,
  1_055406_000001_000001_000003_000011_000029_000051_000101_000189_000193_000839_000025_003109_003035_003917_023929_038577_129705,
  1_055424_000001_000003_000007_000015_000009_000029_000093_000101_000271_000791_001257_001843_002701_008205_015195_009109_120835,
  1_055429_000001_000003_000003_000005_000029_000047_000031_000135_000483_000385_001395_002955_007291_012885_009491_014581_066293,
  1_055430_000001_000001_000007_000001_000005_000037_000105_000149_000063_000617_001611_003025_003177_015463_003373_003503_095001,
  1_055436_000001_000001_000005_000013_000001_000057_000019_000035_000127_000423_001221_001547_004083_000347_017131_060087_027437,
  1_055439_000001_000003_000007_000009_000025_000001_000105_000039_000025_000921_001897_001729_002207_007761_024197_000457_064241,
  1_055447_000001_000003_000007_000009_000015_000021_000013_000113_000379_001021_000489_001757_005869_004833_024717_052227_003209,
  1_055453_000001_000003_000001_000005_000009_000061_000025_000041_000183_000473_000383_002259_006939_000003_032161_006319_093099,
  1_055458_000001_000001_000005_000013_000013_000047_000097_000003_000357_000837_001655_000485_004251_012153_009013_025121_051877,
  1_055460_000001_000001_000001_000015_000007_000059_000065_000119_000467_000313_001333_002007_005165_013935_013679_003999_081811,
  1_055478_000001_000001_000005_000013_000013_000001_000063_000117_000449_000013_001017_001583_007599_003669_032699_059455_032363,
  1_055489_000001_000001_000007_000009_000007_000015_000037_000251_000167_000025_001085_002067_002771_005737_020661_019231_059547,
  1_055501_000001_000001_000005_000013_000029_000011_000063_000037_000281_000657_001567_002879_007601_015617_016527_051695_005583,
  1_055502_000001_000001_000005_000003_000031_000017_000019_000065_000315_000413_000927_003617_004089_011899_003759_047991_001685,
  1_055519_000001_000001_000001_000001_000013_000047_000089_000091_000379_000429_000283_003765_002923_014955_026399_009579_039817,
  1_055525_000001_000001_000001_000009_000001_000017_000091_000119_000327_000291_000039_002883_006265_000553_007559_060577_034393,
  1_055530_000001_000003_000005_000005_000009_000033_000123_000219_000103_000529_000181_001321_006815_002411_010555_043911_018889,
  1_055544_000001_000001_000005_000007_000009_000013_000007_000045_000427_000523_001189_000255_002103_007217_016249_014631_090409,
  1_055550_000001_000001_000001_000009_000011_000035_000055_000071_000089_000637_001417_000411_005305_010125_020715_062927_004993,
  1_055558_000001_000003_000001_000009_000001_000059_000027_000221_000267_000797_001081_000951_001369_002677_020763_063301_061963,
  1_055561_000001_000003_000005_000005_000017_000009_000067_000177_000089_000953_001329_001649_000989_007773_028747_026231_042331,
  1_055569_000001_000003_000003_000009_000023_000035_000017_000145_000053_000519_001173_002079_002593_003633_032005_030573_055651,
  1_055586_000001_000001_000007_000007_000017_000041_000047_000253_000107_000843_000009_000323_002391_003267_025813_001741_093493,
  1_055591_000001_000001_000001_000009_000031_000043_000047_000091_000235_000569_002017_002385_005055_005747_026471_048819_047315,
  1_055598_000001_000003_000005_000009_000001_000017_000087_000091_000055_000287_000995_002577_001151_009119_022791_050899_016423,
  1_055605_000001_000003_000007_000001_000003_000029_000009_000193_000269_000201_000325_002209_001061_007957_023265_065083_027575,
  1_055609_000001_000003_000007_000015_000027_000023_000037_000239_000165_000959_001965_002105_001581_006621_017315_049255_062487,
  1_055618_000001_000003_000007_000007_000011_000031_000073_000145_000429_000421_000571_003375_002797_015889_026523_012315_048061,
  1_055630_000001_000003_000003_000015_000023_000027_000105_000075_000497_000137_000475_001343_000537_010499_027807_046623_032435,
  1_055642_000001_000001_000007_000015_000015_000011_000051_000107_000225_000557_001461_003447_001243_013827_023675_026139_054603,
  1_055644_000001_000003_000005_000005_000007_000025_000051_000003_000085_000371_001503_003217_001779_007141_029471_042247_107699,
  1_055653_000001_000003_000007_000015_000023_000053_000127_000229_000241_000165_001985_001921_005917_015743_018349_023981_058241,
  1_055654_000001_000001_000003_000013_000009_000063_000049_000067_000021_000057_000377_001807_005603_013651_028039_003745_004903,
  1_055660_000001_000003_000007_000011_000001_000043_000017_000095_000079_000343_001939_002349_005195_003047_004325_027829_053809,
  1_055671_000001_000001_000005_000009_000007_000043_000111_000221_000493_000151_001635_003949_006661_004861_017661_061909_004975,
  1_055693_000001_000003_000001_000003_000031_000047_000063_000045_000401_000153_001139_002125_006639_014093_031607_020645_052245,
  1_055706_000001_000001_000003_000001_000019_000031_000059_000139_000285_000749_000751_000775_007795_014917_030295_061037_012315,
  1_055712_000001_000003_000003_000009_000015_000055_000079_000183_000373_000663_000497_002589_004955_005409_023527_002683_005487,
  1_055718_000001_000003_000007_000011_000025_000047_000053_000225_000197_000109_001937_001375_007347_007353_002335_021775_014877,
  1_055739_000001_000003_000001_000009_000023_000061_000051_000221_000129_000057_000115_001031_006793_014773_003331_024951_094761,
  1_055747_000001_000001_000005_000015_000031_000009_000069_000117_000295_000147_000673_003627_007167_013835_020593_053163_083033,
  1_055754_000001_000003_000007_000009_000015_000063_000111_000225_000147_000863_000691_000629_007485_000483_021835_046251_094645,
  1_055771_000001_000003_000003_000003_000011_000041_000023_000159_000133_000787_001617_000629_005047_004465_029051_047499_007211,
  1_055774_000001_000001_000003_000013_000021_000061_000029_000159_000073_000165_000917_002577_007237_011807_003767_056861_051395,
  1_055780_000001_000001_000005_000003_000015_000031_000037_000233_000283_000265_001645_003843_001971_004989_026823_015243_074931,
  1_055783_000001_000003_000007_000011_000009_000051_000007_000119_000237_000905_001211_003041_007641_003387_008373_038961_068925,
  1_055784_000001_000001_000007_000003_000017_000053_000055_000195_000057_000957_002027_003965_002993_000411_013947_058349_032169,
  1_055789_000001_000001_000007_000009_000007_000037_000055_000093_000173_000769_001381_003977_005293_005051_021455_045547_064653,
  1_055798_000001_000003_000005_000007_000001_000041_000089_000161_000315_000361_001675_002993_003281_013043_019003_022129_130379,
  1_055802_000001_000003_000001_000009_000013_000037_000085_000197_000465_000177_000661_000943_000541_011117_009751_004193_098291,
  1_055823_000001_000001_000003_000007_000021_000007_000067_000017_000041_000817_001159_001483_006937_010079_003639_027887_014541,
  1_055828_000001_000003_000003_000015_000017_000063_000069_000215_000437_000883_001857_003319_003107_016279_010709_030433_052551,
  1_055837_000001_000001_000003_000011_000001_000005_000069_000037_000419_000999_001711_000875_003807_010811_016345_061155_116043,
  1_055838_000001_000003_000007_000013_000017_000007_000057_000237_000081_000691_001143_004075_002481_000643_008091_008243_080111,
  1_055847_000001_000001_000007_000007_000017_000061_000073_000215_000113_000885_000159_002243_001177_010981_010123_048995_123349,
  1_055848_000001_000001_000001_000007_000031_000047_000099_000015_000371_000343_001483_001985_000025_011125_008357_010677_130895,
  1_055885_000001_000003_000001_000013_000025_000041_000083_000037_000129_000493_000641_000185_006607_007213_013285_010439_073227,
  1_055897_000001_000001_000005_000007_000017_000015_000093_000053_000281_000091_000115_003675_003081_009825_023653_040095_091803,
  1_055904_000001_000001_000001_000005_000003_000025_000039_000207_000419_000361_000953_002823_008105_015763_029199_061607_032633,
  1_055910_000001_000001_000003_000001_000031_000051_000055_000003_000277_000639_000191_001783_000139_000029_016659_030199_069109,
  1_055919_000001_000001_000001_000007_000031_000059_000025_000013_000239_000617_000115_001787_005757_009927_002417_037313_115135,
  1_055922_000001_000001_000003_000005_000019_000035_000005_000187_000483_000823_001875_000163_004235_000853_023679_050899_094981,
  1_055931_000001_000003_000003_000011_000009_000039_000121_000201_000189_000543_001493_001215_000351_016063_001701_056559_108053,
  1_055933_000001_000003_000001_000007_000001_000039_000031_000163_000347_000307_000349_004081_001729_016265_000363_028297_050631,
  1_055937_000001_000003_000007_000013_000021_000055_000127_000161_000075_000009_001285_001839_005283_005667_010979_022185_007581,
  1_055943_000001_000001_000003_000005_000013_000045_000017_000181_000117_000395_001685_000663_003441_005359_007157_027759_102343,
  1_055955_000001_000003_000001_000007_000007_000031_000097_000187_000383_000769_001469_004007_005521_013973_000049_043823_075649,
  1_055957_000001_000003_000005_000007_000031_000013_000047_000011_000335_000961_000321_003367_001903_000503_008409_001101_058215,
  1_055968_000001_000001_000007_000007_000025_000049_000039_000001_000453_000419_000333_001759_002287_006243_010723_013687_056853,
  1_055980_000001_000003_000003_000007_000011_000055_000125_000197_000019_000591_001969_000511_002501_008429_029467_027917_063457,
  1_055986_000001_000001_000003_000011_000011_000043_000035_000213_000231_000119_000379_003761_004891_005677_020317_005459_055487,
  1_055992_000001_000001_000005_000007_000021_000009_000127_000059_000097_000963_000847_002131_007907_011409_008785_048197_096907,
  1_056005_000001_000003_000005_000003_000023_000007_000045_000095_000179_000691_001571_003091_006359_009105_026021_026925_000043,
  1_056034_000001_000003_000003_000007_000021_000007_000011_000219_000439_000465_001983_000117_004639_008387_027637_015883_005567,
  1_056051_000001_000001_000007_000003_000001_000003_000051_000205_000425_000133_000563_001317_000533_001227_008361_023407_039825,
  1_056054_000001_000001_000005_000003_000003_000039_000019_000069_000477_000605_000003_001887_002077_013673_002763_064415_104519,
  1_056065_000001_000001_000005_000015_000011_000045_000089_000245_000177_000591_001313_000587_004781_005103_026401_012643_038959,
  1_056080_000001_000001_000001_000005_000011_000013_000015_000095_000271_000099_002001_002701_006065_003527_007423_037525_117161,
  1_056101_000001_000003_000007_000007_000021_000017_000111_000149_000373_000591_001461_000809_003877_008635_013209_031439_064285,
  1_056113_000001_000003_000001_000015_000025_000051_000055_000161_000357_000181_000041_002345_003553_009917_030123_040683_122497,
  1_056126_000001_000003_000007_000015_000005_000055_000119_000239_000291_000665_001537_003309_002519_012397_025897_051529_028673,
  1_056131_000001_000001_000001_000009_000025_000045_000021_000119_000019_000145_000313_002509_001031_003319_014863_010759_022577,
  1_056134_000001_000003_000001_000015_000001_000061_000087_000229_000511_000083_000079_000051_001407_016293_026217_025839_086207,
  1_056143_000001_000003_000007_000007_000023_000043_000089_000011_000043_000801_000569_003273_000315_009537_000681_034783_097101]

def dirRows17_2_14 : List Nat := [
  1_056148_000001_000001_000005_000001_000013_000031_000077_000115_000501_000669_000027_003765_006789_009139_030587_045995_102433,
  1_056152_000001_000001_000007_000001_000015_000021_000057_000197_000243_000353_000071_000341_007319_008467_009779_015755_004185,
  1_056174_000001_000001_000001_000001_000017_000021_000003_000185_000277_000585_000265_003189_003975_000353_008541_023905_021881,
  1_056181_000001_000003_000005_000003_000005_000023_000113_000253_000343_000073_001419_002529_004333_002007_014307_060591_055411,
  1_056182_000001_000001_000007_000003_000025_000035_000109_000173_000351_000487_001551_003207_001189_005091_003581_004699_022085,
  1_056185_000001_000001_000003_000011_000009_000009_000071_000173_000017_000595_002015_002543_004889_006025_015265_006459_003977,
  1_056192_000001_000003_000005_000015_000011_000013_000011_000189_000431_000307_000317_003131_001421_010863_005311_025273_043187,
  1_056201_000001_000001_000001_000007_000007_000041_000103_000231_000321_000327_001849_002485_006461_010259_004577_052951_033053,
  1_056215_000001_000003_000003_000015_000011_000033_000073_000155_000453_000597_000575_002119_000327_004227_032271_007429_102007,
  1_056219_000001_000001_000003_000007_000015_000009_000095_000177_000021_000245_000257_003637_000821_016351_001733_010635_059885,
  1_056222_000001_000001_000003_000007_000023_000041_000107_000147_000057_000877_001609_003275_000339_012997_005989_062293_021549,
  1_056258_000001_000001_000007_000013_000019_000039_000111_000229_000321_000487_000873_003365_004915_000251_030629_045775_073549,
  1_056264_000001_000001_000001_000013_000025_000061_000043_000111_000135_000463_001921_001723_007505_013805_030633_051683_007353,
  1_056269_000001_000001_000001_000001_000031_000041_000035_000205_000375_000189_000635_003589_003507_008131_013437_022823_068451,
  1_056272_000001_000003_000007_000005_000031_000047_000013_000229_000105_000195_000685_000529_000039_002651_006821_011043_112123,
  1_056278_000001_000003_000007_000013_000003_000023_000021_000203_000089_000957_001577_001711_000585_003937_017681_055577_061075,
  1_056282_000001_000003_000003_000003_000017_000037_000049_000007_000287_000183_001185_002979_002103_001217_022105_011677_019603,
  1_056306_000001_000001_000001_000009_000029_000035_000093_000179_000403_000563_000441_003485_006909_012647_003885_060089_029275,
  1_056308_000001_000003_000003_000009_000015_000037_000049_000103_000509_000077_000495_000921_002599_014735_030951_022779_047747,
  1_056318_000001_000003_000003_000011_000017_000045_000043_000235_000379_000051_000925_000089_002241_010273_027649_008101_093977,
  1_056329_000001_000003_000003_000003_000011_000007_000025_000163_000405_000997_000847_002743_004705_007041_010997_050189_010775,
  1_056356_000001_000001_000001_000013_000019_000043_000003_000125_000037_000041_000005_000965_002681_003737_029057_037777_119537,
  1_056360_000001_000001_000001_000001_000011_000027_000101_000067_000073_000199_001739_002835_005837_010595_009865_038493_099323,
  1_056383_000001_000003_000001_000013_000027_000043_000021_000079_000419_000847_000843_002563_008133_010295_010127_030839_104863,
  1_056388_000001_000003_000003_000011_000015_000037_000071_000251_000157_000971_000165_001647_002583_000205_023555_055297_106893,
  1_056391_000001_000001_000005_000015_000001_000021_000113_000107_000287_000727_000071_002655_001435_011125_015257_018899_037737,
  1_056405_000001_000001_000003_000003_000027_000049_000017_000085_000057_000237_000349_004049_001103_002523_003919_036587_128595,
  1_056406_000001_000003_000005_000009_000013_000001_000065_000013_000361_000409_000413_002153_005953_010651_025383_049777_065399,
  1_056416_000001_000001_000007_000009_000019_000047_000069_000127_000121_000925_000057_002775_004981_003643_004077_003081_056093,
  1_056426_000001_000003_000003_000013_000001_000053_000045_000013_000489_000445_000623_003547_001659_001899_011971_003725_012445,
  1_056439_000001_000003_000007_000011_000013_000009_000059_000157_000125_000975_001283_000297_003609_003179_031341_054727_112515,
  1_056446_000001_000001_000001_000013_000023_000063_000069_000249_000159_000593_000047_003957_000757_014693_026345_018839_111263,
  1_056450_000001_000001_000001_000001_000031_000037_000037_000199_000007_000425_000337_001475_000271_016215_012089_016765_013519,
  1_056459_000001_000001_000007_000011_000031_000059_000121_000139_000413_000807_000737_001235_003505_005859_014205_031939_004713,
  1_056461_000001_000001_000001_000009_000021_000051_000113_000159_000345_000807_000635_000523_005535_013307_004239_014847_023711,
  1_056464_000001_000003_000005_000013_000031_000007_000033_000001_000293_000271_001829_002535_006333_012037_029401_035009_037789,
  1_056469_000001_000001_000007_000003_000007_000057_000031_000045_000177_000475_000843_001265_000585_016099_029293_052407_056131,
  1_056489_000001_000003_000003_000011_000001_000025_000117_000205_000139_000141_001229_000903_001883_011269_030493_003979_004263,
  1_056490_000001_000001_000005_000013_000025_000043_000009_000237_000347_000869_001765_001389_001931_013331_017325_045999_121201,
  1_056497_000001_000003_000003_000011_000003_000013_000095_000049_000389_000053_000491_001467_005105_016053_006305_015759_051991,
  1_056509_000001_000003_000005_000015_000001_000053_000085_000069_000075_000409_001299_001245_007951_010709_009157_003509_103975,
  1_056515_000001_000001_000001_000013_000001_000033_000097_000235_000463_000413_001759_001891_001781_005261_005759_000201_069199,
  1_056518_000001_000001_000003_000013_000021_000027_000101_000143_000123_000705_000969_002461_006057_013091_006077_038311_030379,
  1_056524_000001_000003_000003_000001_000013_000011_000073_000033_000495_000513_000763_003089_000421_013663_030169_056599_038847,
  1_056535_000001_000001_000007_000013_000013_000031_000091_000063_000233_000137_000859_002449_000539_012461_013477_031605_058919,
  1_056542_000001_000001_000001_000009_000013_000049_000107_000045_000451_000707_001735_001881_003451_009131_025481_010841_116067,
  1_056545_000001_000003_000007_000001_000027_000021_000051_000117_000063_000053_000575_003325_001099_011181_023609_047141_115421,
  1_056551_000001_000003_000001_000013_000025_000029_000053_000135_000165_000319_001695_000341_008157_010671_007095_060749_031513,
  1_056555_000001_000001_000007_000005_000003_000053_000123_000137_000449_000087_000951_000693_006943_015331_001515_024019_056613,
  1_056560_000001_000003_000007_000005_000025_000017_000043_000251_000301_000203_000633_001271_006253_004475_010773_025003_067599,
  1_056569_000001_000001_000003_000009_000001_000025_000117_000159_000013_000155_000851_002497_006155_006549_027909_024423_082357,
  1_056580_000001_000001_000001_000001_000021_000059_000103_000043_000291_000111_001355_000401_005129_016017_025947_015391_046745,
  1_056584_000001_000001_000001_000013_000013_000051_000095_000111_000017_000963_001535_003003_006163_011377_006787_057275_109559,
  1_056598_000001_000001_000005_000011_000011_000003_000085_000207_000489_000117_000269_000747_005719_008501_007307_059223_018941,
  1_056601_000001_000001_000005_000001_000009_000053_000041_000255_000271_000995_001939_002739_002221_014841_022617_010643_006427,
  1_056602_000001_000003_000003_000009_000007_000055_000109_000143_000427_000045_000579_000115_002061_008447_029469_005523_129063,
  1_056623_000001_000003_000007_000005_000023_000063_000119_000031_000053_000821_000135_002677_000807_004685_024391_055165_088079,
  1_056637_000001_000003_000005_000009_000015_000011_000073_000177_000243_000375_000115_001633_007983_015039_021169_025325_128479,
  1_056638_000001_000003_000003_000005_000021_000051_000013_000051_000075_000993_000077_000209_002761_000451_011987_040297_002383,
  1_056643_000001_000003_000007_000001_000019_000009_000011_000161_000019_000851_001313_001169_004405_007493_023935_037323_107387,
  1_056650_000001_000003_000005_000015_000005_000011_000079_000129_000507_000247_000811_001145_003893_005205_011309_038205_002051,
  1_056673_000001_000001_000005_000001_000011_000013_000033_000155_000021_000185_000771_003261_000981_000743_012479_022611_025321,
  1_056676_000001_000001_000005_000009_000007_000025_000011_000235_000429_000563_001647_001429_001385_014411_003831_019769_067599,
  1_056686_000001_000003_000003_000005_000005_000007_000109_000117_000251_000823_000669_002043_001843_011829_027051_035865_011461,
  1_056704_000001_000003_000005_000005_000007_000003_000045_000063_000305_000099_000393_001765_001711_015569_027295_016555_077631,
  1_056710_000001_000003_000005_000011_000023_000033_000049_000125_000085_000677_001589_002667_005723_015619_030415_039561_122763,
  1_056721_000001_000003_000007_000013_000027_000021_000099_000209_000481_000123_001285_000115_006517_011753_011365_044959_000089,
  1_056731_000001_000001_000001_000007_000015_000015_000045_000151_000489_000169_000933_002987_000657_003095_006745_000131_037767,
  1_056738_000001_000003_000001_000015_000001_000037_000099_000137_000151_000891_000715_000383_001293_000719_010957_005557_092841,
  1_056747_000001_000001_000001_000003_000027_000059_000093_000049_000473_000313_000431_001129_005995_013101_013185_007091_109677,
  1_056750_000001_000003_000003_000007_000001_000041_000055_000135_000271_000527_001919_001093_002579_003725_022853_031613_004729,
  1_056752_000001_000001_000007_000001_000007_000013_000063_000255_000219_000837_000117_002323_004295_015697_008607_047047_117869,
  1_056757_000001_000001_000001_000007_000029_000029_000055_000171_000437_000733_000491_001037_007221_005705_031819_019583_103991,
  1_056787_000001_000003_000007_000001_000031_000019_000065_000039_000151_000517_001985_002251_006147_012983_028263_035891_007545,
  1_056796_000001_000001_000007_000007_000021_000041_000097_000253_000427_000391_000849_000611_004827_010807_006267_022513_062803,
  1_056803_000001_000003_000007_000007_000025_000009_000049_000245_000491_000039_000603_001853_005655_003517_010745_055069_121497,
  1_056812_000001_000003_000001_000005_000009_000039_000109_000195_000283_000141_002007_000003_001267_013053_008387_048665_048877,
  1_056815_000001_000001_000003_000007_000027_000061_000049_000043_000229_000497_002015_001345_003195_007139_013453_056993_015099,
  1_056824_000001_000003_000005_000011_000031_000053_000087_000097_000385_000387_001107_003287_002517_007421_001007_037421_124113,
  1_056829_000001_000003_000003_000011_000009_000055_000051_000215_000181_000419_000863_003149_005815_015579_028527_034715_061375,
  1_056833_000001_000003_000003_000003_000031_000057_000005_000035_000445_000957_001897_000105_002533_010255_019795_049127_038491,
  1_056839_000001_000003_000003_000013_000025_000053_000001_000159_000443_000541_000439_003377_005511_009667_026777_032599_036981,
  1_056840_000001_000001_000001_000003_000023_000029_000097_000131_000059_000143_001601_002765_004569_011081_006027_038641_100745,
  1_056845_000001_000003_000003_000015_000009_000015_000019_000035_000321_000935_000465_002707_004799_007455_012743_031029_114149,
  1_056853_000001_000001_000001_000001_000011_000051_000023_000079_000387_000701_000107_000623_000231_012571_007719_003061_079605,
  1_056854_000001_000003_000005_000015_000017_000049_000109_000083_000185_000295_000853_000219_003615_000535_032001_006655_004185,
  1_056858_000001_000003_000003_000015_000015_000007_000035_000151_000305_000705_001383_001595_005595_011995_015491_049119_083383,
  1_056863_000001_000003_000007_000009_000003_000025_000057_000047_000359_000719_001937_001403_001399_010827_024181_029141_079017,
  1_056864_000001_000003_000005_000001_000001_000021_000021_000245_000361_000485_001521_003935_001587_008653_025871_049449_103413,
  1_056881_000001_000003_000003_000003_000009_000061_000031_000069_000401_000261_001217_003069_004045_012437_032017_015113_010769,
  1_056882_000001_000003_000001_000001_000021_000033_000123_000087_000481_000793_000625_004087_001361_011077_018835_013287_040107,
  1_056896_000001_000003_000007_000003_000009_000049_000101_000213_000467_000077_001691_002621_004411_008025_030247_013691_020559,
  1_056901_000001_000001_000001_000009_000029_000049_000047_000135_000001_000337_001649_000389_003845_007213_019527_002619_078841,
  1_056902_000001_000003_000007_000009_000023_000023_000047_000097_000493_000767_000137_001467_007015_002883_012749_009267_012441,
  1_056908_000001_000001_000003_000015_000009_000057_000053_000019_000401_000385_001159_001185_006977_014027_003183_059119_042065,
  1_056923_000001_000001_000001_000015_000021_000033_000083_000251_000147_000395_000321_000443_006893_001877_006687_028863_086531,
  1_056925_000001_000003_000003_000001_000003_000047_000027_000247_000121_000827_001399_004079_007545_011691_027915_028811_017099,
  1_056926_000001_000003_000005_000007_000005_000059_000073_000069_000117_000897_000905_003273_002935_011077_032443_060959_016081,
  1_056932_000001_000001_000007_000005_000027_000049_000107_000169_000075_000435_001913_002089_005733_002361_005163_052239_087411,
  1_056939_000001_000001_000007_000013_000001_000013_000123_000089_000427_000301_001217_001491_005361_010381_028971_057655_108607]

def dirRows17_2_15 : List Nat := [
  1_056947_000001_000001_000007_000011_000013_000005_000023_000151_000117_000369_000623_002263_002609_000109_032485_052133_069391,
  1_056954_000001_000003_000007_000011_000007_000033_000127_000043_000123_000203_000775_003215_005115_001805_014581_046791_128781,
  1_056970_000001_000003_000003_000001_000007_000023_000037_000099_000001_000719_000293_002727_006859_000683_013241_017839_004215,
  1_056972_000001_000001_000001_000013_000027_000041_000093_000025_000059_000947_000971_001523_004443_001209_032317_058651_011121,
  1_056977_000001_000001_000001_000003_000031_000033_000023_000087_000349_000265_000445_003489_000783_007833_005767_059295_045057,
  1_056980_000001_000001_000001_000001_000015_000047_000019_000015_000217_000837_002043_002805_004701_005873_001517_046743_061655,
  1_056993_000001_000003_000007_000001_000027_000027_000009_000107_000025_000897_000955_003763_000821_001535_014557_038537_128737,
  1_057013_000001_000003_000003_000007_000019_000049_000121_000217_000401_000975_001189_000715_003113_004219_004885_057861_006833,
  1_057017_000001_000003_000003_000001_000017_000059_000053_000015_000259_000791_002035_000499_007707_013685_014367_020155_091033,
  1_057018_000001_000003_000005_000005_000011_000011_000069_000237_000139_000073_000541_001135_002647_014109_018113_008051_031917,
  1_057031_000001_000001_000001_000015_000011_000023_000089_000181_000295_000743_000029_004009_004683_013989_004575_038865_030449,
  1_057059_000001_000001_000001_000011_000021_000063_000031_000121_000055_000153_001143_004059_003247_011725_017659_048935_118369,
  1_057062_000001_000001_000007_000009_000017_000029_000027_000167_000069_000957_002009_002795_003161_003493_016365_043637_102321,
  1_057065_000001_000003_000005_000013_000027_000023_000017_000007_000345_000253_000631_001389_002523_009993_032619_046731_004757,
  1_057071_000001_000001_000001_000011_000017_000001_000041_000107_000025_000183_001361_001211_003607_012713_016011_042987_036415,
  1_057083_000001_000001_000007_000005_000013_000029_000033_000069_000261_000213_000073_003737_003867_000503_028225_053735_091695,
  1_057093_000001_000003_000007_000007_000021_000063_000075_000039_000259_000367_000487_002087_005411_001925_029589_039019_073283,
  1_057097_000001_000003_000001_000007_000029_000029_000025_000191_000091_000509_001485_000853_007011_013321_027769_010249_087341,
  1_057106_000001_000001_000007_000007_000001_000009_000115_000071_000321_000913_001679_002129_000771_009217_004731_024353_035631,
  1_057118_000001_000003_000001_000013_000005_000045_000053_000255_000429_000805_001983_001437_002677_006337_022221_055455_039855,
  1_057133_000001_000001_000001_000001_000001_000005_000111_000231_000321_000961_000371_003825_003623_003985_032151_006113_130687,
  1_057134_000001_000003_000007_000003_000015_000029_000103_000181_000261_000149_001161_001745_001765_001677_020051_047033_084997,
  1_057141_000001_000003_000007_000001_000025_000021_000007_000229_000407_000673_001525_001207_003099_014849_022103_045695_085951,
  1_057146_000001_000003_000007_000001_000009_000005_000105_000149_000181_000081_001589_003477_005387_007943_029203_050355_039001,
  1_057156_000001_000003_000007_000001_000021_000031_000039_000121_000397_001023_000711_000623_006193_012315_011101_011911_050033,
  1_057174_000001_000003_000007_000003_000007_000019_000073_000069_000201_000337_001037_003663_002679_005153_028171_024455_074685,
  1_057183_000001_000003_000001_000001_000021_000035_000121_000111_000217_000809_000507_001347_004439_004601_026371_023595_003583,
  1_057189_000001_000003_000003_000007_000001_000051_000083_000231_000419_000597_000305_003405_005831_011845_001861_048671_105315,
  1_057190_000001_000003_000001_000015_000025_000037_000103_000141_000495_000727_001919_002821_004689_006727_027117_002259_054559,
  1_057193_000001_000003_000005_000003_000027_000055_000005_000117_000199_000979_001745_000401_007967_005345_029747_054085_124765,
  1_057196_000001_000003_000003_000015_000023_000061_000001_000029_000489_000131_000583_000389_006033_008007_022933_044513_111845,
  1_057207_000001_000001_000007_000013_000003_000055_000119_000147_000181_000485_000793_003593_006971_002227_028507_062393_127303,
  1_057211_000001_000001_000005_000003_000029_000053_000037_000059_000213_000283_001809_003685_002677_005761_019705_047079_003477,
  1_057214_000001_000001_000001_000007_000021_000063_000091_000013_000347_000605_000589_000415_005737_010281_030941_025609_067973,
  1_057218_000001_000001_000003_000001_000027_000049_000087_000161_000507_000693_000059_001375_006737_001029_014731_032335_051961,
  1_057230_000001_000003_000003_000009_000011_000015_000121_000121_000151_000335_000221_003099_001999_001047_020891_023015_095809,
  1_057235_000001_000001_000007_000007_000001_000049_000063_000227_000113_000161_000863_000801_002559_007737_027619_027419_128009,
  1_057241_000001_000001_000007_000001_000025_000059_000067_000111_000435_000309_000807_002107_008077_009671_006739_053757_041259,
  1_057251_000001_000003_000007_000003_000003_000019_000007_000111_000237_000981_001717_003131_006631_000467_013103_061435_126469,
  1_057260_000001_000001_000007_000009_000019_000031_000059_000185_000199_000111_000351_000611_006355_001095_028549_032871_044537,
  1_057263_000001_000001_000003_000011_000023_000025_000031_000001_000461_000083_001723_001711_003679_010963_014927_017377_000911,
  1_057265_000001_000001_000005_000013_000003_000037_000127_000159_000199_000223_001097_003033_005825_013777_022189_044305_020509,
  1_057271_000001_000001_000005_000015_000013_000049_000017_000079_000289_000601_001023_000657_001687_014477_015929_004279_068007,
  1_057272_000001_000001_000005_000007_000029_000003_000045_000225_000065_000711_001039_003585_004957_009041_022761_026649_095627,
  1_057290_000001_000003_000005_000005_000013_000029_000033_000211_000461_000799_001437_001057_000485_009535_008133_057527_012873,
  1_057295_000001_000001_000003_000003_000015_000043_000053_000015_000395_000561_001371_003543_007707_002399_013311_025641_058865,
  1_057298_000001_000003_000001_000007_000001_000009_000115_000039_000249_000087_000835_000097_008137_006665_011951_021045_076387,
  1_057325_000001_000003_000003_000009_000005_000063_000115_000163_000331_001007_000733_004027_002911_005329_006967_003535_107293,
  1_057328_000001_000003_000001_000011_000005_000055_000081_000063_000345_000535_001093_000207_004053_009129_010397_026641_095171,
  1_057340_000001_000001_000003_000003_000013_000027_000065_000037_000255_000069_000019_002565_004329_011223_018131_018701_031111,
  1_057344_000001_000003_000007_000007_000025_000057_000081_000189_000227_000377_000829_001583_001343_004643_023485_047463_083535,
  1_057353_000001_000003_000005_000009_000013_000033_000103_000075_000501_000803_000427_001171_001187_002655_024187_032907_120239,
  1_057368_000001_000003_000001_000007_000031_000063_000021_000137_000241_000063_001925_002193_001135_011159_014685_028397_000059,
  1_057371_000001_000001_000007_000001_000015_000007_000085_000087_000493_000063_000561_001069_005481_012253_025149_035283_016123,
  1_057383_000001_000003_000003_000005_000019_000017_000023_000095_000429_000805_001343_002243_000233_007219_006549_021477_083679,
  1_057402_000001_000003_000003_000001_000003_000055_000083_000107_000131_000311_000741_000781_006227_010059_003903_000235_045971,
  1_057407_000001_000001_000003_000013_000021_000043_000079_000149_000367_000755_000463_000221_005117_007015_017599_064665_037443,
  1_057419_000001_000001_000007_000015_000003_000059_000107_000013_000213_000287_001505_002131_006965_012873_023973_008449_024829,
  1_057424_000001_000003_000005_000011_000025_000045_000039_000017_000175_000749_001179_003349_006723_012543_003557_034521_103197,
  1_057433_000001_000001_000003_000013_000023_000041_000021_000025_000091_000941_000879_004015_000137_012949_017245_041903_039803,
  1_057452_000001_000001_000007_000015_000011_000033_000045_000127_000321_000895_001543_004013_006179_014209_013317_046803_099891,
  1_057458_000001_000003_000003_000013_000013_000011_000101_000011_000177_000869_000509_002323_000449_016379_031965_002899_059229,
  1_057467_000001_000001_000005_000007_000015_000037_000113_000237_000463_000489_001145_001629_003101_010305_031705_029957_099665,
  1_057470_000001_000003_000005_000007_000021_000029_000045_000133_000367_000657_001315_000537_006069_008141_031479_032983_000057,
  1_057473_000001_000001_000003_000009_000013_000039_000109_000125_000467_000975_000829_004007_000773_006639_008793_004579_060547,
  1_057479_000001_000001_000001_000015_000021_000005_000113_000051_000159_000501_001921_004095_005603_016055_016649_050229_049863,
  1_057480_000001_000001_000005_000013_000009_000021_000077_000187_000355_000299_001017_000491_006725_004177_016739_015909_084069,
  1_057486_000001_000003_000007_000005_000013_000013_000051_000019_000159_000339_000735_000933_002523_011435_020793_021975_019007,
  1_057491_000001_000001_000007_000005_000001_000011_000061_000111_000129_000643_001741_000945_007349_011579_024793_001751_002367,
  1_057493_000001_000001_000005_000005_000029_000045_000063_000177_000507_000277_001789_000729_004277_010099_028985_043009_002319,
  1_057524_000001_000003_000003_000013_000019_000053_000073_000227_000487_000131_001227_003735_003979_007383_006923_031979_006651,
  1_057528_000001_000003_000003_000015_000007_000047_000031_000255_000317_000621_000497_004069_005249_015093_018013_006891_081893,
  1_057534_000001_000001_000007_000005_000017_000023_000119_000027_000055_000555_000221_002693_001757_011117_023409_021135_122977,
  1_057542_000001_000001_000005_000001_000015_000017_000127_000109_000075_001017_001167_002975_003249_005399_012599_050779_078215,
  1_057560_000001_000003_000005_000005_000001_000013_000065_000199_000101_000075_000513_000493_006931_009363_005607_016331_069219,
  1_057565_000001_000001_000001_000015_000019_000037_000063_000177_000397_000645_000905_001599_000609_014291_014681_046719_117745,
  1_057570_000001_000003_000007_000013_000003_000057_000063_000049_000067_000913_001659_001857_003595_009219_011341_039735_082275,
  1_057579_000001_000001_000005_000011_000019_000001_000005_000181_000055_000763_000469_002417_002349_012437_022589_017867_095701,
  1_057590_000001_000003_000007_000013_000001_000009_000011_000159_000103_000737_001989_000059_004711_008093_031703_045663_092913,
  1_057601_000001_000003_000003_000011_000015_000009_000035_000217_000299_000479_001539_002605_002003_008841_027261_028853_098877,
  1_057604_000001_000001_000005_000005_000015_000045_000073_000159_000205_001017_000159_003659_002377_003651_006489_019711_109959,
  1_057607_000001_000001_000003_000015_000007_000041_000007_000047_000357_000433_000211_000111_002565_008637_015917_047887_128513,
  1_057621_000001_000003_000007_000003_000025_000009_000033_000033_000005_000805_001541_003333_007257_009011_004813_053195_052469,
  1_057635_000001_000001_000007_000015_000027_000003_000011_000057_000415_000371_000563_002515_000149_006555_031273_051465_002989,
  1_057642_000001_000001_000001_000011_000003_000041_000025_000175_000499_000879_001145_001083_007857_010497_016991_023351_115353,
  1_057650_000001_000001_000003_000015_000015_000009_000039_000239_000285_000413_000989_002927_007205_000079_020101_030115_113933,
  1_057655_000001_000001_000007_000005_000013_000029_000029_000069_000025_000533_001731_001391_004065_012597_019167_051989_101273,
  1_057670_000001_000001_000005_000003_000009_000041_000083_000127_000197_000627_000173_000273_000593_015733_019285_026517_107877,
  1_057676_000001_000001_000001_000005_000029_000017_000089_000163_000125_000473_001577_002435_003379_003057_001829_064325_111719,
  1_057682_000001_000003_000001_000011_000001_000029_000097_000053_000421_000941_001737_003337_002715_001633_028485_030369_116047,
  1_057687_000001_000001_000005_000013_000025_000043_000039_000085_000385_000129_000819_001647_003527_012319_000573_058703_029463,
  1_057691_000001_000003_000003_000009_000023_000059_000031_000215_000049_000451_000645_003687_004507_009359_028161_034609_123409,
  1_057700_000001_000003_000001_000009_000013_000025_000097_000239_000203_000031_001465_001089_007665_003007_022465_028389_119869,
  1_057704_000001_000003_000003_000001_000029_000051_000019_000083_000443_000193_000647_003125_007269_003031_009967_040447_102179,
  1_057707_000001_000003_000005_000015_000005_000063_000125_000055_000295_000787_000559_003309_007491_009907_005775_015155_041793,
  1_057721_000001_000003_000007_000007_000021_000061_000125_000207_000043_000159_000539_000435_001945_000725_000797_047489_043099,
  1_057731_000001_000001_000005_000007_000011_000011_000061_000103_000023_000693_000493_001045_004435_009009_022075_024839_125431,
  1_057733_000001_000003_000001_000009_000013_000061_000083_000181_000373_000949_001397_000247_005079_010933_031887_014147_055121,
  1_057738_000001_000001_000007_000015_000031_000047_000087_000219_000357_000409_000943_002993_007615_007071_014179_041489_104401,
  1_057745_000001_000003_000003_000001_000011_000015_000087_000241_000389_000761_001523_003049_002111_011581_005493_011301_032017]

def dirRows17_2_16 : List Nat := [
  1_057748_000001_000001_000007_000011_000029_000039_000037_000063_000411_000671_001789_003541_005651_011721_010871_053867_112895,
  1_057751_000001_000003_000003_000001_000023_000021_000099_000161_000467_000197_001263_000451_005469_007667_022139_031599_008345,
  1_057757_000001_000003_000001_000003_000011_000041_000013_000079_000003_000377_001865_002297_001383_014033_017141_024787_127911,
  1_057761_000001_000001_000001_000001_000005_000011_000005_000181_000323_000853_000831_001599_003939_006391_022817_037969_009997,
  1_057774_000001_000001_000003_000011_000029_000061_000011_000171_000181_000631_000757_003879_004779_016183_005969_007909_042855,
  1_057779_000001_000003_000003_000015_000019_000017_000107_000187_000019_000743_000909_001963_002131_002107_000659_035829_057905,
  1_057786_000001_000001_000007_000001_000031_000029_000067_000099_000353_000715_000065_003907_001931_001289_009217_060635_032737,
  1_057808_000001_000003_000003_000013_000003_000017_000019_000173_000263_000203_001233_001407_000933_008905_026905_063343_064963,
  1_057814_000001_000003_000001_000013_000021_000043_000097_000079_000163_000529_001571_001027_004339_016235_009189_029203_036789,
  1_057817_000001_000001_000007_000001_000031_000001_000117_000247_000193_000333_001797_003515_000285_002803_025345_009101_110569,
  1_057824_000001_000001_000005_000011_000017_000063_000045_000167_000035_000925_000569_003687_006739_012453_026171_028249_073827,
  1_057827_000001_000001_000005_000001_000019_000049_000107_000183_000435_000305_001191_002711_000891_015813_013449_023489_089749,
  1_057848_000001_000001_000001_000011_000007_000053_000105_000017_000433_000351_001151_004077_005371_010183_018895_013229_101219,
  1_057853_000001_000003_000007_000009_000021_000033_000027_000125_000177_000607_000817_002689_002123_002037_029643_027219_044591,
  1_057857_000001_000003_000005_000011_000027_000051_000029_000161_000469_000349_001445_003613_001487_000961_029017_002235_045905,
  1_057858_000001_000001_000003_000011_000007_000015_000037_000195_000329_000875_000559_001361_007373_007143_015059_059205_037167,
  1_057867_000001_000001_000005_000001_000007_000025_000027_000211_000301_000369_000227_000123_004415_015993_004829_043801_083639,
  1_057872_000001_000001_000003_000005_000025_000037_000031_000205_000069_000275_000855_001407_002989_011001_016963_031497_003505,
  1_057887_000001_000001_000007_000007_000025_000033_000081_000181_000197_000717_000207_000535_008083_005765_002523_040347_027245,
  1_057894_000001_000003_000001_000005_000013_000003_000107_000143_000233_000419_001831_002149_007277_013449_031609_048345_082621,
  1_057915_000001_000003_000005_000009_000031_000035_000039_000113_000415_000803_001479_003169_008015_004659_002445_009159_091625,
  1_057920_000001_000003_000001_000005_000027_000025_000083_000165_000459_000955_001535_000377_005531_002945_018285_018097_021589,
  1_057923_000001_000001_000001_000015_000013_000023_000011_000159_000471_000951_001971_000677_002641_003227_014761_039421_029841,
  1_057932_000001_000001_000007_000011_000019_000037_000101_000097_000373_000559_000105_000905_000897_015309_014979_052029_038989,
  1_057937_000001_000001_000005_000015_000031_000043_000071_000075_000481_000997_000005_001005_004987_007907_016237_043075_094827,
  1_057943_000001_000003_000005_000011_000023_000055_000123_000091_000183_000307_000097_001999_003341_004717_019643_009455_026555,
  1_057950_000001_000001_000007_000003_000029_000061_000075_000197_000125_000579_000145_001333_000085_015655_028177_006169_043289,
  1_057960_000001_000003_000007_000013_000021_000015_000001_000221_000293_000991_000035_002701_002909_007333_027319_032281_077861,
  1_057971_000001_000001_000003_000001_000017_000011_000081_000209_000499_000125_000105_002987_003891_009531_027963_039611_043633,
  1_057974_000001_000003_000003_000003_000029_000045_000051_000063_000209_000075_001321_004055_007851_012329_008371_059513_049105,
  1_057983_000001_000001_000007_000005_000009_000063_000059_000127_000445_000899_001857_003737_000625_015021_025177_021007_025935,
  1_057987_000001_000001_000005_000009_000009_000057_000025_000063_000235_000191_001527_001783_001401_001813_002553_001241_100029,
  1_057994_000001_000003_000001_000011_000027_000005_000049_000039_000505_000653_001083_000921_001045_011337_025499_036211_075851,
  1_058001_000001_000003_000003_000001_000029_000019_000071_000093_000223_000153_000561_001657_005821_014181_001275_024633_114787,
  1_058002_000001_000001_000001_000009_000007_000013_000017_000239_000457_000731_001811_003015_004465_005865_002387_030455_017405,
  1_058013_000001_000003_000005_000001_000007_000045_000117_000207_000007_000645_000131_000863_006443_014455_011885_039257_126431,
  1_058023_000001_000001_000003_000005_000017_000023_000003_000027_000475_000731_000431_001967_000981_012727_001301_017647_062481,
  1_058027_000001_000001_000001_000013_000011_000053_000105_000109_000105_000461_001787_002851_001299_009925_013055_058301_024483,
  1_058029_000001_000001_000001_000011_000007_000035_000011_000173_000247_000289_001269_000361_002059_005051_025731_058085_021387,
  1_058032_000001_000003_000001_000005_000009_000031_000059_000151_000435_000519_001863_002255_002585_010033_029189_027189_025023,
  1_058041_000001_000001_000005_000005_000025_000017_000053_000189_000187_000847_000369_003287_006047_002385_026045_048821_023335,
  1_058047_000001_000001_000001_000009_000015_000055_000079_000021_000433_000131_001677_003681_006173_009189_015053_012971_081135,
  1_058062_000001_000001_000003_000005_000029_000005_000011_000213_000151_000077_001493_003959_007675_007689_010381_015871_123463,
  1_058086_000001_000003_000007_000011_000019_000047_000031_000081_000207_000789_001945_002671_001987_006363_026401_009799_059531,
  1_058092_000001_000001_000001_000007_000017_000007_000083_000181_000339_000423_000267_002251_001847_014883_013423_027223_081799,
  1_058095_000001_000003_000005_000015_000009_000009_000073_000095_000197_000267_000743_002369_006417_003555_009885_006373_087651,
  1_058097_000001_000001_000003_000013_000021_000029_000057_000059_000395_000631_000993_000017_002939_014117_027521_061387_074927,
  1_058100_000001_000001_000003_000013_000001_000029_000023_000151_000381_000591_001217_002295_004403_015865_004325_031329_056989,
  1_058117_000001_000003_000005_000001_000027_000007_000111_000079_000287_000945_001237_002857_001461_002477_010929_017117_098677,
  1_058121_000001_000001_000001_000005_000015_000035_000109_000039_000391_000057_001783_003133_005563_007721_012651_003437_046697,
  1_058132_000001_000003_000005_000005_000013_000047_000123_000051_000383_000091_000641_001607_004461_000007_006427_042755_130097,
  1_058142_000001_000001_000005_000005_000025_000049_000033_000059_000351_001003_000301_002721_007705_005447_021367_063007_112465,
  1_058145_000001_000001_000005_000013_000031_000011_000073_000001_000359_000201_001465_000187_007385_012817_012911_017775_077937,
  1_058152_000001_000003_000001_000015_000029_000005_000117_000069_000079_000093_000947_000133_001049_013907_003611_042123_008041,
  1_058155_000001_000001_000007_000007_000029_000017_000071_000171_000357_000619_001199_003817_006889_009607_019075_015539_054939,
  1_058163_000001_000001_000001_000007_000023_000029_000091_000227_000119_000865_000943_000381_005289_000189_015917_013875_031095,
  1_058166_000001_000001_000007_000001_000009_000049_000093_000175_000105_000061_001285_003659_002383_000505_012337_043801_067035,
  1_058170_000001_000003_000005_000001_000031_000047_000075_000017_000455_000231_001887_002295_002533_000733_029001_022001_119423,
  1_058175_000001_000003_000007_000003_000005_000005_000069_000205_000459_000805_001257_003283_003305_006845_001405_056051_063453,
  1_058184_000001_000003_000003_000003_000019_000057_000065_000149_000175_000683_001719_000637_004951_013645_030455_022379_105369,
  1_058197_000001_000003_000001_000011_000031_000027_000069_000013_000191_000645_001563_003897_002387_002269_012999_042217_100853,
  1_058202_000001_000003_000001_000013_000031_000007_000011_000227_000267_000373_001249_002591_004769_000303_005865_059911_004991,
  1_058204_000001_000003_000007_000011_000007_000031_000087_000205_000045_000785_001947_001965_005851_007501_000089_038897_091939,
  1_058208_000001_000003_000005_000009_000021_000037_000079_000181_000163_000355_001129_003439_005103_015903_002935_022505_097451,
  1_058213_000001_000001_000003_000009_000007_000037_000107_000255_000069_000133_000551_001357_000031_007059_029195_030151_081785,
  1_058220_000001_000003_000003_000005_000003_000051_000003_000143_000305_000697_001041_001267_007635_001483_000649_028275_065059,
  1_058226_000001_000003_000001_000007_000011_000013_000113_000081_000159_000993_000797_003207_003787_013005_029393_051107_042709,
  1_058231_000001_000001_000003_000013_000007_000011_000113_000195_000349_000377_002033_000197_000147_013839_005405_029577_064535,
  1_058235_000001_000003_000001_000009_000001_000001_000077_000073_000383_000463_001871_001589_001805_002085_005195_017805_033159,
  1_058254_000001_000001_000001_000009_000025_000037_000123_000119_000507_000515_001547_000139_007501_004725_030195_018199_041145,
  1_058261_000001_000003_000003_000007_000017_000033_000099_000011_000487_000343_000403_000337_003831_006031_020375_002071_039795,
  1_058271_000001_000001_000005_000001_000013_000057_000059_000011_000391_000953_000597_001411_003929_013963_015003_059385_012293,
  1_058278_000001_000003_000001_000015_000023_000061_000067_000129_000063_000555_000433_000631_002725_000317_010121_009217_124371,
  1_058287_000001_000001_000005_000007_000019_000023_000017_000045_000075_000819_001879_002315_001439_002643_026561_019209_016081,
  1_058327_000001_000003_000005_000007_000005_000035_000121_000233_000091_000089_001741_003015_004223_009605_022795_055845_047167,
  1_058333_000001_000003_000007_000007_000013_000023_000011_000051_000091_000367_000773_001303_002151_014423_022263_028413_107461,
  1_058337_000001_000001_000001_000011_000029_000017_000049_000053_000379_000819_001551_002907_005805_002167_016123_009263_043903,
  1_058357_000001_000003_000001_000013_000019_000027_000033_000127_000131_000697_000489_003289_001895_003243_019497_032419_055741,
  1_058362_000001_000003_000001_000015_000007_000051_000091_000045_000251_000829_002015_002659_000151_003327_025281_049291_106343,
  1_058364_000001_000001_000005_000005_000027_000011_000085_000045_000203_000413_000293_003067_004109_000959_022337_038767_075829,
  1_058375_000001_000001_000003_000005_000021_000035_000065_000173_000315_000423_000171_003837_000817_010153_005517_018115_117437,
  1_058384_000001_000001_000001_000007_000009_000029_000101_000055_000253_000037_001717_000007_003181_001067_020637_054773_106777,
  1_058387_000001_000003_000007_000011_000013_000011_000087_000083_000083_000969_000589_003625_003373_003921_024487_034235_096289,
  1_058405_000001_000003_000001_000011_000025_000035_000065_000131_000491_000167_000449_002949_005807_005649_007569_037363_106819,
  1_058406_000001_000001_000005_000001_000009_000037_000033_000237_000079_000163_001791_003499_004951_002009_016183_010121_040221,
  1_058417_000001_000001_000005_000015_000021_000049_000123_000053_000027_000273_001655_003713_005699_001659_031985_006779_010195,
  1_058424_000001_000003_000005_000011_000027_000037_000093_000017_000263_000041_001583_000703_007689_006667_015497_015255_067153,
  1_058435_000001_000001_000005_000009_000019_000013_000121_000039_000321_000177_000711_003223_003859_014775_019061_040587_097199,
  1_058450_000001_000003_000007_000009_000023_000011_000093_000243_000003_000811_000679_001103_007579_014147_020255_022485_117179,
  1_058452_000001_000003_000003_000005_000023_000009_000021_000243_000027_000501_001273_001501_005331_015663_019483_010637_090905,
  1_058459_000001_000003_000001_000015_000013_000011_000089_000037_000063_000463_000731_003615_003923_004677_021329_001069_057565,
  1_058461_000001_000001_000001_000013_000019_000039_000063_000059_000389_000367_001285_002005_008103_004179_003805_055475_126589,
  1_058466_000001_000003_000005_000011_000027_000057_000027_000063_000365_000171_000665_002035_002831_015955_011551_026741_121059,
  1_058468_000001_000003_000003_000003_000023_000019_000013_000007_000331_000613_001783_000733_007465_001089_004683_015695_031125,
  1_058485_000001_000001_000005_000003_000003_000023_000095_000157_000303_000987_000307_002679_006173_006633_017727_030901_076109,
  1_058489_000001_000001_000001_000001_000011_000021_000111_000081_000031_000727_001133_004083_005811_002707_031749_042939_092225,
  1_058492_000001_000003_000001_000011_000029_000021_000031_000115_000351_000213_000201_003511_003707_012821_008845_059789_059721,
  1_058495_000001_000003_000005_000009_000007_000027_000065_000001_000305_000937_001201_002045_002431_012275_024431_003317_119671,
  1_058505_000001_000001_000007_000011_000019_000043_000107_000107_000261_000933_001125_001875_001943_007477_020759_057853_029459,
  1_058523_000001_000001_000003_000003_000017_000043_000079_000019_000167_000341_000237_000677_000725_002353_012003_048921_020707]

def dirRows17_2_17 : List Nat := [
  1_058535_000001_000003_000003_000005_000031_000039_000091_000081_000121_000059_000737_001767_004407_009159_010237_025361_038891,
  1_058536_000001_000001_000005_000007_000031_000047_000037_000047_000171_000623_000597_002807_004875_015139_018809_024279_036563,
  1_058549_000001_000003_000005_000003_000003_000007_000031_000135_000081_000777_001055_000337_004309_009575_011075_054429_030097,
  1_058550_000001_000001_000005_000001_000003_000057_000053_000025_000117_000961_000947_000257_002645_006935_027511_054051_129095,
  1_058561_000001_000001_000001_000015_000023_000045_000011_000173_000407_000373_001051_003519_001875_001291_004393_009047_102159,
  1_058562_000001_000001_000003_000005_000009_000051_000023_000253_000261_000339_000505_003601_000265_008375_007241_040715_114439,
  1_058573_000001_000001_000007_000007_000003_000063_000005_000233_000259_000947_001367_002699_006029_009371_006567_039961_031621,
  1_058576_000001_000001_000003_000003_000025_000043_000073_000061_000305_000257_000235_000421_006621_001025_018831_044525_087665,
  1_058592_000001_000003_000005_000007_000019_000033_000077_000163_000191_000115_001275_003551_003521_006767_030209_048895_114185,
  1_058601_000001_000001_000003_000003_000029_000037_000003_000165_000267_000807_000967_002893_003287_012249_021411_019291_091781,
  1_058622_000001_000001_000005_000005_000027_000055_000051_000137_000429_000775_001525_003911_005367_005981_024373_016331_031887,
  1_058627_000001_000001_000005_000011_000017_000049_000037_000243_000509_000563_001381_002013_007341_010509_010049_029135_032709,
  1_058629_000001_000001_000003_000013_000001_000033_000119_000005_000477_000701_001329_001023_002091_012895_006443_001053_044741,
  1_058634_000001_000003_000005_000007_000013_000019_000001_000113_000003_000481_001555_002857_003519_007903_016153_062909_078877,
  1_058639_000001_000001_000007_000011_000007_000027_000047_000175_000087_000605_000411_004065_008059_005023_027719_003111_062247,
  1_058641_000001_000003_000001_000015_000027_000037_000071_000077_000297_000647_001651_002543_003925_004827_028587_049663_056581,
  1_058644_000001_000003_000005_000001_000019_000049_000063_000009_000043_000243_000931_003577_002371_010513_013691_027739_061011,
  1_058654_000001_000001_000003_000001_000023_000027_000053_000149_000157_000735_001087_001529_006613_002493_004879_026771_123711,
  1_058663_000001_000003_000007_000013_000005_000003_000043_000003_000343_000497_000943_003443_004335_004779_004033_025871_010965,
  1_058667_000001_000003_000005_000001_000005_000011_000093_000073_000199_000455_000421_003495_004381_000717_021033_041287_044743,
  1_058677_000001_000001_000003_000009_000013_000033_000077_000143_000081_000057_001061_003205_002411_001347_023149_021913_119331,
  1_058682_000001_000003_000001_000007_000001_000015_000045_000247_000119_000905_000457_003939_004865_011191_027705_046315_068367,
  1_058690_000001_000003_000003_000015_000031_000005_000055_000169_000381_001009_001893_002751_000411_008653_030367_054919_023541,
  1_058692_000001_000003_000007_000001_000029_000027_000077_000239_000109_000125_000355_002759_002229_003435_016241_053309_000613,
  1_058695_000001_000003_000001_000003_000011_000027_000033_000167_000311_001003_001635_002479_001831_006225_017711_030185_087043,
  1_058710_000001_000003_000007_000013_000007_000061_000003_000243_000055_000259_000461_003357_000121_009107_019393_003719_071403,
  1_058713_000001_000001_000007_000015_000023_000025_000055_000089_000241_000297_000113_000059_004799_000381_029127_000811_091149,
  1_058723_000001_000001_000003_000003_000013_000035_000043_000163_000069_000069_001949_002383_000887_002349_012539_000167_023697,
  1_058740_000001_000003_000003_000011_000003_000045_000023_000149_000055_000963_001293_002715_001401_016081_012821_002129_026835,
  1_058749_000001_000003_000003_000013_000029_000047_000021_000249_000141_000179_000627_000329_006377_012049_011715_001447_119359,
  1_058760_000001_000001_000005_000013_000007_000059_000103_000189_000401_000169_000455_001197_001881_012679_004533_025561_079281,
  1_058766_000001_000001_000007_000015_000021_000059_000097_000077_000397_000487_000647_002277_000269_000713_017741_037387_100143,
  1_058773_000001_000003_000005_000001_000001_000043_000031_000201_000021_000805_001533_001407_004719_002673_022757_007605_072485,
  1_058780_000001_000001_000003_000011_000027_000025_000099_000135_000225_000367_001311_000683_007193_008209_017081_055709_003029,
  1_058787_000001_000003_000005_000005_000017_000009_000059_000027_000153_000353_000647_002919_001877_005359_019787_046237_000007,
  1_058796_000001_000003_000003_000015_000011_000039_000075_000223_000489_000057_001355_003941_006603_012883_020909_024065_053543,
  1_058816_000001_000001_000003_000009_000017_000047_000061_000049_000397_000023_002019_000037_000023_008967_010357_054419_027279,
  1_058822_000001_000001_000001_000007_000031_000043_000087_000111_000293_000969_001431_002275_003131_002915_024595_063049_071517,
  1_058831_000001_000001_000003_000011_000011_000063_000089_000033_000095_000299_000593_003353_007389_000841_001895_064835_019915,
  1_058839_000001_000001_000001_000003_000013_000063_000051_000003_000327_000401_001289_002699_005599_005101_003189_023415_053429,
  1_058849_000001_000001_000007_000013_000027_000015_000057_000201_000365_000643_000171_002417_001763_007567_005323_050911_024281,
  1_058859_000001_000003_000003_000013_000031_000037_000031_000243_000225_000431_000379_001565_001567_011477_004641_058823_088565,
  1_058870_000001_000003_000003_000007_000013_000039_000079_000169_000401_000177_002023_001703_005563_015619_021445_059287_030141,
  1_058879_000001_000003_000003_000015_000017_000047_000013_000163_000361_000353_001435_002083_004109_014105_028585_001721_119133,
  1_058889_000001_000003_000003_000003_000029_000041_000097_000131_000501_000415_001735_002315_006499_011417_003879_003957_047117,
  1_058904_000001_000001_000003_000013_000005_000025_000029_000065_000235_000949_001571_000927_000515_007519_023123_004127_071019,
  1_058914_000001_000001_000005_000013_000001_000041_000005_000137_000487_000711_000561_002495_005367_006955_009453_054499_118373,
  1_058923_000001_000003_000003_000005_000027_000015_000023_000237_000095_000873_001949_001579_007089_008837_030463_009903_061919,
  1_058940_000001_000003_000001_000013_000005_000005_000015_000005_000429_000617_000383_002495_000409_015541_011209_020625_058493,
  1_058945_000001_000001_000007_000011_000025_000021_000113_000219_000459_000777_000289_002435_006665_000083_022997_006561_082923,
  1_058952_000001_000001_000001_000007_000019_000053_000037_000249_000273_000639_002007_001463_007819_009013_019539_041235_058059,
  1_058960_000001_000001_000003_000011_000013_000051_000097_000055_000237_000159_001305_003705_002527_013065_013873_010275_003769,
  1_058965_000001_000001_000005_000007_000013_000049_000041_000013_000301_000461_001169_003805_007163_004133_017255_048283_087059,
  1_058986_000001_000003_000007_000015_000009_000019_000045_000195_000445_000145_000543_002839_000315_010991_003317_046501_029209,
  1_059000_000001_000001_000003_000005_000023_000051_000053_000119_000217_000747_001307_003039_005523_005891_021035_056471_080305,
  1_059006_000001_000003_000001_000003_000023_000017_000097_000071_000007_000839_000229_003407_003025_001989_016599_038755_011139,
  1_059027_000001_000001_000007_000007_000007_000019_000067_000043_000293_000191_001549_001621_007083_011633_001899_004515_089753,
  1_059034_000001_000003_000007_000011_000001_000023_000017_000063_000265_000709_000453_001309_006861_007257_017705_028565_015231,
  1_059052_000001_000003_000005_000013_000001_000053_000099_000079_000241_000771_000497_000987_002353_006931_000227_057781_109583,
  1_059058_000001_000003_000003_000005_000031_000047_000017_000097_000093_000119_002045_003597_007983_004993_030659_003419_032803,
  1_059081_000001_000003_000007_000001_000011_000041_000003_000007_000155_000627_000979_002405_007467_006763_028523_056493_001291,
  1_059082_000001_000001_000001_000007_000003_000043_000013_000187_000415_001001_000667_001371_008075_012855_027215_009399_070657,
  1_059089_000001_000003_000001_000009_000029_000053_000117_000017_000443_000381_000507_000643_005891_010725_020251_000497_101313,
  1_059096_000001_000003_000003_000001_000031_000047_000059_000075_000173_000347_000001_000117_003639_010231_000863_056795_056107,
  1_059118_000001_000003_000001_000015_000011_000041_000097_000251_000177_000275_001849_001281_003659_009709_016239_007445_047661,
  1_059123_000001_000003_000003_000005_000013_000001_000027_000251_000089_000863_000685_003915_002201_004313_032083_037171_120885,
  1_059126_000001_000003_000003_000003_000003_000011_000077_000135_000147_000475_000505_000611_004763_009445_028639_051343_119093,
  1_059132_000001_000003_000007_000001_000011_000009_000067_000073_000375_000977_001011_001621_006623_008077_026321_007461_130637,
  1_059135_000001_000003_000005_000015_000015_000059_000063_000217_000117_000375_001151_003451_005843_013221_020673_010817_057711,
  1_059150_000001_000001_000003_000005_000019_000005_000009_000101_000321_000815_000451_000719_000523_001299_027823_048041_045939,
  1_059174_000001_000001_000001_000009_000005_000049_000059_000059_000409_000005_001075_000021_007837_004543_003085_055473_089309,
  1_059177_000001_000003_000003_000013_000009_000031_000093_000181_000153_000795_000713_000933_006001_009075_029781_014029_046361,
  1_059185_000001_000003_000005_000003_000009_000021_000079_000129_000361_000627_000743_003041_005381_003627_012581_035183_083183,
  1_059195_000001_000003_000003_000003_000029_000029_000093_000187_000341_000727_000181_000133_006525_005673_002739_023349_062505,
  1_059203_000001_000003_000005_000013_000027_000059_000127_000149_000321_000613_001543_001537_002909_005139_003755_049285_035183,
  1_059206_000001_000003_000003_000009_000005_000031_000019_000173_000137_000019_000799_001847_003897_015775_022411_055405_095713,
  1_059234_000001_000003_000005_000005_000031_000001_000087_000097_000481_000797_000459_000793_004339_005443_031717_006691_068841,
  1_059248_000001_000003_000003_000005_000003_000009_000123_000021_000393_000683_001007_000971_000729_007113_002811_051183_037093,
  1_059258_000001_000003_000005_000005_000027_000031_000019_000227_000123_000937_000763_002117_003825_009151_000095_054963_062919,
  1_059260_000001_000003_000001_000003_000023_000021_000021_000007_000007_000165_000099_003073_000091_008725_017613_047119_041441,
  1_059270_000001_000003_000007_000009_000029_000049_000117_000049_000205_000605_001567_003323_001559_010949_014349_034951_099901,
  1_059284_000001_000001_000001_000001_000015_000041_000031_000133_000439_000305_000719_000147_006849_005947_031749_045171_015265,
  1_059291_000001_000001_000005_000011_000019_000037_000013_000253_000385_000625_001801_001191_000547_012025_017971_054127_097323,
  1_059293_000001_000003_000005_000005_000027_000009_000057_000245_000059_000211_001195_000763_006743_006309_025759_026633_027497,
  1_059297_000001_000003_000005_000005_000009_000051_000049_000029_000213_000855_000305_003961_003187_006815_019015_002539_081705,
  1_059312_000001_000001_000005_000007_000011_000061_000123_000163_000127_000871_000463_002279_005931_002913_023215_040215_091373,
  1_059315_000001_000001_000007_000001_000029_000057_000055_000189_000285_000603_000747_003753_003359_010277_025319_017569_080125,
  1_059327_000001_000003_000001_000009_000007_000053_000009_000055_000117_000495_002045_002487_001625_000775_017773_062159_079537,
  1_059332_000001_000001_000005_000001_000001_000011_000067_000079_000057_000677_002045_003913_000853_003581_010509_035097_024585,
  1_059347_000001_000003_000007_000007_000019_000015_000013_000237_000297_000807_000657_002229_002931_010283_000049_056485_113889,
  1_059354_000001_000003_000005_000013_000011_000023_000037_000229_000253_000411_000039_001069_003683_012141_011087_064875_062991,
  1_059363_000001_000001_000001_000001_000013_000011_000021_000227_000305_001021_001039_003095_004621_005723_031989_030681_058487,
  1_059369_000001_000003_000003_000005_000017_000047_000127_000065_000085_000961_000277_000549_002111_004183_000771_011921_111489,
  1_059377_000001_000003_000003_000005_000031_000039_000089_000051_000277_000705_000375_001603_002793_007425_025065_044945_048391,
  1_059406_000001_000001_000005_000007_000009_000045_000021_000217_000183_000065_000625_001239_004241_008043_013615_005611_082501,
  1_059413_000001_000001_000007_000013_000015_000051_000029_000035_000073_000601_000233_003117_003031_004229_004299_062761_045291,
  1_059423_000001_000003_000005_000005_000027_000055_000007_000001_000333_000501_000913_001939_005131_005597_001271_030195_020947,
  1_059434_000001_000003_000005_000015_000019_000027_000043_000111_000435_000615_000811_002113_002503_007553_001619_024773_040881,
  1_059441_000001_000003_000005_000011_000011_000031_000021_000147_000151_000141_000527_001839_000339_001225_029621_019691_022031,
  1_059442_000001_000001_000003_000013_000023_000035_000061_000181_000221_000837_000241_003033_001849_012563_011387_003027_033419]

def dirRows17_2_18 : List Nat := [
  1_059456_000001_000003_000003_000007_000001_000039_000125_000249_000231_000575_001847_000197_003969_012945_010257_027227_094097,
  1_059465_000001_000003_000001_000011_000019_000007_000085_000119_000037_000253_001575_000447_006947_014399_032095_015385_062917,
  1_059479_000001_000003_000007_000011_000023_000053_000113_000193_000253_000651_001717_000447_004055_013675_018479_028375_066475,
  1_059501_000001_000001_000007_000003_000017_000027_000013_000209_000067_000271_000121_001565_002589_008033_003939_014181_111787,
  1_059504_000001_000001_000003_000003_000005_000057_000075_000087_000165_000947_000967_003353_002055_016195_003701_062637_058343,
  1_059507_000001_000001_000007_000013_000031_000041_000125_000111_000253_000257_000057_000679_003333_008259_026331_015883_095023,
  1_059514_000001_000003_000007_000011_000001_000047_000005_000249_000353_000271_001121_001935_004971_008447_009983_055959_066179,
  1_059523_000001_000003_000005_000011_000001_000061_000101_000043_000097_000241_000687_004027_004319_004905_012357_051099_097093,
  1_059525_000001_000001_000003_000015_000025_000025_000117_000139_000475_000961_001585_002795_002411_011049_018209_015511_043193,
  1_059526_000001_000003_000003_000009_000009_000011_000107_000015_000189_000027_000289_003111_000851_003401_031981_007181_047533,
  1_059537_000001_000001_000005_000015_000031_000057_000037_000077_000205_000707_001505_001343_000629_013335_006719_035405_038905,
  1_059543_000001_000003_000007_000007_000021_000063_000035_000125_000507_000285_000621_002257_003009_013703_009761_054927_016925,
  1_059560_000001_000001_000001_000011_000011_000053_000037_000017_000167_000663_001349_001395_007721_009329_002161_037093_052425,
  1_059563_000001_000001_000007_000009_000001_000015_000113_000053_000087_000133_000131_000847_000609_014737_001639_015511_046987,
  1_059566_000001_000001_000007_000007_000025_000021_000125_000149_000201_000791_001323_002817_001141_000289_014349_064461_076575,
  1_059577_000001_000003_000003_000007_000015_000001_000123_000227_000083_000967_002039_003205_000715_010787_011235_050375_066911,
  1_059580_000001_000003_000003_000011_000009_000045_000041_000057_000327_000903_001705_003947_003173_001035_025529_015217_080795,
  1_059586_000001_000003_000001_000013_000015_000063_000069_000057_000479_000277_001641_003465_002629_009901_005781_055101_033049,
  1_059597_000001_000001_000003_000003_000031_000025_000057_000189_000491_000335_000373_003069_001623_010781_006559_027057_111491,
  1_059612_000001_000003_000003_000015_000019_000057_000067_000225_000343_000093_000315_001011_004437_010371_027927_051269_065653,
  1_059615_000001_000003_000005_000005_000021_000043_000105_000153_000065_000167_000369_003167_000785_007509_003753_009035_029039,
  1_059622_000001_000001_000007_000003_000017_000009_000113_000021_000175_000967_000013_002701_005667_009761_020267_033497_088819,
  1_059631_000001_000001_000001_000007_000009_000061_000121_000205_000283_000259_002027_002361_003995_006787_026867_061681_096149,
  1_059657_000001_000003_000003_000013_000031_000037_000125_000151_000317_000947_000423_002907_006905_013247_027997_004755_073173,
  1_059660_000001_000001_000007_000013_000001_000063_000085_000075_000033_000483_000085_001583_004783_014003_031147_012643_099447,
  1_059665_000001_000001_000001_000007_000031_000005_000093_000179_000213_000857_000003_001015_001481_002413_028759_013941_024851,
  1_059671_000001_000001_000005_000005_000005_000035_000073_000057_000469_000885_001951_003599_005555_007259_022599_007627_109227,
  1_059675_000001_000001_000005_000013_000001_000001_000069_000107_000473_000793_001851_000887_002241_007851_021821_025431_118565,
  1_059688_000001_000001_000001_000003_000015_000051_000057_000175_000091_000113_001671_000925_002187_001097_028793_045819_041855,
  1_059706_000001_000001_000003_000003_000015_000051_000099_000177_000379_000713_001273_003245_005515_014657_028981_001197_029283,
  1_059708_000001_000003_000003_000015_000013_000027_000029_000007_000017_000373_000779_001589_003077_013673_031029_043765_074339,
  1_059713_000001_000001_000003_000001_000025_000017_000015_000223_000219_000569_000155_001307_007143_007975_022581_053223_044271,
  1_059714_000001_000001_000001_000007_000011_000023_000067_000177_000189_000267_001799_002453_002367_004193_001827_010191_012265,
  1_059720_000001_000003_000003_000011_000003_000029_000121_000231_000211_000191_001803_001171_006801_004007_014111_042951_008311,
  1_059737_000001_000003_000003_000011_000009_000023_000011_000231_000349_000047_001645_000345_003681_012227_029955_032131_000391,
  1_059743_000001_000001_000003_000011_000027_000017_000017_000049_000463_000173_001993_002339_003763_001931_029969_055579_114805,
  1_059744_000001_000003_000005_000015_000005_000021_000105_000069_000173_000771_000815_003807_000577_012589_032193_037601_023961,
  1_059749_000001_000001_000003_000009_000021_000063_000057_000213_000327_000765_000333_002065_000719_006159_015769_049335_002289,
  1_059756_000001_000003_000003_000001_000027_000051_000013_000087_000465_000729_000507_002811_006721_014279_031733_056165_078169,
  1_059783_000001_000001_000001_000009_000025_000001_000047_000037_000407_000623_001409_003703_004491_003037_008129_013547_050517,
  1_059784_000001_000003_000005_000013_000005_000051_000127_000225_000215_000377_001013_002387_004237_001317_005245_017535_100707,
  1_059787_000001_000003_000005_000013_000031_000025_000123_000243_000317_000505_000483_001743_003097_004139_004525_063143_047665,
  1_059795_000001_000003_000003_000013_000027_000019_000021_000187_000211_000471_001931_002877_003635_009233_012385_015741_050843,
  1_059804_000001_000001_000003_000013_000023_000033_000071_000045_000371_000621_001057_001605_006329_003763_008613_002965_008141,
  1_059811_000001_000001_000005_000007_000007_000017_000033_000209_000293_000035_001665_003721_006245_014567_015349_016195_059757,
  1_059814_000001_000001_000007_000007_000031_000019_000047_000083_000277_000323_001225_000969_002193_010175_027657_050265_009817,
  1_059823_000001_000001_000005_000007_000015_000021_000103_000095_000189_000737_000309_000357_005953_009701_015757_020753_088647,
  1_059838_000001_000001_000005_000013_000005_000013_000061_000235_000333_000889_001559_001653_001871_010631_018067_047037_009507,
  1_059840_000001_000003_000007_000001_000031_000061_000069_000159_000041_000107_000807_001517_003551_003435_006151_050025_126949,
  1_059846_000001_000001_000007_000015_000007_000041_000055_000103_000009_000105_001397_003955_007723_003389_032435_036005_073733,
  1_059849_000001_000001_000001_000013_000015_000059_000043_000151_000321_000215_000411_003103_007455_014041_001673_056425_059085,
  1_059855_000001_000001_000001_000001_000005_000039_000081_000183_000509_000455_000753_003743_000227_007807_023747_042289_122765,
  1_059860_000001_000001_000007_000003_000009_000029_000089_000131_000141_000851_001221_000067_003117_001329_013151_036827_034313,
  1_059867_000001_000003_000001_000005_000009_000029_000011_000189_000389_000079_001903_000835_006043_008953_018985_008305_051939,
  1_059869_000001_000003_000005_000003_000009_000049_000047_000043_000193_000917_000795_002719_005709_009993_030637_026841_093113,
  1_059885_000001_000003_000007_000005_000013_000015_000085_000169_000315_000963_000617_001191_006739_011535_003423_006695_002047,
  1_059888_000001_000003_000001_000003_000005_000049_000041_000255_000131_000255_000825_001485_007005_010107_003913_004731_033199,
  1_059893_000001_000003_000001_000009_000027_000063_000109_000029_000183_000381_000591_000617_001187_004381_030543_009933_109785,
  1_059904_000001_000003_000007_000007_000013_000029_000125_000105_000353_000677_000623_001553_005435_010853_016663_042277_064333,
  1_059919_000001_000003_000003_000011_000003_000047_000049_000041_000249_000497_000963_000237_000625_011303_006871_060441_039559,
  1_059922_000001_000003_000003_000001_000001_000027_000107_000253_000059_000445_001761_002865_007117_002363_004007_046047_010811,
  1_059927_000001_000003_000005_000005_000025_000013_000017_000107_000321_000691_000351_000577_005001_009437_012451_044997_042727,
  1_059937_000001_000003_000001_000009_000001_000031_000087_000117_000111_000379_001989_001155_004777_008563_014585_033375_066985,
  1_059940_000001_000003_000005_000005_000009_000051_000079_000135_000089_000929_000277_000763_005569_015545_028393_056921_102093,
  1_059944_000001_000001_000003_000007_000007_000055_000015_000037_000003_000439_000577_002051_000101_013655_011959_038127_006639,
  1_059947_000001_000001_000003_000009_000021_000011_000027_000221_000465_000565_001313_001405_002421_010543_018369_033751_087785,
  1_059949_000001_000003_000005_000011_000021_000039_000105_000231_000469_000711_000997_000427_005797_003249_015141_029413_066509,
  1_059961_000001_000003_000007_000005_000025_000031_000111_000037_000229_000773_000193_000553_000673_004693_024441_008713_121203,
  1_059975_000001_000003_000001_000009_000023_000027_000103_000007_000183_000549_001433_002831_003383_013229_010005_014135_015967,
  1_059981_000001_000003_000003_000011_000011_000059_000011_000251_000373_000399_000255_001177_005493_013559_029037_023405_079495,
  1_059994_000001_000003_000001_000011_000025_000045_000069_000115_000153_000259_000527_000009_005807_006015_003765_061621_008645,
  1_059999_000001_000003_000003_000009_000019_000005_000113_000191_000345_000655_000429_003975_004297_005723_005345_064457_079031,
  1_060018_000001_000003_000007_000007_000015_000059_000005_000087_000289_001005_000931_002403_000485_016043_015623_039253_061377,
  1_060023_000001_000003_000003_000009_000017_000053_000031_000009_000217_000711_001007_001375_002733_013735_019825_059741_083827,
  1_060024_000001_000001_000003_000015_000011_000011_000041_000195_000079_001013_001353_001961_007365_007533_013315_008441_090705,
  1_060039_000001_000001_000005_000007_000023_000017_000093_000165_000371_000495_000865_002753_000015_010729_016553_006039_096721,
  1_060043_000001_000003_000003_000003_000025_000025_000067_000119_000485_000063_000075_002365_004711_016129_005589_050621_001203,
  1_060048_000001_000001_000007_000001_000027_000057_000049_000079_000479_000079_000683_000753_000345_002007_018983_042729_056369,
  1_060054_000001_000001_000007_000007_000001_000023_000009_000155_000425_000735_001625_002271_007875_011219_012147_052351_055845,
  1_060073_000001_000001_000001_000009_000013_000011_000067_000139_000259_000059_001593_001207_000237_011683_024719_027689_115617,
  1_060079_000001_000001_000005_000007_000007_000015_000009_000171_000035_000131_000133_003939_001401_006347_004051_064235_068581,
  1_060082_000001_000003_000003_000001_000027_000021_000029_000119_000201_000527_000763_000203_001139_003951_003341_017023_013493,
  1_060102_000001_000001_000001_000015_000027_000031_000097_000203_000255_000573_000781_004095_003381_000363_032733_034517_077973,
  1_060108_000001_000001_000003_000009_000029_000009_000115_000207_000267_000513_001071_003943_005045_010071_006627_018043_044289,
  1_060111_000001_000001_000007_000007_000029_000025_000051_000031_000305_000239_000197_003825_002363_004903_016237_037571_066545,
  1_060120_000001_000001_000005_000011_000029_000011_000063_000145_000185_000359_000249_001179_000105_001745_028819_040513_074525,
  1_060149_000001_000001_000007_000001_000015_000035_000039_000005_000139_000119_002047_003369_002857_011037_030523_024813_089209,
  1_060153_000001_000001_000005_000011_000009_000041_000097_000015_000357_000095_000361_000003_003227_008445_016541_030661_084215,
  1_060161_000001_000001_000007_000005_000011_000055_000077_000019_000331_000621_000893_000577_001025_001561_032331_059469_067065,
  1_060168_000001_000003_000007_000007_000017_000053_000055_000065_000295_000391_000445_000033_005361_000669_006447_003833_129463,
  1_060176_000001_000003_000007_000005_000021_000005_000083_000207_000485_000597_001429_000581_006831_002885_024669_035211_069549,
  1_060182_000001_000003_000003_000001_000003_000033_000069_000199_000427_000893_001823_001291_004533_011779_018515_017597_079159,
  1_060185_000001_000003_000001_000001_000017_000041_000091_000021_000509_000875_000777_000639_004009_012103_012947_058395_036625,
  1_060204_000001_000001_000007_000015_000013_000011_000019_000243_000365_000661_001193_000279_006055_013921_005811_014337_105375,
  1_060212_000001_000003_000007_000003_000003_000051_000101_000175_000083_000921_000523_003909_008003_001295_004153_004757_107881,
  1_060215_000001_000001_000001_000003_000019_000015_000039_000125_000401_000399_000381_001123_002339_012231_013387_050829_079263,
  1_060219_000001_000003_000001_000001_000015_000013_000055_000181_000053_000671_001929_001003_000521_015279_001837_011877_079241,
  1_060222_000001_000003_000003_000009_000023_000045_000021_000037_000001_000701_001253_002595_006261_004139_024443_006655_109755,
  1_060229_000001_000003_000007_000001_000001_000013_000057_000041_000095_000985_001613_003487_007509_000213_032139_027869_123589,
  1_060234_000001_000003_000007_000011_000015_000027_000027_000097_000167_000755_001331_003961_003067_013827_008983_008755_077847]

def dirRows17_2_19 : List Nat := [
  1_060241_000001_000001_000005_000013_000005_000059_000051_000193_000339_000837_000137_003807_002617_014449_011035_016827_024531,
  1_060248_000001_000001_000007_000015_000017_000037_000067_000099_000261_000743_000275_000033_008107_004959_009683_019757_036471,
  1_060277_000001_000003_000005_000005_000029_000007_000107_000095_000235_000761_001205_003125_004791_004645_025623_006463_121887,
  1_060282_000001_000003_000001_000001_000019_000019_000073_000189_000243_000669_000489_001927_001651_011391_030699_064719_060359,
  1_060287_000001_000003_000007_000003_000029_000047_000007_000021_000299_000739_001605_000749_005755_011579_000793_036845_014695,
  1_060303_000001_000001_000005_000015_000017_000053_000107_000049_000103_000505_001191_002881_007435_007515_024237_005397_047003,
  1_060306_000001_000001_000007_000015_000025_000045_000121_000157_000313_000709_001519_002195_005487_001789_032401_004197_009329,
  1_060327_000001_000003_000003_000011_000021_000017_000077_000153_000275_000765_001943_003395_005807_012809_029891_042579_075565,
  1_060333_000001_000003_000005_000011_000011_000003_000063_000009_000223_000441_001047_000441_000867_003399_015813_000013_025293,
  1_060334_000001_000001_000007_000001_000017_000025_000001_000007_000211_000117_001417_001057_003369_013211_011437_020877_114867,
  1_060336_000001_000001_000001_000015_000005_000041_000089_000165_000343_000447_000055_001013_008179_012295_018615_023885_046149,
  1_060345_000001_000001_000005_000001_000015_000037_000109_000141_000323_000151_001669_001365_003047_013145_030355_012377_102467,
  1_060359_000001_000001_000003_000015_000015_000049_000083_000127_000285_000715_000981_001153_003019_011071_024229_063807_016315,
  1_060368_000001_000001_000003_000001_000023_000035_000021_000179_000083_000929_001033_000643_003591_010363_007739_000259_106879,
  1_060380_000001_000001_000005_000007_000019_000009_000063_000241_000387_000851_001709_001161_007469_002093_006169_006085_029851,
  1_060389_000001_000003_000007_000005_000017_000059_000099_000087_000189_000853_000193_001191_005683_015865_027791_055575_013479,
  1_060390_000001_000003_000003_000003_000025_000051_000081_000129_000365_000319_000179_002863_000511_014471_003689_059505_080105,
  1_060394_000001_000001_000001_000015_000005_000033_000069_000035_000429_000715_001781_000783_001089_008969_026987_023519_034227,
  1_060407_000001_000003_000005_000009_000001_000051_000009_000121_000325_000945_002025_001985_007337_010837_021299_020591_076905,
  1_060414_000001_000003_000007_000003_000015_000051_000019_000109_000297_000491_000015_001905_001479_001997_018129_043861_084925,
  1_060419_000001_000001_000003_000005_000007_000021_000001_000137_000207_000943_001171_002019_006687_010683_020937_034033_043907,
  1_060426_000001_000001_000001_000011_000025_000021_000047_000227_000247_000933_000471_000955_004299_005605_018469_062357_098273,
  1_060428_000001_000001_000005_000013_000021_000039_000041_000023_000493_000311_001401_000537_002919_011519_012597_058321_041401,
  1_060431_000001_000001_000007_000005_000031_000055_000093_000151_000219_000765_001247_002775_007167_013413_017071_057969_114069,
  1_060440_000001_000003_000001_000015_000031_000041_000085_000161_000379_000337_001639_000933_003511_000925_003523_052379_018421,
  1_060450_000001_000003_000003_000011_000017_000017_000071_000011_000291_000305_001295_001175_001803_006247_026523_046467_126999,
  1_060469_000001_000001_000001_000013_000009_000043_000113_000007_000001_000443_000719_003045_002527_005233_013969_050463_115629,
  1_060473_000001_000001_000001_000013_000009_000031_000087_000119_000351_000053_000985_002017_001187_010429_013719_041383_012749,
  1_060474_000001_000001_000001_000015_000023_000017_000005_000215_000383_000299_000305_003577_007707_006927_028591_044287_065697,
  1_060484_000001_000001_000005_000007_000023_000061_000089_000235_000097_000463_000237_002117_005503_013693_028231_007745_073631,
  1_060496_000001_000003_000007_000003_000017_000043_000073_000245_000145_000267_000855_000187_006167_003999_009935_014347_057727,
  1_060502_000001_000001_000007_000003_000025_000047_000011_000221_000425_000527_001341_003973_004635_016321_030021_048547_109409,
  1_060508_000001_000003_000001_000013_000005_000011_000041_000191_000121_000219_001315_000583_002997_005883_031689_064835_035351,
  1_060511_000001_000001_000003_000003_000015_000047_000049_000115_000107_000757_000329_001653_004633_014605_001579_062413_088685,
  1_060522_000001_000001_000001_000005_000019_000047_000063_000131_000427_000335_000269_003581_007613_015685_016957_030487_094965,
  1_060529_000001_000001_000003_000015_000031_000011_000077_000115_000467_000249_000247_000651_003769_003701_021627_036219_077309,
  1_060530_000001_000003_000001_000005_000005_000029_000045_000021_000037_000733_001773_002467_002747_009391_005449_023285_020089,
  1_060536_000001_000003_000005_000013_000029_000031_000051_000199_000077_000711_001313_003303_002675_000177_007915_037129_123641,
  1_060551_000001_000003_000007_000015_000017_000017_000099_000043_000009_000699_000491_000669_001313_001377_030015_059261_097321,
  1_060557_000001_000003_000001_000013_000009_000013_000021_000199_000249_000775_000399_000897_002205_015357_017281_003193_000255,
  1_060566_000001_000003_000001_000013_000007_000023_000007_000181_000065_000253_000199_000333_006507_004409_013319_030165_095191,
  1_060576_000001_000003_000003_000001_000031_000009_000031_000071_000301_000867_001655_002065_000597_015247_003019_031763_091889,
  1_060579_000001_000003_000005_000005_000003_000035_000113_000133_000039_001013_000991_003521_005805_000087_032393_028619_034325,
  1_060585_000001_000003_000001_000009_000015_000027_000045_000085_000061_000099_001085_003251_007085_004137_027443_042581_094031,
  1_060588_000001_000001_000005_000007_000011_000049_000097_000129_000339_000259_000821_000165_000833_011383_021629_017473_002947,
  1_060600_000001_000003_000003_000003_000011_000007_000027_000231_000169_000847_001767_001823_003855_014277_012457_055825_014377,
  1_060613_000001_000001_000007_000003_000027_000005_000047_000193_000207_000747_000271_003155_001097_002229_004919_022327_012659,
  1_060628_000001_000001_000005_000003_000027_000029_000105_000199_000031_000073_001741_002173_004577_003917_031513_045983_118015,
  1_060631_000001_000001_000003_000001_000019_000005_000023_000249_000035_000891_001105_001907_005453_001877_001965_003169_107091,
  1_060648_000001_000001_000007_000009_000011_000047_000057_000171_000255_000661_001925_002223_000525_004775_012327_008067_047083,
  1_060651_000001_000003_000003_000011_000029_000043_000037_000033_000459_000117_000007_001739_003585_007429_002217_009533_095299,
  1_060653_000001_000001_000005_000011_000023_000003_000033_000013_000045_000201_000467_000597_004891_002673_032407_056935_121991,
  1_060671_000001_000001_000007_000005_000029_000063_000007_000059_000417_000547_000017_003701_005775_001079_026527_047187_014827,
  1_060673_000001_000001_000005_000003_000027_000011_000085_000129_000377_000497_001659_001965_000581_015075_031265_000195_062307,
  1_060691_000001_000001_000003_000009_000003_000057_000033_000057_000279_000955_000741_000955_006501_008069_027305_015363_034715,
  1_060697_000001_000003_000007_000013_000029_000023_000025_000171_000201_000529_000661_004089_005755_012459_031269_009763_053217,
  1_060700_000001_000003_000007_000001_000003_000019_000027_000201_000261_000421_001487_002907_000547_015791_007661_042871_116343,
  1_060714_000001_000003_000007_000009_000005_000059_000051_000091_000007_000399_002001_000661_006577_007473_005439_029073_003391,
  1_060724_000001_000001_000007_000001_000023_000039_000119_000105_000113_000913_001097_002547_008143_011409_023197_059527_055677,
  1_060728_000001_000003_000003_000015_000031_000035_000103_000207_000247_000801_001821_001995_004437_012891_000659_015687_000053,
  1_060733_000001_000003_000003_000005_000013_000005_000045_000187_000231_000661_001553_002909_003715_004499_014773_005957_024171,
  1_060736_000001_000001_000001_000011_000003_000053_000093_000029_000379_000713_000299_000445_002815_009825_030941_022413_091563,
  1_060745_000001_000003_000001_000001_000027_000031_000111_000083_000349_000895_001007_002649_007139_005863_027739_053099_006837,
  1_060746_000001_000003_000001_000005_000023_000057_000121_000229_000487_000405_002001_002761_003011_002219_010711_031139_083809,
  1_060753_000001_000003_000007_000005_000013_000051_000037_000181_000359_000909_002001_000793_001143_009219_005111_023021_126081,
  1_060754_000001_000003_000001_000013_000027_000027_000099_000025_000189_000129_001831_001005_008119_002557_026985_063447_089693,
  1_060782_000001_000001_000007_000005_000001_000021_000079_000033_000099_000007_000433_001343_003121_003705_000477_041191_013749,
  1_060784_000001_000001_000005_000005_000029_000053_000075_000243_000035_000461_001399_000129_000177_006533_022209_023503_043819,
  1_060790_000001_000003_000007_000007_000031_000037_000109_000009_000255_000263_000035_003451_007629_009849_010387_003165_120623,
  1_060793_000001_000003_000005_000003_000027_000053_000093_000111_000239_000723_000293_001481_004427_013623_001989_047705_122069,
  1_060805_000001_000003_000007_000007_000031_000037_000037_000213_000191_000627_001821_003621_002875_015759_017525_050969_035311,
  1_060830_000001_000003_000005_000005_000011_000041_000087_000233_000079_000251_000025_001385_003527_007853_005541_036519_042779,
  1_060836_000001_000003_000001_000005_000009_000001_000117_000011_000061_000879_000553_000383_006237_015207_003057_028051_059149,
  1_060846_000001_000001_000001_000015_000015_000007_000037_000133_000081_000815_000893_002281_002459_015325_020107_002289_034535,
  1_060851_000001_000001_000005_000011_000017_000003_000045_000159_000409_000643_000969_001289_004353_010465_016233_055561_111667,
  1_060880_000001_000001_000005_000013_000023_000001_000079_000127_000485_001013_000629_000791_000853_009247_026333_001123_017313,
  1_060896_000001_000001_000005_000011_000027_000017_000097_000157_000479_000421_001739_003257_002419_006673_002759_019399_120305,
  1_060905_000001_000003_000005_000001_000003_000043_000071_000055_000111_000949_001957_003777_003409_008229_026585_049221_033639,
  1_060923_000001_000003_000007_000009_000017_000045_000071_000071_000417_001007_000213_001069_002693_005065_023489_033363_120459,
  1_060925_000001_000001_000001_000001_000025_000047_000081_000251_000341_000101_001941_001133_003205_004141_026561_056095_037193,
  1_060932_000001_000001_000003_000007_000025_000045_000097_000095_000135_000871_000949_003489_007593_010717_026163_012711_076989,
  1_060939_000001_000003_000001_000009_000003_000011_000035_000007_000471_000509_001335_000385_001297_011201_028553_051609_045351,
  1_060942_000001_000001_000005_000011_000021_000023_000105_000031_000125_000005_001721_001503_007807_013093_024873_018467_030183,
  1_060953_000001_000003_000007_000015_000015_000057_000061_000213_000079_000655_000517_001031_006719_004807_012805_002605_035407,
  1_060956_000001_000001_000003_000015_000021_000005_000093_000061_000103_000945_000935_000115_001281_007735_020723_037211_050039,
  1_060959_000001_000003_000003_000015_000019_000051_000079_000187_000127_000205_000121_000701_006065_015185_029343_058249_025331,
  1_060963_000001_000003_000003_000015_000017_000049_000023_000163_000201_000809_001203_000687_001777_000695_018779_031571_118383,
  1_060969_000001_000001_000001_000005_000025_000045_000121_000223_000233_000193_001459_001889_005537_004421_013659_004591_112563,
  1_060978_000001_000003_000005_000003_000031_000037_000109_000015_000381_000373_000993_003633_000641_004411_032265_046481_049195,
  1_060980_000001_000003_000003_000011_000019_000021_000039_000067_000447_000829_001163_000055_002153_015045_006643_048235_059261,
  1_060987_000001_000003_000003_000001_000007_000063_000037_000071_000035_000601_001719_000447_008009_007235_013225_044103_082409,
  1_061007_000001_000003_000003_000007_000013_000033_000069_000115_000207_000807_000109_002989_003727_009017_029095_011377_122401,
  1_061012_000001_000001_000003_000015_000009_000009_000057_000197_000115_000073_001277_001727_005275_011897_012157_034763_058273,
  1_061015_000001_000001_000003_000015_000019_000019_000127_000105_000289_000663_000877_001303_004901_008897_004803_036853_093361,
  1_061025_000001_000001_000003_000007_000023_000029_000121_000029_000439_000795_001469_000523_007767_012061_015613_057343_021291,
  1_061026_000001_000001_000001_000009_000025_000029_000015_000165_000383_000233_000091_002065_002741_007809_005325_048581_065551,
  1_061038_000001_000001_000005_000015_000029_000019_000103_000143_000283_000597_001055_003525_006115_011083_022497_042893_086849,
  1_061040_000001_000001_000001_000015_000013_000043_000075_000157_000267_000519_001231_000929_001585_016137_001045_004353_063473,
  1_061052_000001_000001_000001_000009_000017_000025_000073_000227_000145_000921_001845_002057_003099_015523_008993_014135_037811,
  1_061061_000001_000003_000003_000015_000017_000057_000107_000215_000271_000841_001543_002803_000625_015359_013341_036879_083191]

def dirRows17_2_20 : List Nat := [
  1_061074_000001_000003_000005_000013_000003_000017_000127_000081_000193_000253_000071_003205_001157_001313_027341_049657_096539,
  1_061083_000001_000003_000001_000005_000027_000043_000001_000111_000023_000963_001853_000925_007401_013999_029797_047125_059955,
  1_061085_000001_000003_000003_000001_000031_000055_000107_000121_000037_000159_000061_000577_005711_006745_020077_042333_037105,
  1_061086_000001_000001_000005_000003_000031_000011_000001_000007_000295_000515_000203_000707_002919_009619_008877_045143_101861,
  1_061096_000001_000003_000007_000011_000005_000023_000071_000009_000099_000947_001141_001651_001903_013607_015433_055005_127639,
  1_061119_000001_000001_000007_000003_000013_000061_000025_000111_000239_000243_001069_003551_003339_000743_029921_021313_054953,
  1_061124_000001_000001_000003_000003_000023_000007_000021_000047_000367_000871_001647_002183_002615_002257_030447_025761_110221,
  1_061127_000001_000003_000007_000015_000013_000051_000115_000019_000277_000463_000475_003467_007313_002477_010841_013585_061449,
  1_061128_000001_000001_000007_000009_000001_000027_000111_000209_000391_000621_001047_000549_002013_000549_024213_006369_068691,
  1_061133_000001_000001_000001_000011_000019_000059_000011_000107_000079_001013_000357_001729_000889_012823_006537_035717_042761,
  1_061134_000001_000001_000003_000015_000029_000041_000049_000177_000309_000293_001035_001481_001395_002009_007917_000365_028981,
  1_061146_000001_000003_000007_000011_000031_000019_000051_000113_000479_000347_000353_000929_001089_003373_002807_055201_023137,
  1_061155_000001_000003_000001_000015_000007_000055_000079_000191_000267_000701_001885_001241_007085_009835_024239_007609_013967,
  1_061161_000001_000001_000003_000015_000025_000033_000069_000005_000093_000375_000435_002401_001591_008173_017293_020281_063809,
  1_061162_000001_000003_000005_000003_000009_000049_000063_000047_000217_000773_001241_001131_007521_015607_024341_020353_122801,
  1_061169_000001_000003_000007_000015_000021_000001_000057_000159_000279_000987_001641_003883_001659_007875_024857_033273_088933,
  1_061179_000001_000001_000003_000011_000003_000023_000045_000031_000279_000643_001285_000471_000137_015871_013927_052361_118901,
  1_061182_000001_000003_000001_000015_000027_000051_000083_000019_000299_000213_001001_000897_002751_013085_020841_024891_113173,
  1_061190_000001_000001_000007_000005_000005_000027_000077_000077_000165_000489_000359_001607_003903_016241_000641_025999_029279,
  1_061201_000001_000003_000003_000007_000015_000023_000103_000049_000259_000519_000641_001577_003713_012181_000287_029483_058505,
  1_061208_000001_000001_000007_000013_000011_000029_000125_000045_000045_000167_000261_002735_002421_015457_005965_044005_082141,
  1_061238_000001_000001_000003_000009_000025_000021_000009_000003_000057_001017_001359_000079_006789_007805_020683_025695_038893,
  1_061241_000001_000001_000007_000001_000029_000053_000087_000171_000051_000005_000009_003033_000787_010611_015913_035703_070459,
  1_061247_000001_000001_000003_000005_000001_000033_000111_000139_000477_000033_001287_003615_005235_015491_002915_047821_055257,
  1_061259_000001_000001_000001_000013_000005_000023_000055_000225_000303_000587_001595_000307_003809_008093_013297_063213_104317,
  1_061267_000001_000001_000003_000015_000031_000029_000013_000033_000267_000481_001039_003805_002549_000861_012483_061829_127725,
  1_061269_000001_000003_000005_000011_000023_000017_000023_000117_000333_000167_001965_001387_005453_015545_000123_012991_036281,
  1_061295_000001_000003_000005_000001_000003_000009_000025_000055_000497_000951_001377_000993_006089_004801_032719_031579_126663,
  1_061304_000001_000003_000005_000011_000015_000037_000103_000051_000509_000585_000769_000425_000835_014027_030265_055735_036655,
  1_061309_000001_000001_000001_000013_000009_000049_000105_000061_000493_000003_001663_000815_008105_016361_032477_030437_061519,
  1_061310_000001_000003_000007_000011_000029_000023_000105_000087_000119_000399_001405_001515_007017_012729_013769_029741_030921,
  1_061313_000001_000003_000007_000013_000013_000007_000093_000227_000489_000843_000923_003373_000759_005105_009059_021079_101335,
  1_061320_000001_000001_000001_000001_000029_000053_000119_000227_000171_000363_000289_000827_000425_012827_025791_021587_109567,
  1_061325_000001_000001_000005_000011_000029_000029_000053_000127_000441_000219_001049_000275_000525_005535_020907_009299_076319,
  1_061334_000001_000003_000007_000015_000003_000053_000109_000061_000275_000391_001147_002953_001439_004417_000679_010949_035101,
  1_061337_000001_000001_000005_000013_000009_000001_000109_000137_000249_000835_000721_000129_002883_013043_031827_036741_107167,
  1_061386_000001_000001_000005_000009_000027_000017_000117_000121_000111_000433_000743_001987_006839_008439_002533_062135_054281,
  1_061399_000001_000003_000005_000015_000011_000061_000117_000103_000409_000485_001047_000469_002245_007193_002541_009399_088127,
  1_061422_000001_000003_000001_000009_000003_000049_000111_000201_000087_000181_001243_003261_001827_010385_013045_058331_107729,
  1_061429_000001_000003_000005_000015_000013_000029_000061_000223_000227_000733_001757_000755_004231_013537_001509_054623_120221,
  1_061436_000001_000001_000001_000015_000013_000009_000007_000233_000391_000689_000355_001203_005811_007759_002647_054949_051891,
  1_061439_000001_000001_000003_000001_000003_000027_000095_000051_000497_000315_000915_001055_002917_000167_001849_026591_102729,
  1_061466_000001_000003_000007_000013_000001_000051_000003_000113_000437_000449_001889_002887_004735_005693_008191_012847_052651,
  1_061477_000001_000001_000007_000013_000001_000045_000041_000221_000403_000185_001653_001809_006405_009193_001381_036677_043255,
  1_061478_000001_000001_000005_000001_000025_000051_000109_000245_000291_000809_001381_003235_005933_010185_018663_015589_039539,
  1_061490_000001_000003_000003_000001_000027_000029_000003_000227_000275_000705_000489_000681_000323_007453_026005_013791_115219,
  1_061495_000001_000003_000005_000001_000003_000051_000101_000075_000157_000529_000045_003105_003617_013081_021665_050065_117823,
  1_061504_000001_000003_000005_000015_000009_000043_000041_000169_000391_000455_001375_000253_001257_014427_016325_011571_026361,
  1_061514_000001_000001_000005_000007_000005_000041_000081_000173_000275_000225_000301_000335_005473_001509_020897_021951_103967,
  1_061516_000001_000003_000005_000001_000013_000027_000107_000019_000221_000609_000823_001193_000665_004947_011967_057373_021665,
  1_061521_000001_000003_000007_000013_000007_000011_000109_000059_000193_000103_000943_000595_005121_006159_002103_052863_057541,
  1_061527_000001_000003_000005_000003_000005_000051_000085_000227_000465_001013_000601_001687_007615_005991_008635_064487_069967,
  1_061531_000001_000003_000001_000011_000029_000049_000079_000025_000447_000119_000569_000383_005261_006209_021965_040863_096593,
  1_061540_000001_000001_000003_000013_000009_000049_000059_000093_000369_000789_001373_000425_003565_013357_017783_046435_129653,
  1_061550_000001_000003_000007_000005_000005_000039_000051_000015_000421_000531_001855_002105_005335_008509_020841_044997_048235,
  1_061557_000001_000003_000007_000003_000027_000047_000113_000001_000453_000565_001843_000243_007663_010697_007725_024485_049435,
  1_061562_000001_000001_000001_000011_000025_000025_000047_000001_000475_000831_001833_000391_005173_014873_014263_036061_026781,
  1_061577_000001_000001_000007_000015_000021_000013_000005_000169_000241_000235_000547_001565_002053_006877_012811_022213_106907,
  1_061583_000001_000003_000007_000001_000021_000011_000101_000115_000243_000985_001389_002189_000563_012453_014951_058889_048079,
  1_061597_000001_000001_000005_000007_000009_000037_000033_000241_000337_000453_001955_001731_004445_008887_027715_063975_095891,
  1_061602_000001_000001_000005_000001_000023_000021_000095_000237_000241_000991_001159_002417_002279_008941_020987_039773_079327,
  1_061604_000001_000003_000003_000001_000019_000039_000073_000253_000137_001009_001793_004007_002017_007503_016689_029013_041571,
  1_061607_000001_000003_000007_000015_000003_000063_000077_000011_000293_000495_000339_003525_005747_001807_011705_055807_054163,
  1_061622_000001_000003_000007_000003_000025_000041_000127_000023_000113_000807_000387_003529_002173_011217_021257_061169_047749,
  1_061625_000001_000003_000003_000005_000027_000005_000043_000055_000207_000995_000811_001473_000481_004317_002015_049161_094711,
  1_061633_000001_000003_000001_000009_000021_000061_000041_000147_000425_000353_001943_002455_000379_010729_003045_016013_044527,
  1_061640_000001_000003_000001_000005_000017_000043_000109_000231_000313_000277_000939_003491_005883_002297_004763_033403_062395,
  1_061643_000001_000001_000003_000009_000001_000049_000037_000145_000383_000467_000621_002873_000873_006163_016475_049045_115599,
  1_061651_000001_000001_000001_000009_000005_000015_000125_000157_000459_000727_000807_002769_005531_011531_004277_042301_016969,
  1_061658_000001_000001_000003_000001_000015_000023_000039_000121_000163_000537_000409_001217_008007_005671_019681_025371_069227,
  1_061670_000001_000003_000007_000009_000023_000001_000093_000041_000267_000995_001917_003441_006237_007233_030215_031945_033967,
  1_061674_000001_000001_000001_000015_000007_000005_000123_000053_000359_000677_001061_001649_000651_014079_030211_014827_123175,
  1_061676_000001_000003_000001_000005_000011_000019_000121_000135_000167_000293_000493_000949_005459_011785_021445_057161_129737,
  1_061679_000001_000001_000003_000013_000019_000039_000043_000055_000149_000549_000479_000925_000341_001151_012007_023473_010671,
  1_061688_000001_000003_000005_000009_000007_000041_000037_000103_000381_000373_001767_003959_003001_007903_024033_055123_093627,
  1_061693_000001_000003_000003_000003_000031_000027_000093_000175_000393_000575_000703_003715_006043_011763_007613_015907_056821,
  1_061701_000001_000003_000003_000013_000003_000013_000075_000085_000089_000851_001171_003075_005265_010293_014745_032153_089877,
  1_061711_000001_000001_000007_000011_000001_000025_000101_000149_000187_000197_001485_001555_001599_007413_023275_027093_073483,
  1_061714_000001_000003_000001_000001_000019_000015_000063_000111_000211_000197_000077_001683_003159_000235_032601_035715_059537,
  1_061723_000001_000003_000005_000011_000023_000061_000091_000135_000403_000669_000267_002507_002931_007813_005047_040027_111705,
  1_061725_000001_000001_000005_000013_000007_000005_000065_000037_000087_000405_000335_001095_003717_001717_031551_028181_047407,
  1_061726_000001_000001_000005_000013_000003_000043_000067_000099_000507_000861_001063_003003_006095_011079_006919_041597_097709,
  1_061729_000001_000001_000003_000001_000007_000023_000109_000161_000321_000499_000549_000363_002061_006519_001531_001969_083845,
  1_061741_000001_000003_000007_000005_000017_000039_000055_000059_000455_000433_000601_000365_007987_002207_003463_031755_094203,
  1_061761_000001_000003_000005_000005_000029_000061_000079_000101_000125_001011_000867_002935_003269_013601_021935_050355_065883,
  1_061779_000001_000001_000001_000005_000003_000041_000101_000107_000299_000125_000081_002421_002937_000787_019479_025803_074473,
  1_061781_000001_000003_000003_000001_000003_000015_000073_000013_000167_000387_000075_000601_000415_006927_032277_016709_012477,
  1_061782_000001_000001_000005_000001_000019_000037_000053_000045_000139_000737_000159_002299_006219_011613_022873_018303_056875,
  1_061797_000001_000001_000003_000009_000023_000015_000017_000037_000373_000445_001369_002997_000049_013901_013155_037375_029063,
  1_061809_000001_000003_000003_000011_000017_000001_000045_000091_000445_000631_001297_001907_003765_013893_029379_017939_036573,
  1_061810_000001_000001_000007_000013_000011_000031_000101_000165_000413_000305_000361_004019_003183_002321_007819_049275_101041,
  1_061816_000001_000001_000007_000001_000013_000043_000125_000165_000357_000293_001343_002219_004189_006095_028509_027763_053871,
  1_061822_000001_000003_000003_000011_000029_000033_000105_000071_000297_000637_001493_003797_005525_015093_021647_057647_001467,
  1_061849_000001_000001_000001_000013_000019_000007_000005_000141_000071_000221_000923_001039_004777_009481_001267_055345_116061,
  1_061876_000001_000001_000007_000011_000019_000043_000057_000243_000021_000217_001075_000569_003735_010477_018595_034133_070391,
  1_061893_000001_000003_000003_000001_000021_000061_000007_000135_000401_000101_000321_002959_007371_003303_023023_028163_019833,
  1_061905_000001_000001_000003_000009_000031_000043_000027_000243_000297_000145_000663_003951_004283_010421_009355_030381_068317,
  1_061908_000001_000003_000007_000013_000029_000053_000101_000253_000049_000129_000831_000513_005567_005063_000157_006465_090983,
  1_061911_000001_000001_000005_000015_000027_000029_000003_000231_000503_000173_000913_003971_007685_009679_032243_000967_073195,
  1_061912_000001_000001_000001_000015_000019_000055_000127_000003_000405_000239_001063_003473_007543_004049_014509_022657_005611]

def dirRows17_2_21 : List Nat := [
  1_061928_000001_000003_000007_000001_000021_000039_000061_000249_000421_000401_001667_001981_005503_009191_024027_035049_012199,
  1_061934_000001_000003_000005_000005_000027_000001_000099_000083_000287_000997_000721_001345_002197_006335_004245_042575_102635,
  1_061957_000001_000003_000003_000001_000031_000007_000103_000107_000387_000273_000951_002475_001275_015607_002159_055083_086107,
  1_061961_000001_000003_000003_000005_000021_000059_000069_000055_000121_000601_000005_001871_007161_004583_023867_007933_003125,
  1_061969_000001_000001_000001_000015_000017_000041_000051_000045_000383_000579_000713_000275_001395_011665_030521_011683_126493,
  1_061979_000001_000001_000001_000015_000017_000047_000015_000139_000175_000283_001377_000827_005753_008855_026437_059219_105601,
  1_061982_000001_000001_000007_000011_000013_000003_000027_000141_000137_000851_000767_002575_007685_011719_024401_052547_127299,
  1_062003_000001_000003_000003_000009_000011_000041_000075_000069_000167_000897_001213_003723_006773_012141_028033_019695_128545,
  1_062006_000001_000001_000005_000013_000007_000061_000055_000131_000465_000169_001669_000711_005901_010769_011273_023809_063625,
  1_062010_000001_000001_000005_000001_000027_000025_000035_000167_000083_000921_000251_002571_006723_014767_026715_021699_060779,
  1_062015_000001_000003_000001_000009_000015_000005_000059_000241_000405_000323_001917_001161_006079_013443_013079_058617_063381,
  1_062020_000001_000003_000001_000005_000009_000005_000079_000123_000087_000395_000667_002787_003711_003613_001803_017885_078975,
  1_062024_000001_000003_000003_000005_000017_000045_000061_000107_000485_000163_000033_001491_007131_000059_027327_008043_014907,
  1_062029_000001_000003_000001_000011_000027_000037_000005_000251_000115_000339_001621_002013_003517_002213_010145_047121_084485,
  1_062032_000001_000003_000003_000001_000009_000011_000071_000025_000363_000867_001485_003897_003339_007599_020777_052009_127097,
  1_062035_000001_000001_000003_000009_000025_000037_000029_000231_000183_000315_000399_000879_006169_006355_003729_009187_019405,
  1_062038_000001_000003_000005_000003_000031_000037_000127_000071_000171_000687_001237_000151_007391_002395_011979_023381_117879,
  1_062047_000001_000001_000001_000013_000013_000043_000071_000235_000131_000079_001321_000235_002221_001133_013509_012205_044771,
  1_062068_000001_000003_000007_000005_000029_000051_000125_000191_000153_000035_001657_002141_003701_007177_031723_015189_055441,
  1_062071_000001_000001_000005_000001_000005_000035_000013_000165_000461_000255_001825_001531_006195_007717_000973_012367_071747,
  1_062082_000001_000003_000001_000009_000013_000057_000025_000083_000389_000405_000227_001037_003805_015653_025365_047991_054315,
  1_062088_000001_000001_000001_000013_000017_000055_000113_000151_000145_000951_001849_002205_006513_007845_007947_059429_044911,
  1_062096_000001_000003_000005_000003_000025_000009_000099_000159_000183_000445_000153_003053_002537_001787_019029_060047_128203,
  1_062108_000001_000001_000005_000005_000031_000037_000013_000011_000271_000491_001141_001827_003751_009471_007579_035969_095245,
  1_062124_000001_000003_000003_000015_000001_000043_000009_000109_000013_000991_000345_001577_000947_003197_016747_008127_116937,
  1_062142_000001_000003_000003_000015_000011_000017_000103_000089_000033_000741_001855_002879_003899_009535_015119_056165_086055,
  1_062147_000001_000003_000005_000001_000031_000041_000057_000205_000069_000163_001383_002087_006483_006281_032079_040825_028709,
  1_062153_000001_000001_000001_000013_000023_000057_000103_000247_000421_000773_001733_003249_006681_009675_011669_051673_086189,
  1_062159_000001_000001_000005_000015_000007_000037_000063_000123_000077_000941_000277_001061_000803_002135_015745_047413_073843,
  1_062161_000001_000001_000003_000005_000019_000015_000035_000059_000321_000527_001669_002929_000513_004453_020521_019781_115501,
  1_062171_000001_000001_000007_000003_000023_000001_000099_000251_000129_000271_001555_001191_002445_011533_011921_019131_080653,
  1_062189_000001_000001_000007_000015_000015_000033_000079_000089_000113_000517_001655_000043_006255_015415_019559_063309_016857,
  1_062207_000001_000003_000005_000001_000013_000061_000087_000159_000065_000875_000163_000663_007651_008775_032505_039313_083331,
  1_062227_000001_000001_000007_000015_000027_000019_000063_000117_000427_000233_001243_000755_003201_005153_031959_064545_069219,
  1_062230_000001_000001_000005_000003_000003_000027_000015_000011_000427_000431_000107_002433_006923_007503_031347_064849_014541,
  1_062234_000001_000001_000003_000011_000007_000023_000053_000253_000483_000063_001749_002989_005219_007361_006423_001503_095431,
  1_062236_000001_000001_000005_000009_000001_000019_000023_000025_000301_000665_001457_002423_006623_009771_002755_008963_051037,
  1_062239_000001_000003_000003_000007_000021_000001_000003_000131_000377_000897_000015_000437_004075_007669_031529_064123_101249,
  1_062257_000001_000003_000005_000003_000031_000041_000099_000027_000397_000393_001895_002249_003925_006393_002839_000375_056721,
  1_062270_000001_000003_000007_000015_000001_000045_000065_000113_000085_000557_000857_002281_001395_002055_002405_034541_063719,
  1_062278_000001_000003_000001_000015_000007_000043_000021_000029_000015_000229_001287_003005_000339_005833_021867_021643_037557,
  1_062287_000001_000003_000007_000003_000003_000051_000067_000119_000423_000539_001995_004039_002999_002787_029327_062687_011893,
  1_062295_000001_000003_000007_000003_000025_000023_000085_000011_000105_000523_000889_002983_002031_002049_016119_041925_038345,
  1_062301_000001_000003_000007_000003_000013_000063_000059_000065_000183_000695_000293_003301_007895_013915_025847_022819_092189,
  1_062306_000001_000001_000003_000003_000007_000027_000101_000229_000435_000227_001759_001275_005781_006079_025125_064833_069577,
  1_062312_000001_000001_000003_000001_000029_000001_000061_000045_000193_000441_000687_000841_004491_010683_013989_060461_078071,
  1_062317_000001_000003_000001_000009_000005_000033_000099_000229_000181_000675_001629_001855_004719_009585_008059_026363_031161,
  1_062330_000001_000003_000001_000011_000011_000037_000079_000053_000163_000049_001173_001715_008087_006535_014985_024069_118597,
  1_062342_000001_000001_000007_000015_000009_000059_000123_000079_000237_000131_001693_002525_006339_009843_024309_024969_037645,
  1_062359_000001_000003_000003_000007_000019_000049_000085_000133_000415_000239_000555_002581_006523_002733_019665_019989_105585,
  1_062365_000001_000003_000003_000007_000023_000037_000031_000121_000059_000007_002031_002893_006429_010305_021221_020105_038879,
  1_062366_000001_000003_000001_000013_000023_000021_000093_000093_000343_000641_000411_000971_001777_002135_022895_009055_114457,
  1_062370_000001_000003_000005_000003_000015_000033_000023_000007_000059_000413_000277_003551_007737_002285_007951_005013_094469,
  1_062375_000001_000003_000001_000015_000025_000001_000109_000245_000153_000187_001099_001071_000145_006735_010327_003921_062123,
  1_062376_000001_000001_000007_000011_000011_000053_000051_000123_000277_000281_001763_003161_007639_014515_029725_003919_005525,
  1_062387_000001_000003_000003_000015_000027_000047_000109_000121_000317_000221_000187_000617_001331_005401_000861_062465_009227,
  1_062404_000001_000003_000003_000015_000027_000025_000101_000111_000469_000085_001285_001621_005393_001367_017115_035141_126989,
  1_062411_000001_000003_000005_000001_000015_000023_000025_000249_000069_000017_001103_002603_000059_015637_022051_029243_053113,
  1_062435_000001_000003_000001_000009_000017_000049_000073_000013_000207_000963_000379_003561_006447_007895_018651_008109_003943,
  1_062441_000001_000003_000005_000011_000007_000041_000055_000085_000481_000831_000593_004093_001151_012353_024231_046091_080967,
  1_062442_000001_000003_000007_000007_000005_000039_000047_000187_000427_001007_000813_003617_006063_012981_018573_034061_085741,
  1_062452_000001_000003_000003_000011_000009_000017_000029_000141_000341_000485_001075_004067_007247_011295_031803_018347_054985,
  1_062459_000001_000001_000003_000007_000017_000025_000007_000029_000355_000035_001753_000669_004123_004293_022875_036677_061201,
  1_062461_000001_000001_000005_000009_000013_000045_000029_000153_000169_000387_001275_003161_004937_005331_016203_043925_129231,
  1_062473_000001_000003_000003_000009_000019_000027_000109_000095_000499_000929_001627_003215_006097_015837_005655_029877_122513,
  1_062474_000001_000003_000007_000011_000001_000025_000015_000041_000065_000411_000289_000883_005069_008405_011159_057357_114253,
  1_062493_000001_000001_000003_000011_000031_000057_000039_000089_000077_000321_001667_000871_006429_001005_018905_013877_009305,
  1_062510_000001_000001_000007_000007_000027_000057_000023_000037_000281_000625_001871_000565_005979_013925_022591_002375_008577,
  1_062518_000001_000001_000001_000007_000031_000035_000091_000221_000495_000811_001321_002235_004287_003009_005745_035013_093715,
  1_062524_000001_000001_000007_000003_000011_000053_000017_000013_000319_000225_000117_003365_000537_005249_014219_023879_004321,
  1_062549_000001_000003_000005_000001_000031_000057_000035_000095_000257_000933_000471_000627_006733_008707_025173_044291_105041,
  1_062556_000001_000001_000003_000003_000031_000053_000069_000019_000277_000669_000497_003957_002781_014107_027741_053519_041057,
  1_062565_000001_000001_000003_000015_000011_000021_000011_000025_000257_000665_000491_002119_003893_014401_029147_003369_116569,
  1_062566_000001_000003_000001_000001_000013_000049_000031_000231_000217_000711_001987_001487_007073_000473_028781_051283_086049,
  1_062580_000001_000001_000001_000005_000023_000031_000119_000115_000381_000179_001725_002323_008013_015191_013255_057813_095437,
  1_062584_000001_000001_000003_000015_000015_000037_000083_000223_000259_000605_002013_004089_000395_002063_011735_051931_074677,
  1_062589_000001_000001_000007_000003_000001_000061_000107_000169_000213_000789_000425_002309_000225_001305_020697_026281_060129,
  1_062596_000001_000001_000005_000015_000027_000015_000069_000169_000289_000931_001491_003711_006875_007723_021103_031795_053955,
  1_062608_000001_000001_000001_000003_000003_000043_000049_000205_000247_000817_002037_002305_007935_000255_018835_049423_090727,
  1_062636_000001_000003_000007_000009_000017_000003_000095_000239_000431_000665_001271_003559_005703_014607_009723_011807_122937,
  1_062642_000001_000003_000005_000013_000005_000015_000013_000111_000375_000895_000833_000813_005451_013841_001321_025273_025443,
  1_062651_000001_000001_000003_000001_000011_000049_000003_000097_000467_000631_000051_003577_001777_015965_006837_038827_068627,
  1_062654_000001_000001_000007_000001_000003_000011_000073_000155_000077_000623_000811_000337_006837_010925_002097_028325_097487,
  1_062659_000001_000001_000001_000003_000029_000035_000009_000215_000415_000143_001837_003723_000073_011305_023187_019995_052987,
  1_062666_000001_000001_000007_000001_000025_000039_000035_000067_000245_000295_001143_002043_001049_000629_014111_062893_086899,
  1_062680_000001_000003_000007_000005_000003_000041_000123_000097_000241_000743_000259_003163_002289_006363_024033_010789_044117,
  1_062692_000001_000003_000001_000007_000025_000033_000033_000017_000359_000567_000901_003595_000179_008671_000841_024787_004367,
  1_062701_000001_000003_000001_000013_000005_000013_000057_000185_000321_000727_000789_003081_005345_009721_032029_011663_055695,
  1_062702_000001_000001_000007_000007_000005_000051_000085_000255_000329_000263_000297_001687_006799_010973_008265_019615_115333,
  1_062714_000001_000001_000001_000005_000029_000027_000055_000167_000465_000073_000661_000137_007831_002571_015373_064223_027335,
  1_062716_000001_000003_000007_000013_000005_000023_000077_000015_000345_000021_001729_003231_000967_012573_031415_024249_110525,
  1_062733_000001_000001_000007_000009_000031_000037_000041_000119_000169_000891_001845_002139_001747_001147_021983_011617_025963,
  1_062762_000001_000003_000003_000007_000023_000005_000001_000011_000095_000795_001371_002631_003241_006935_017353_025013_089765,
  1_062769_000001_000003_000001_000007_000019_000003_000121_000019_000389_000117_001905_003135_007601_012541_020855_038613_015005,
  1_062770_000001_000003_000003_000005_000017_000043_000091_000099_000113_000545_001955_000037_003411_015173_024961_028761_015245,
  1_062787_000001_000003_000003_000013_000025_000009_000083_000017_000017_000271_001133_003851_004607_011017_014867_020677_042881,
  1_062794_000001_000001_000005_000015_000005_000009_000099_000179_000263_000623_000441_002577_000189_011595_021505_027215_054081,
  1_062801_000001_000001_000007_000001_000001_000063_000123_000119_000245_000467_000169_003075_000909_003581_014571_033071_006261,
  1_062807_000001_000001_000001_000013_000009_000035_000047_000161_000047_000893_000057_000703_003373_004167_026555_051265_001391,
  1_062808_000001_000003_000001_000013_000009_000061_000009_000005_000047_000259_000579_000113_000355_014539_025757_010119_096869]

def dirRows17_2_22 : List Nat := [
  1_062813_000001_000001_000005_000011_000003_000005_000061_000231_000291_000021_001711_002981_004727_014287_012149_040275_051809,
  1_062817_000001_000003_000005_000003_000021_000005_000087_000251_000373_000679_000949_001023_005183_014549_004135_054927_020369,
  1_062818_000001_000003_000003_000011_000007_000043_000127_000097_000469_000081_001843_003955_000125_008607_027185_050761_122753,
  1_062832_000001_000003_000005_000005_000025_000061_000001_000055_000333_000949_001005_001051_006291_008343_009627_037739_116911,
  1_062841_000001_000003_000003_000013_000021_000009_000067_000225_000179_000837_002009_003171_000217_005629_023451_063171_053225,
  1_062857_000001_000003_000007_000001_000023_000015_000091_000163_000351_000883_000579_003923_002641_012735_024955_001131_065119,
  1_062860_000001_000001_000001_000011_000029_000005_000113_000217_000171_000535_000913_002419_003843_012365_008287_027367_057369,
  1_062871_000001_000001_000005_000011_000009_000041_000057_000243_000123_000159_001517_002653_004307_004243_002801_043131_018435,
  1_062882_000001_000001_000007_000009_000023_000059_000083_000159_000057_000723_001635_000007_001463_000121_000541_007657_083917,
  1_062888_000001_000003_000007_000007_000023_000027_000125_000103_000247_001019_001063_003979_008085_006449_012443_063427_106235,
  1_062913_000001_000001_000007_000005_000009_000031_000023_000083_000503_000605_001731_003341_007427_014571_005981_039043_042965,
  1_062919_000001_000003_000005_000001_000017_000049_000109_000171_000301_000951_001879_001317_000457_008085_006803_062521_067871,
  1_062920_000001_000001_000007_000011_000011_000027_000001_000071_000335_000137_000265_001267_006399_014823_000925_049895_019731,
  1_062925_000001_000003_000001_000013_000003_000035_000075_000253_000211_000483_001495_003695_003033_014643_001861_051269_032655,
  1_062933_000001_000003_000007_000001_000005_000017_000063_000001_000083_000435_002007_002023_000057_008639_027067_004039_001955,
  1_062938_000001_000003_000005_000015_000027_000051_000059_000047_000077_000131_000507_000559_000645_016067_020989_015565_039925,
  1_062940_000001_000003_000003_000005_000011_000015_000063_000121_000039_001019_001027_002821_003297_013769_018587_014199_082251,
  1_062949_000001_000001_000005_000001_000031_000011_000089_000075_000147_001007_000917_003519_005097_005695_015185_014819_038597,
  1_062956_000001_000003_000003_000003_000015_000007_000127_000055_000083_000887_001901_000075_000639_000713_013631_027447_106707,
  1_062971_000001_000003_000003_000015_000027_000025_000085_000163_000187_000959_000815_001403_006129_006515_031597_028307_030077,
  1_062978_000001_000003_000001_000013_000005_000019_000117_000089_000011_000489_000845_002899_003695_003279_022355_038759_085849,
  1_062990_000001_000003_000001_000007_000025_000059_000109_000185_000087_000591_000825_001119_007439_005451_017959_051299_076693,
  1_062995_000001_000001_000007_000005_000025_000029_000115_000249_000185_000529_000593_000103_001739_004769_025925_003317_102445,
  1_062997_000001_000001_000003_000001_000003_000035_000019_000255_000279_000295_001075_002817_003513_007501_015885_021653_113447,
  1_063004_000001_000003_000001_000005_000027_000001_000021_000137_000303_000981_000631_002339_000397_013075_028815_050925_044379,
  1_063011_000001_000001_000007_000007_000031_000031_000059_000129_000105_000181_001041_002685_001061_001721_030365_006873_030011,
  1_063032_000001_000001_000003_000001_000019_000031_000125_000039_000009_000631_001239_001061_006313_009639_005991_027293_084635,
  1_063038_000001_000003_000003_000011_000017_000059_000017_000241_000195_000175_001845_000251_003323_013399_020493_015241_069303,
  1_063067_000001_000001_000005_000003_000009_000019_000059_000025_000049_000359_000263_004045_001527_006703_000555_026413_042757,
  1_063069_000001_000001_000005_000009_000023_000005_000007_000223_000247_000407_001079_001069_003417_014795_005015_002965_099059,
  1_063076_000001_000003_000007_000005_000027_000047_000009_000037_000047_000181_000819_002049_002643_009231_008173_033495_091321,
  1_063083_000001_000003_000005_000011_000005_000027_000005_000237_000349_000653_001443_000137_007969_005961_024749_037523_088921,
  1_063088_000001_000003_000007_000013_000011_000051_000049_000071_000339_000195_001239_003479_002771_015217_023729_007839_032633,
  1_063094_000001_000001_000005_000005_000005_000013_000103_000185_000013_000273_001793_000761_005327_008659_032599_038181_121115,
  1_063097_000001_000003_000007_000015_000017_000055_000069_000151_000231_000421_001679_003657_008001_012599_013761_013517_130199,
  1_063100_000001_000001_000005_000003_000005_000015_000015_000061_000489_000219_000925_002329_003415_010779_031297_063805_013375,
  1_063104_000001_000001_000007_000009_000007_000011_000087_000045_000039_000885_000087_001877_008135_001247_025685_023631_065579,
  1_063114_000001_000003_000003_000007_000001_000017_000031_000075_000455_000535_000509_002151_001737_007579_012727_025139_032659,
  1_063116_000001_000003_000005_000007_000015_000027_000111_000145_000099_000767_000167_003391_002155_007895_003405_047451_065185,
  1_063122_000001_000001_000001_000003_000023_000031_000015_000053_000059_000787_000431_002691_000071_002843_013469_054029_002233,
  1_063128_000001_000001_000005_000001_000005_000039_000057_000031_000075_000507_000811_002747_000317_013545_007395_065161_087987,
  1_063149_000001_000003_000005_000005_000013_000017_000011_000089_000371_000337_000913_002775_000027_004923_024013_062955_065185,
  1_063150_000001_000003_000003_000007_000009_000027_000091_000187_000017_000443_000807_000853_006243_012351_008123_004203_061021,
  1_063157_000001_000001_000001_000005_000009_000033_000101_000211_000205_000701_001289_001253_000653_008591_013009_048525_077051,
  1_063167_000001_000003_000005_000011_000005_000019_000001_000067_000259_000355_000015_002169_006785_002019_008675_001019_085903,
  1_063187_000001_000003_000007_000005_000027_000031_000103_000163_000369_000685_000659_002009_005819_010437_017311_035083_122125,
  1_063200_000001_000003_000005_000007_000019_000013_000093_000113_000377_000359_001697_004063_004379_009321_007335_025491_085939,
  1_063220_000001_000003_000003_000005_000007_000025_000041_000225_000355_000257_000743_002067_007627_014317_007385_025187_063103,
  1_063223_000001_000001_000007_000007_000017_000043_000075_000001_000095_000547_001937_002263_001709_005067_022651_055733_044619,
  1_063229_000001_000001_000007_000003_000005_000027_000045_000023_000107_000547_001733_001169_006709_000861_004439_055381_096447,
  1_063235_000001_000001_000007_000011_000025_000023_000127_000159_000489_000945_000843_003715_005215_002131_009681_035515_108109,
  1_063247_000001_000001_000003_000007_000005_000001_000067_000059_000083_000745_001337_000855_006087_014319_013405_036261_049091,
  1_063252_000001_000003_000001_000001_000013_000027_000041_000155_000463_000709_001111_002017_004701_008663_029703_045311_113347,
  1_063255_000001_000001_000007_000005_000001_000011_000083_000101_000283_000505_000893_000705_002331_005127_021793_028095_059055,
  1_063289_000001_000001_000005_000009_000025_000007_000097_000155_000071_000569_001481_000897_006177_013367_012163_018171_024785,
  1_063298_000001_000003_000005_000011_000019_000025_000007_000015_000511_000369_000957_001247_006097_011181_017265_024777_087377,
  1_063303_000001_000003_000001_000007_000011_000009_000039_000191_000009_000793_000867_002779_003447_003805_021025_064719_015669,
  1_063327_000001_000001_000003_000001_000031_000043_000107_000103_000175_000131_001525_000993_000635_014383_026835_015929_109977,
  1_063328_000001_000001_000001_000003_000019_000017_000099_000249_000047_000467_000853_002805_003155_001565_017291_018865_011039,
  1_063348_000001_000001_000005_000013_000025_000061_000091_000067_000361_000947_001909_003403_000945_003481_016703_050227_043963,
  1_063355_000001_000003_000001_000003_000019_000027_000031_000219_000185_000579_001539_000315_004421_009473_030289_048477_061365,
  1_063357_000001_000001_000003_000001_000023_000011_000101_000001_000133_000305_001107_001145_001733_013275_000221_005071_081987,
  1_063368_000001_000001_000001_000013_000007_000061_000047_000005_000137_000979_001183_002049_005263_006515_005585_006093_119689,
  1_063391_000001_000003_000001_000005_000019_000047_000083_000115_000215_000901_001685_000755_002327_013297_006847_040329_019225,
  1_063402_000001_000001_000003_000003_000003_000013_000031_000127_000199_000655_000055_002183_005031_000945_006073_054729_108281,
  1_063409_000001_000001_000001_000001_000011_000051_000037_000019_000073_000205_001377_001881_003679_004487_014693_041735_027349,
  1_063416_000001_000003_000007_000013_000001_000035_000037_000073_000045_000973_000209_000529_005283_009765_026367_012697_008685,
  1_063419_000001_000003_000003_000009_000003_000045_000115_000035_000475_000663_000487_003613_004151_015623_003057_031519_087545,
  1_063430_000001_000003_000007_000005_000023_000013_000025_000255_000355_000433_001671_000667_007463_014189_014107_001531_011695,
  1_063442_000001_000001_000007_000003_000015_000025_000037_000127_000265_000493_001763_002721_004335_013753_005947_018375_029911,
  1_063457_000001_000001_000003_000015_000001_000055_000025_000069_000335_000157_001923_001757_005689_006731_000723_006471_057415,
  1_063458_000001_000003_000003_000003_000001_000015_000127_000227_000401_000395_000503_003783_001737_008785_016287_034949_091683,
  1_063482_000001_000003_000005_000015_000023_000029_000055_000119_000115_000855_000657_003729_005309_014773_005647_025953_067303,
  1_063487_000001_000003_000005_000013_000023_000025_000001_000187_000067_000389_000359_000619_002523_011203_011049_060345_053931,
  1_063488_000001_000003_000001_000007_000007_000045_000099_000123_000495_000797_000939_003387_007563_016289_008309_014917_099867,
  1_063500_000001_000003_000005_000011_000029_000049_000089_000205_000447_000541_001279_001153_007277_005393_008743_041057_100119,
  1_063511_000001_000001_000001_000009_000001_000007_000043_000165_000259_000311_000993_001381_003363_000577_004023_000443_101785,
  1_063517_000001_000001_000007_000009_000025_000055_000093_000063_000423_000787_000549_001039_000383_015855_006013_051399_060007,
  1_063528_000001_000003_000003_000001_000005_000017_000103_000091_000309_000085_001319_003869_000559_003993_018111_017753_066681,
  1_063531_000001_000003_000007_000009_000001_000011_000087_000151_000311_000597_000811_003955_000275_006555_017005_026763_031227,
  1_063559_000001_000001_000003_000011_000019_000051_000041_000101_000183_001003_001635_002061_003305_012925_007223_004859_024433,
  1_063566_000001_000003_000007_000011_000007_000043_000079_000053_000043_000429_000947_002533_007005_015147_013435_033997_021201,
  1_063578_000001_000001_000003_000005_000015_000017_000061_000041_000383_000465_001439_003503_003981_014469_005075_025953_070461,
  1_063580_000001_000001_000001_000013_000021_000053_000025_000059_000059_000195_000665_003367_002777_009179_024207_056729_094241,
  1_063584_000001_000003_000007_000015_000027_000013_000041_000147_000415_000351_000961_003811_001605_014231_031789_041189_050265,
  1_063587_000001_000003_000003_000007_000031_000039_000085_000219_000323_000657_000423_001579_003623_007663_014631_047169_088795,
  1_063594_000001_000003_000001_000003_000001_000003_000125_000065_000259_000003_001897_002203_000347_004101_023841_020217_117407,
  1_063607_000001_000001_000003_000007_000029_000001_000075_000255_000413_000237_001531_002103_006847_010395_009817_009383_060679,
  1_063611_000001_000003_000005_000003_000007_000063_000017_000083_000375_000835_001707_003227_000327_002205_025025_047471_039967,
  1_063630_000001_000003_000007_000007_000009_000051_000023_000189_000157_000351_000755_002695_003923_003481_012159_001041_094563,
  1_063632_000001_000001_000003_000011_000025_000027_000039_000019_000221_000795_000523_000695_003257_008045_002643_043239_013291,
  1_063641_000001_000003_000003_000005_000029_000001_000033_000117_000477_000147_001117_001943_007967_015999_010673_013349_089471,
  1_063647_000001_000001_000003_000009_000017_000051_000055_000115_000147_000687_001751_003685_003099_015369_000371_055673_067951,
  1_063651_000001_000001_000007_000001_000005_000025_000067_000031_000103_000439_001581_000705_003855_015985_007151_056511_023697,
  1_063666_000001_000003_000005_000003_000021_000007_000011_000123_000121_001009_000277_000623_007913_007525_004759_019245_016735,
  1_063668_000001_000001_000005_000011_000007_000057_000103_000147_000199_000209_000233_003665_004215_013511_016393_037873_120857,
  1_063695_000001_000001_000007_000009_000027_000045_000029_000097_000279_000379_001683_001965_001183_011389_020445_038435_056893,
  1_063697_000001_000003_000005_000005_000027_000023_000089_000169_000329_000659_000393_000903_006217_006459_027327_002843_044889,
  1_063709_000001_000001_000001_000015_000003_000053_000109_000083_000195_000005_001865_000729_003627_013307_020761_050375_060379,
  1_063723_000001_000001_000001_000013_000025_000057_000017_000185_000359_000797_000469_002637_000973_002731_025299_015169_090187]

def dirRows17_2_23 : List Nat := [
  1_063737_000001_000003_000005_000001_000019_000039_000087_000161_000117_000565_001737_003995_006487_005067_018531_038803_045453,
  1_063746_000001_000001_000001_000005_000019_000003_000093_000085_000479_000369_000469_001407_000475_007775_012273_034417_065611,
  1_063752_000001_000001_000003_000015_000031_000011_000105_000019_000281_000711_000713_003423_000797_011215_031409_044891_110413,
  1_063755_000001_000001_000003_000011_000013_000017_000059_000111_000059_000431_001517_002159_001697_012309_016293_002097_107273,
  1_063775_000001_000003_000005_000015_000025_000019_000097_000107_000097_000563_000247_003691_002775_010631_015113_025721_012995,
  1_063781_000001_000001_000005_000003_000031_000025_000047_000201_000231_000123_001923_002287_001711_012271_001573_006605_072991,
  1_063794_000001_000001_000005_000005_000027_000017_000109_000125_000423_000001_000819_003041_000685_008791_019697_013107_067681,
  1_063796_000001_000001_000005_000003_000005_000063_000115_000095_000117_000715_001523_001231_008171_001615_009819_014361_087075,
  1_063808_000001_000001_000007_000007_000007_000035_000035_000175_000349_000853_001665_003101_006051_010737_000933_040591_009419,
  1_063817_000001_000001_000001_000003_000023_000049_000065_000023_000103_000837_000403_003799_006515_015363_028079_036381_059523,
  1_063820_000001_000003_000001_000015_000015_000025_000119_000181_000229_000685_001047_002397_004855_015393_002371_042441_030151,
  1_063826_000001_000003_000007_000011_000015_000005_000013_000093_000219_000203_000475_000523_005827_006579_026759_029795_108463,
  1_063838_000001_000001_000007_000013_000025_000053_000075_000195_000443_001003_000501_002543_005453_003119_019225_059631_016413,
  1_063848_000001_000001_000007_000013_000013_000025_000093_000211_000191_001005_001567_003057_003001_001125_006237_035725_108257,
  1_063861_000001_000001_000003_000007_000021_000011_000057_000205_000487_000263_001801_003235_001819_010875_006063_026211_054699,
  1_063862_000001_000003_000003_000007_000011_000059_000089_000217_000015_000991_001343_001247_000277_013377_018499_064987_026053,
  1_063866_000001_000003_000003_000001_000015_000051_000111_000069_000137_000817_001207_001729_003877_009873_018449_050749_057457,
  1_063878_000001_000003_000003_000005_000003_000039_000097_000147_000327_000257_001547_000769_007077_005221_013679_044237_070053,
  1_063889_000001_000001_000005_000011_000019_000015_000079_000187_000335_000645_001235_004041_004831_010847_028135_048353_064921,
  1_063892_000001_000001_000007_000009_000003_000043_000041_000149_000071_000205_001513_002801_006785_003187_025401_055367_114491,
  1_063901_000001_000001_000007_000001_000025_000011_000037_000205_000365_000435_000147_001303_000587_014563_032461_028983_086157,
  1_063915_000001_000001_000007_000001_000031_000011_000051_000037_000401_000343_001677_000991_000501_011993_014781_037055_030161,
  1_063917_000001_000003_000005_000009_000009_000021_000095_000045_000447_000957_000943_003997_004033_008371_025007_052827_050207,
  1_063926_000001_000001_000007_000001_000009_000045_000003_000255_000297_000341_000215_003631_007049_007625_004145_050109_048615,
  1_063932_000001_000003_000003_000009_000027_000049_000041_000143_000291_000343_000719_000311_003819_007699_017631_064785_049239,
  1_063937_000001_000001_000007_000003_000027_000035_000061_000183_000153_000781_000979_001465_003315_014893_029847_018461_074949,
  1_063938_000001_000003_000005_000015_000019_000061_000039_000219_000279_000909_001295_001681_008021_000957_007675_014001_077669,
  1_063943_000001_000003_000001_000005_000015_000059_000127_000085_000229_000649_000503_003267_002465_005637_002729_024831_044791,
  1_063944_000001_000003_000007_000011_000023_000055_000061_000191_000345_000255_000105_001361_003913_007655_008865_001825_080619,
  1_063950_000001_000003_000003_000013_000029_000015_000053_000019_000001_000651_000917_002043_002333_013695_028225_016457_011287,
  1_063952_000001_000001_000003_000013_000015_000053_000041_000211_000013_000287_000383_003923_000665_010343_004803_022199_090521,
  1_063955_000001_000003_000007_000011_000023_000027_000127_000241_000011_000451_000495_002779_000319_013119_005575_043043_011659,
  1_063957_000001_000001_000001_000007_000017_000053_000055_000039_000233_000273_001873_000843_007885_000329_006809_033119_116017,
  1_063961_000001_000001_000001_000007_000021_000041_000023_000113_000283_000265_001535_002371_003975_006293_022497_065349_048653,
  1_063962_000001_000003_000007_000009_000025_000021_000061_000135_000245_000777_000679_002603_000565_003251_032469_012707_040297,
  1_063978_000001_000001_000001_000005_000031_000049_000035_000215_000445_000669_000779_002231_005399_005853_017941_033973_126141,
  1_063983_000001_000003_000005_000005_000003_000031_000045_000235_000051_000065_000295_003755_008101_000821_028331_038837_055235,
  1_063988_000001_000001_000005_000015_000023_000015_000037_000197_000059_000455_001875_001745_007565_008039_015901_063129_036095,
  1_064008_000001_000001_000005_000011_000007_000001_000077_000235_000309_000245_001539_001421_003401_001477_012655_019851_086147,
  1_064013_000001_000001_000003_000009_000027_000009_000113_000127_000167_000213_000161_004065_001275_010699_026111_026213_129091,
  1_064019_000001_000003_000005_000009_000009_000017_000109_000205_000023_000145_001261_000051_005855_007411_020551_005801_047841,
  1_064026_000001_000001_000003_000003_000015_000001_000001_000039_000431_000601_000177_000525_006951_006271_027031_037157_073979,
  1_064028_000001_000003_000001_000003_000019_000061_000011_000131_000031_000223_000959_003531_002433_015675_029201_049277_043977,
  1_064032_000001_000001_000005_000009_000005_000027_000057_000003_000503_000755_001261_003659_006685_010041_024739_012201_019753,
  1_064042_000001_000001_000007_000003_000031_000027_000007_000191_000007_000415_001665_001413_007493_002645_023577_046331_009481,
  1_064044_000001_000001_000005_000001_000029_000059_000099_000231_000033_000613_001347_002671_001767_015685_026583_044699_073511,
  1_064055_000001_000001_000003_000003_000009_000047_000093_000087_000045_000549_000219_002141_000233_010239_030325_014985_070325,
  1_064070_000001_000001_000003_000003_000021_000039_000081_000179_000319_000853_000093_002869_000059_006675_022391_016089_033949,
  1_064079_000001_000001_000003_000007_000031_000019_000073_000249_000175_000057_001717_003557_002307_004595_022045_033291_123003,
  1_064084_000001_000001_000001_000003_000007_000023_000081_000229_000387_001001_001371_000017_000667_003043_030507_044613_032239,
  1_064087_000001_000001_000007_000015_000015_000059_000083_000099_000101_000863_000333_000845_007547_013345_007599_000051_010963,
  1_064093_000001_000001_000001_000003_000015_000055_000073_000037_000429_000711_001315_002911_005109_000953_014721_025551_033527,
  1_064100_000001_000001_000005_000009_000011_000057_000075_000107_000449_000293_001267_002633_005291_009939_012365_001975_075705,
  1_064104_000001_000003_000003_000007_000019_000051_000111_000233_000369_000873_001419_000425_006587_011371_029613_028041_077405,
  1_064109_000001_000003_000001_000015_000011_000001_000065_000185_000301_000025_000075_001353_006879_011519_024093_065223_130659,
  1_064140_000001_000001_000003_000003_000017_000017_000033_000177_000467_000841_000949_001119_007869_005835_022175_020439_098923,
  1_064148_000001_000003_000001_000009_000001_000019_000001_000009_000487_000425_001095_001995_000693_012661_027717_056167_034829,
  1_064151_000001_000001_000007_000007_000027_000057_000085_000159_000109_000801_000477_003953_003195_011079_026885_059833_004971,
  1_064152_000001_000001_000001_000015_000025_000009_000089_000231_000499_000623_001385_003753_004781_015263_012721_017511_067327,
  1_064171_000001_000001_000003_000007_000009_000011_000103_000065_000319_000681_001423_002355_006243_000399_008483_023697_107995,
  1_064179_000001_000001_000001_000001_000005_000007_000063_000117_000151_000905_000163_003813_006931_013161_015131_063067_015649,
  1_064186_000001_000003_000003_000003_000013_000057_000069_000199_000283_000153_000617_000123_003125_003057_008121_014483_028085,
  1_064203_000001_000003_000007_000015_000025_000045_000025_000179_000091_000457_000681_000537_000243_004369_011395_017565_047875,
  1_064206_000001_000003_000001_000013_000029_000051_000101_000023_000143_000715_001725_000791_006001_004283_010689_049237_005231,
  1_064213_000001_000003_000003_000005_000027_000041_000039_000017_000501_000587_001067_001859_000009_013449_031257_017675_099769,
  1_064214_000001_000001_000001_000003_000015_000057_000119_000195_000015_000779_000761_000733_003505_004815_023167_000411_052303,
  1_064220_000001_000003_000001_000013_000009_000031_000005_000141_000019_000487_000739_000577_004383_001951_024293_045503_111923,
  1_064233_000001_000003_000001_000011_000025_000037_000107_000245_000089_000107_001969_001569_007475_011795_006123_045311_052251,
  1_064239_000001_000001_000007_000011_000015_000009_000067_000141_000199_000091_000819_003721_006251_006107_009393_014941_098545,
  1_064248_000001_000003_000003_000011_000023_000009_000031_000211_000339_000665_001507_002255_003589_011495_028393_002017_106735,
  1_064251_000001_000003_000005_000011_000027_000013_000105_000217_000173_000337_001573_000837_003771_008645_028749_027501_045045,
  1_064259_000001_000001_000005_000001_000011_000043_000099_000217_000131_000545_001323_003089_005689_000785_009043_029961_017855,
  1_064268_000001_000001_000003_000009_000031_000041_000061_000239_000271_000123_001583_000397_004243_012197_009847_012341_130533,
  1_064273_000001_000003_000005_000003_000027_000011_000033_000031_000077_000403_000823_002791_003475_004201_015967_039149_107137,
  1_064279_000001_000003_000001_000011_000009_000005_000103_000145_000085_000341_001615_000729_007209_010289_020807_054167_015613,
  1_064283_000001_000003_000007_000001_000029_000033_000091_000219_000171_000367_000907_003645_001059_009031_000247_013231_014323,
  1_064292_000001_000001_000001_000007_000019_000015_000065_000061_000221_000941_001005_001447_003513_008917_017399_052471_064245,
  1_064296_000001_000001_000005_000007_000005_000035_000015_000253_000325_000313_002015_003239_001633_009745_011617_010575_035877,
  1_064301_000001_000003_000005_000003_000013_000001_000115_000207_000227_000637_001119_000781_002897_001573_016499_043167_020631,
  1_064302_000001_000003_000005_000009_000017_000047_000117_000007_000303_000719_000975_001167_002463_005255_028237_033495_057133,
  1_064324_000001_000003_000005_000011_000005_000043_000123_000063_000019_000097_001423_000695_005985_005923_005755_022721_005411,
  1_064331_000001_000003_000001_000009_000009_000025_000087_000197_000325_000827_001679_001561_000101_003951_017453_033537_121431,
  1_064346_000001_000001_000007_000005_000013_000033_000003_000191_000171_000037_000619_001917_007525_014103_025807_025455_057455,
  1_064364_000001_000003_000003_000001_000009_000035_000093_000159_000455_000115_000479_000665_000477_004483_029751_045047_041251,
  1_064382_000001_000003_000001_000003_000011_000047_000041_000199_000511_000475_000151_001163_000239_006731_004461_039845_099555,
  1_064386_000001_000001_000005_000007_000009_000005_000049_000221_000503_000637_001323_003303_004137_006675_017709_049233_038325,
  1_064400_000001_000001_000005_000015_000001_000043_000055_000067_000291_000393_000237_003555_004171_000909_008655_046309_061799,
  1_064409_000001_000003_000005_000003_000003_000037_000125_000249_000509_000611_000983_004093_001633_010063_010811_060033_040999,
  1_064419_000001_000003_000005_000011_000001_000037_000075_000255_000279_000545_001999_000833_002789_014601_016707_064703_053545,
  1_064433_000001_000001_000005_000007_000003_000015_000059_000011_000017_000711_000721_000765_003747_013549_028641_047437_042261,
  1_064454_000001_000003_000007_000001_000003_000045_000065_000045_000279_000929_000933_002215_007095_014593_006047_040747_109789,
  1_064458_000001_000003_000007_000015_000015_000055_000089_000155_000345_000515_001005_002921_001761_001095_028463_020971_062451,
  1_064482_000001_000003_000003_000001_000001_000041_000035_000149_000481_000171_000305_001411_000237_004515_032375_022645_000741,
  1_064494_000001_000001_000001_000015_000017_000001_000123_000235_000221_000495_001693_003109_006453_008827_023775_009303_030237,
  1_064496_000001_000003_000003_000005_000007_000063_000037_000013_000457_000159_001683_002207_001731_003341_007415_021073_119417,
  1_064505_000001_000001_000007_000015_000021_000027_000005_000067_000267_000919_000203_001129_004029_003407_016767_035485_066903,
  1_064514_000001_000001_000001_000005_000015_000029_000099_000005_000219_000677_000443_003799_002461_000747_020885_032661_044079,
  1_064519_000001_000001_000001_000001_000003_000055_000053_000151_000195_000587_001155_002439_003817_008735_030849_054107_014113,
  1_064525_000001_000001_000001_000009_000029_000015_000089_000175_000373_000925_000301_003749_005439_002653_022819_041201_077043,
  1_064528_000001_000001_000001_000001_000025_000049_000029_000129_000331_000539_001247_000773_007891_005905_019571_017919_006815]

def dirRows17_2_24 : List Nat := [
  1_064534_000001_000001_000003_000015_000005_000063_000123_000133_000141_000383_001893_000573_000629_003939_009455_050433_111415,
  1_064561_000001_000001_000007_000009_000015_000033_000119_000159_000017_000511_001841_000427_003911_008609_004215_009799_084397,
  1_064571_000001_000001_000007_000003_000009_000025_000063_000247_000235_000635_000915_003423_005421_007021_009203_018121_003683,
  1_064579_000001_000003_000001_000001_000025_000011_000105_000001_000491_000137_001923_000103_003371_003543_005173_036777_023417,
  1_064591_000001_000003_000003_000013_000019_000037_000093_000191_000101_000193_000351_000839_007147_005477_029225_045307_001455,
  1_064606_000001_000003_000001_000005_000011_000017_000095_000239_000105_000407_000395_000919_003317_014825_023447_004897_128363,
  1_064616_000001_000001_000001_000011_000027_000047_000083_000137_000163_000673_001291_003041_004559_007217_023613_019477_093805,
  1_064619_000001_000001_000001_000015_000025_000051_000037_000009_000023_000757_001921_002649_005677_011421_010231_001775_124709,
  1_064640_000001_000003_000001_000013_000031_000037_000037_000163_000059_000975_001203_001425_001255_003259_016681_038101_118165,
  1_064645_000001_000001_000003_000011_000017_000017_000031_000023_000169_000305_000003_001631_006853_007019_014539_057663_070377,
  1_064649_000001_000001_000007_000003_000015_000061_000113_000031_000497_000935_000473_000819_001223_013907_005075_045177_020255,
  1_064652_000001_000003_000007_000013_000009_000041_000123_000121_000497_000877_000915_003323_004815_004175_025979_038751_107099,
  1_064670_000001_000001_000003_000007_000013_000033_000031_000167_000331_000595_000517_001237_001947_001905_028155_052431_093065,
  1_064673_000001_000003_000001_000001_000011_000051_000007_000151_000323_000211_000523_002929_000233_003633_002785_006043_100101,
  1_064674_000001_000001_000007_000013_000029_000003_000125_000247_000121_000567_000857_003225_007461_015413_000773_054939_067443,
  1_064683_000001_000001_000001_000015_000019_000029_000101_000179_000369_000115_001777_003223_001499_012487_000041_050607_111137,
  1_064697_000001_000001_000003_000001_000009_000059_000021_000025_000173_000357_001143_001353_003907_010743_030325_039211_116671,
  1_064703_000001_000001_000007_000015_000009_000063_000067_000229_000007_000399_002037_003531_006393_004273_009365_052009_118093,
  1_064711_000001_000001_000007_000001_000031_000021_000005_000251_000433_000001_000481_004041_006179_000825_008671_020597_103257,
  1_064723_000001_000001_000007_000001_000015_000041_000069_000093_000047_000017_001901_002671_004739_001883_030239_050763_108295,
  1_064736_000001_000003_000007_000015_000029_000019_000063_000213_000475_000133_000043_000955_002001_000555_010479_001333_052807,
  1_064739_000001_000003_000003_000015_000027_000013_000091_000109_000071_000333_001971_003355_002175_011457_031101_030217_068263,
  1_064741_000001_000001_000005_000001_000021_000033_000051_000169_000365_000475_001015_000985_007217_015453_007727_049843_057733,
  1_064748_000001_000001_000007_000001_000011_000037_000067_000135_000429_000403_001663_002037_007849_003757_006373_038703_046393,
  1_064759_000001_000001_000001_000003_000015_000003_000029_000101_000327_000643_000047_001805_006873_001659_031097_034847_046843,
  1_064768_000001_000003_000001_000015_000009_000045_000007_000189_000175_000955_000045_003545_003595_007443_002913_054501_063279,
  1_064771_000001_000003_000007_000011_000001_000039_000059_000179_000209_000121_000445_004077_004851_015161_029133_013543_106247,
  1_064778_000001_000003_000007_000007_000005_000053_000073_000107_000409_000639_001731_001921_000999_014445_017629_003667_074819,
  1_064792_000001_000003_000003_000009_000023_000041_000117_000195_000497_000425_000627_001599_007715_001401_007217_061113_067135,
  1_064821_000001_000001_000005_000013_000009_000033_000097_000115_000233_000833_001041_001755_005317_012703_025709_062293_002569,
  1_064831_000001_000001_000001_000011_000001_000007_000027_000151_000325_000905_001279_004093_007495_009803_017339_007977_024009,
  1_064839_000001_000003_000001_000011_000025_000059_000089_000175_000067_000139_001507_000411_007863_009585_014869_046655_126021,
  1_064848_000001_000003_000003_000015_000029_000005_000111_000251_000069_000177_000519_000901_004331_005341_022031_003851_114369,
  1_064860_000001_000003_000005_000003_000019_000009_000083_000069_000411_000673_001549_003429_003647_012601_017177_016161_114561,
  1_064867_000001_000001_000005_000005_000021_000015_000065_000179_000405_000571_001245_003693_007471_012109_020177_028783_124339,
  1_064870_000001_000001_000005_000005_000009_000061_000069_000099_000009_000829_001823_003803_001181_003073_010069_028689_021347,
  1_064874_000001_000001_000005_000001_000003_000011_000025_000099_000241_000957_001137_000007_003809_007073_021217_049447_041425,
  1_064879_000001_000003_000001_000009_000015_000059_000013_000029_000467_000893_001667_000031_003269_012599_028673_017101_081591,
  1_064887_000001_000003_000007_000003_000015_000055_000079_000177_000001_000891_000217_002725_006171_007779_016173_001003_037093,
  1_064894_000001_000003_000007_000011_000015_000061_000013_000181_000421_000083_000905_001089_004597_003291_023243_053123_021315,
  1_064897_000001_000001_000003_000003_000021_000063_000113_000149_000203_000379_000583_001955_008087_009155_023019_017757_001537,
  1_064898_000001_000003_000005_000009_000027_000041_000061_000207_000213_000253_000693_000273_001835_014135_011519_040819_050999,
  1_064921_000001_000003_000005_000003_000001_000051_000071_000237_000355_000327_001903_000133_006075_004685_029689_048723_067791,
  1_064933_000001_000003_000005_000009_000021_000013_000101_000023_000095_000369_001657_000989_004081_001373_029005_007247_053923,
  1_064940_000001_000001_000007_000013_000015_000003_000071_000189_000345_000771_000251_000937_001041_003017_027279_001635_032581,
  1_064957_000001_000001_000005_000007_000023_000063_000099_000043_000237_000189_001549_000025_000063_014089_014387_051423_057193,
  1_064969_000001_000001_000007_000015_000013_000055_000089_000087_000095_000241_000827_000501_002341_014357_000831_027101_098285,
  1_064972_000001_000001_000001_000009_000029_000029_000125_000081_000073_000123_000329_002617_001259_004415_030007_019467_117847,
  1_064978_000001_000003_000001_000011_000015_000063_000085_000121_000409_000885_001197_000423_002673_012107_001127_014119_090541,
  1_064984_000001_000003_000001_000003_000001_000035_000117_000149_000213_000925_000923_001013_003547_006877_003467_047893_038645,
  1_064993_000001_000001_000003_000015_000003_000021_000087_000199_000197_000851_001711_003449_001771_001727_011651_051903_099835,
  1_064999_000001_000003_000003_000001_000005_000027_000057_000243_000465_000173_000697_004011_006177_003019_031317_024699_053151,
  1_065000_000001_000003_000005_000007_000007_000051_000061_000177_000489_000381_000493_001975_003143_008003_007735_046363_110705,
  1_065006_000001_000001_000007_000005_000027_000045_000069_000033_000229_000725_002033_003655_003027_011795_002941_007921_117605,
  1_065011_000001_000003_000001_000007_000003_000037_000091_000255_000013_000651_000049_000309_007425_011641_003661_003929_094199,
  1_065014_000001_000003_000007_000005_000007_000047_000121_000203_000297_000941_001585_003659_000265_000159_030729_031825_000343,
  1_065036_000001_000003_000005_000009_000003_000025_000095_000215_000125_000105_000037_000943_004095_008169_026763_020975_122307,
  1_065044_000001_000001_000003_000015_000009_000013_000081_000025_000051_000015_000599_000835_006723_009487_025219_060401_048749,
  1_065063_000001_000003_000003_000015_000015_000047_000041_000219_000077_000043_001705_002363_007005_007137_017687_000665_116097,
  1_065067_000001_000003_000005_000001_000017_000033_000071_000003_000253_000355_000117_001995_003339_011789_013563_058889_018553,
  1_065075_000001_000003_000005_000001_000021_000033_000089_000177_000009_000951_001593_001419_003295_009617_031661_007841_119939,
  1_065077_000001_000003_000003_000001_000031_000035_000025_000009_000379_000271_000923_002387_003351_005869_004501_006855_028273,
  1_065082_000001_000001_000005_000009_000011_000015_000127_000079_000405_000579_000395_002469_005847_007589_017577_061717_006493,
  1_065095_000001_000003_000007_000013_000029_000013_000099_000209_000079_000469_000005_002231_000089_001557_005123_047169_046529,
  1_065101_000001_000003_000007_000009_000013_000035_000119_000053_000007_000351_000601_000901_005407_013673_006929_038311_002659,
  1_065104_000001_000003_000007_000009_000013_000023_000061_000255_000113_000331_000367_002979_002741_006971_026447_006861_116267,
  1_065109_000001_000001_000003_000003_000025_000057_000093_000005_000387_000087_001765_001277_008175_011185_004377_009779_095569,
  1_065110_000001_000001_000007_000011_000029_000043_000031_000155_000111_000409_000733_001919_002681_008435_005877_035439_015435,
  1_065116_000001_000001_000001_000007_000019_000033_000109_000125_000051_000733_000997_003467_005081_008371_000263_031461_046117,
  1_065126_000001_000003_000003_000007_000027_000061_000057_000075_000317_000247_001535_003757_004617_015627_011191_003581_064475,
  1_065129_000001_000003_000003_000001_000031_000007_000095_000151_000159_000475_000559_000379_000361_005953_005551_020313_064015,
  1_065138_000001_000001_000005_000001_000011_000031_000071_000077_000493_000697_000345_001809_000611_014319_006591_023657_044071,
  1_065160_000001_000001_000001_000013_000005_000001_000009_000233_000229_000397_001201_001817_007409_011521_003753_035611_123037,
  1_065171_000001_000003_000007_000015_000009_000015_000085_000163_000099_000867_000265_001021_000129_011059_000123_027185_068435,
  1_065173_000001_000003_000001_000011_000025_000043_000105_000165_000291_000977_000463_002699_005361_009951_029735_063501_086235,
  1_065180_000001_000003_000007_000013_000009_000033_000039_000145_000441_000233_000373_000193_001451_007975_002871_064431_043339,
  1_065189_000001_000001_000007_000013_000015_000025_000045_000027_000319_000719_001801_000447_003027_000769_000271_037227_026447,
  1_065193_000001_000001_000005_000001_000029_000001_000059_000059_000121_000251_000387_000055_005957_010527_024227_038841_029115,
  1_065208_000001_000003_000001_000005_000031_000025_000067_000191_000137_000849_000631_000953_003103_009737_028993_049413_060709,
  1_065214_000001_000003_000003_000015_000007_000005_000037_000179_000357_000961_001649_000441_005287_004161_024013_039661_076233,
  1_065216_000001_000001_000005_000001_000009_000001_000047_000209_000219_001021_000969_002343_005675_007137_014247_050305_072613,
  1_065225_000001_000001_000003_000001_000009_000043_000043_000047_000035_000097_000617_001033_002387_014155_017049_053333_108619,
  1_065236_000001_000003_000001_000003_000001_000045_000011_000171_000349_000065_000909_001801_001075_010905_007395_019997_128205,
  1_065239_000001_000001_000007_000011_000019_000039_000117_000175_000459_000791_001383_003473_006937_008447_010077_013353_122063,
  1_065273_000001_000003_000003_000009_000003_000027_000115_000029_000135_000305_001023_002517_001981_004969_018149_035565_120785,
  1_065274_000001_000003_000003_000011_000015_000023_000027_000115_000411_000805_000841_002205_005997_005141_010679_025235_081989,
  1_065281_000001_000001_000003_000009_000011_000063_000027_000185_000337_000891_001447_001397_008009_004453_023077_037599_093389,
  1_065294_000001_000001_000005_000013_000027_000011_000077_000011_000447_000081_001603_002317_006499_006631_027305_051049_040967,
  1_065324_000001_000003_000007_000001_000007_000043_000083_000033_000069_000119_000139_001391_004879_003759_031211_029203_110229,
  1_065335_000001_000003_000007_000015_000031_000059_000053_000097_000135_000233_001421_000587_002985_003627_007355_053829_051581,
  1_065354_000001_000003_000007_000015_000001_000037_000039_000225_000147_000037_000327_002819_006081_004337_022063_021177_091065,
  1_065359_000001_000001_000003_000001_000013_000031_000061_000133_000433_000243_000131_003625_006389_000335_024029_033217_080833,
  1_065373_000001_000001_000007_000011_000021_000039_000095_000181_000035_000499_000677_003935_001379_006791_012633_013671_028317,
  1_065383_000001_000003_000001_000005_000007_000057_000005_000229_000389_000197_001523_001221_000609_010449_006389_009279_053871,
  1_065387_000001_000003_000005_000007_000001_000039_000069_000131_000387_000839_001375_003841_000081_007395_005837_032067_051183,
  1_065397_000001_000001_000005_000003_000005_000027_000107_000171_000053_000923_000345_000445_001101_011201_020563_030889_072361,
  1_065411_000001_000003_000007_000011_000019_000007_000099_000219_000485_000403_000293_003967_007517_004765_011331_000055_092641,
  1_065413_000001_000001_000007_000013_000019_000009_000073_000031_000405_000513_000941_003645_007075_008109_021431_052791_120927,
  1_065418_000001_000001_000001_000015_000029_000033_000075_000065_000479_000047_000035_004023_004853_002793_029895_002711_083779,
  1_065441_000001_000001_000003_000015_000011_000001_000009_000149_000503_000845_000647_001233_004355_003623_003197_036015_024839]

def dirRows17_2_25 : List Nat := [
  1_065444_000001_000001_000007_000001_000031_000035_000059_000025_000393_000503_000227_003243_000301_011121_032463_038185_069969,
  1_065447_000001_000001_000001_000007_000009_000015_000011_000089_000019_000605_001657_003335_001967_000029_028619_042301_079909,
  1_065448_000001_000003_000007_000007_000019_000029_000111_000055_000299_000733_000547_000395_004831_001991_007357_025781_115129,
  1_065473_000001_000001_000003_000007_000005_000033_000031_000101_000163_000389_001163_001843_004105_014209_029261_005821_017929,
  1_065476_000001_000003_000005_000001_000011_000023_000053_000227_000497_000695_000313_003305_006549_015401_009339_040283_060531,
  1_065480_000001_000003_000005_000005_000003_000029_000077_000149_000509_000747_000085_002561_004435_014475_022887_038177_024535,
  1_065494_000001_000001_000007_000001_000001_000033_000007_000077_000153_000369_000689_003325_001173_016203_001499_036627_066915,
  1_065509_000001_000001_000005_000011_000023_000061_000095_000061_000289_000071_000653_002817_000365_007391_001613_048901_057471,
  1_065519_000001_000003_000003_000007_000015_000029_000065_000133_000015_000921_001601_001941_006917_010945_020101_059809_009017,
  1_065527_000001_000003_000003_000015_000007_000051_000095_000053_000087_001017_001039_003405_001967_009855_004905_004651_083487]

/-- Rows with 17 initial numbers, part 2. -/
def dir17_2 : List (List Nat) := [
  dirRows17_2_0,
  dirRows17_2_1,
  dirRows17_2_2,
  dirRows17_2_3,
  dirRows17_2_4,
  dirRows17_2_5,
  dirRows17_2_6,
  dirRows17_2_7,
  dirRows17_2_8,
  dirRows17_2_9,
  dirRows17_2_10,
  dirRows17_2_11,
  dirRows17_2_12,
  dirRows17_2_13,
  dirRows17_2_14,
  dirRows17_2_15,
  dirRows17_2_16,
  dirRows17_2_17,
  dirRows17_2_18,
  dirRows17_2_19,
  dirRows17_2_20,
  dirRows17_2_21,
  dirRows17_2_22,
  dirRows17_2_23,
  dirRows17_2_24,
  dirRows17_2_25]

end SALib.Data
