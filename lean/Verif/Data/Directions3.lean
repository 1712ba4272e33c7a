/-! # Direction-number table, rows 5714 to 8313

Generated from `src/SALib/sample/directions.py` lines 5716-8315.  One row per line: a leading 1, then
every number of the row padded to six digits (so the row `(7, 1, 1, 7, 11, 19)` is
`1_000007_000001_000001_000007_000011_000019`).  Rows are grouped by the number `s` of initial numbers. -/

namespace SALib.Data

def dirRows17_0_0 : List Nat := [
  1_000004_000001_000003_000001_000011_000021_000057_000115_000247_000499_000525_001629_003679_002109_006607_027435_001745_071201,
  1_000007_000001_000003_000003_000003_000031_000017_000113_000165_000189_000361_000103_001775_003001_003865_030591_002873_017129,
  1_000016_000001_000001_000005_000005_000015_000047_000047_000085_000247_000471_000713_003571_002407_009811_008187_032133_008541,
  1_000022_000001_000003_000003_000001_000015_000001_000059_000151_000469_000351_000671_002925_007207_005061_028691_004363_050767,
  1_000025_000001_000001_000005_000007_000011_000035_000067_000045_000193_000003_000627_003333_006497_012307_028807_013997_108645,
  1_000031_000001_000003_000001_000001_000017_000063_000125_000185_000485_000759_000717_001993_006707_003993_002181_008173_018057,
  1_000032_000001_000001_000003_000013_000007_000015_000113_000207_000103_000191_001895_002595_003873_012021_019259_012553_119119,
  1_000042_000001_000003_000007_000001_000017_000011_000101_000209_000315_000009_000901_002303_007623_007459_026391_045143_005753,
  1_000052_000001_000001_000005_000015_000001_000005_000071_000155_000167_000089_000145_003483_002385_015205_009193_020637_058473,
  1_000061_000001_000001_000005_000007_000025_000055_000057_000051_000333_000299_001721_001667_006513_010191_029405_021923_076593,
  1_000070_000001_000001_000005_000001_000007_000037_000107_000091_000241_000137_000627_002749_005573_011243_026197_004545_105599,
  1_000076_000001_000003_000001_000005_000025_000037_000073_000061_000057_000249_001953_001385_006479_003701_010693_000617_062535,
  1_000081_000001_000001_000001_000015_000005_000063_000041_000151_000395_000681_000227_003027_008123_015091_015475_035671_021129,
  1_000087_000001_000003_000005_000011_000029_000021_000015_000233_000103_000463_001829_002257_001717_002249_009599_005097_055705,
  1_000093_000001_000003_000005_000001_000029_000003_000035_000151_000193_000105_001107_000827_007169_001843_015225_029025_043165,
  1_000098_000001_000001_000007_000015_000017_000051_000093_000199_000205_000041_000113_001081_001571_011471_011057_016149_066905,
  1_000122_000001_000001_000003_000011_000005_000025_000107_000195_000051_000675_001683_003739_001653_000611_023249_053157_127785,
  1_000133_000001_000001_000007_000005_000007_000003_000025_000145_000453_000735_000441_000077_008171_009281_022749_036973_106237,
  1_000134_000001_000001_000003_000013_000013_000005_000095_000033_000223_000369_000453_002031_003531_006931_008977_054109_115487,
  1_000140_000001_000001_000007_000007_000001_000061_000033_000183_000245_000623_000529_001831_001867_002845_008311_010143_067897,
  1_000146_000001_000003_000007_000011_000027_000023_000093_000009_000061_000451_000067_001695_004227_002415_019249_044765_024611,
  1_000158_000001_000003_000003_000011_000029_000057_000065_000117_000349_000149_000363_001095_004989_003071_017519_018079_007277,
  1_000171_000001_000003_000005_000009_000001_000007_000059_000087_000307_000111_001291_000789_007361_006477_011229_036785_033303,
  1_000176_000001_000003_000005_000001_000019_000047_000053_000081_000127_000849_001479_001459_001889_015087_022115_020587_121005,
  1_000179_000001_000001_000007_000015_000031_000031_000071_000055_000253_000927_000277_002087_001313_003721_022729_034709_009821,
  1_000182_000001_000003_000005_000013_000013_000063_000073_000041_000165_000315_001907_002005_000691_000725_022685_008673_076011,
  1_000191_000001_000001_000005_000009_000023_000061_000047_000167_000279_000683_000683_001261_004037_015251_009421_045359_038001,
  1_000193_000001_000001_000007_000003_000017_000033_000069_000139_000235_000709_001475_002483_007559_008581_023965_031153_005097,
  1_000224_000001_000001_000007_000015_000023_000061_000043_000005_000433_000531_000761_002749_002881_005225_013491_016479_050203,
  1_000227_000001_000001_000003_000009_000029_000007_000009_000023_000339_000315_001723_000779_002983_006571_016025_063055_111103,
  1_000229_000001_000001_000007_000013_000023_000055_000071_000121_000297_000193_000041_003165_004419_005853_028127_056151_016597,
  1_000236_000001_000001_000005_000007_000007_000023_000093_000011_000261_000297_001769_001239_002579_000531_004423_007891_021729,
  1_000248_000001_000003_000005_000001_000013_000035_000083_000085_000125_000887_000161_003311_007261_009557_028975_028643_021479,
  1_000262_000001_000003_000005_000003_000027_000005_000047_000175_000287_000867_000141_003079_007583_004997_018271_024097_096319,
  1_000273_000001_000003_000005_000001_000021_000051_000047_000067_000211_000281_001861_001169_006403_004229_003995_009921_041515,
  1_000276_000001_000003_000003_000011_000023_000023_000081_000055_000441_000211_000169_003197_007213_007205_000015_011771_129091,
  1_000280_000001_000003_000007_000003_000023_000039_000023_000163_000253_001005_001775_003393_007659_008065_030021_061065_035171,
  1_000283_000001_000003_000001_000001_000029_000029_000039_000143_000191_000711_001077_000013_004137_015425_011139_001269_071915,
  1_000290_000001_000003_000003_000005_000011_000041_000101_000127_000301_000335_000045_002065_005835_007801_002639_005735_063445,
  1_000309_000001_000003_000005_000009_000003_000039_000051_000053_000489_000663_000951_003931_003075_000753_022179_020573_010775,
  1_000316_000001_000003_000003_000015_000013_000031_000001_000237_000079_000587_000395_000591_000607_013105_021301_026829_112181,
  1_000319_000001_000001_000007_000007_000005_000055_000031_000117_000247_000229_000247_000307_003821_006483_031317_022975_040535,
  1_000321_000001_000003_000007_000015_000015_000059_000101_000017_000437_000373_001727_000471_002783_007825_024555_058765_005097,
  1_000328_000001_000001_000003_000009_000031_000027_000071_000147_000071_000871_000793_002363_003213_013383_029801_053187_070021,
  1_000346_000001_000003_000001_000001_000019_000047_000121_000061_000303_000565_001371_003703_002201_006835_026041_056039_080227,
  1_000355_000001_000001_000005_000005_000003_000045_000091_000061_000257_000947_001449_004031_004925_008627_011909_009529_003429,
  1_000367_000001_000001_000001_000007_000009_000063_000069_000233_000141_000361_001443_002157_002877_000643_002779_008109_126911,
  1_000369_000001_000001_000005_000001_000005_000003_000067_000157_000021_000001_000361_000035_001475_012877_022169_006653_085005,
  1_000372_000001_000001_000007_000009_000025_000001_000007_000175_000047_000963_000405_003955_003905_008429_008483_062037_011323,
  1_000382_000001_000001_000005_000011_000029_000023_000077_000211_000319_000745_001935_002429_001687_002173_001571_019457_117777,
  1_000388_000001_000001_000007_000005_000015_000057_000121_000189_000303_000079_000527_001801_000071_009857_014197_059007_075341,
  1_000392_000001_000003_000003_000005_000025_000003_000019_000141_000155_000157_000287_000769_005789_008443_031823_001019_079111,
  1_000395_000001_000001_000005_000011_000027_000027_000117_000141_000355_001023_000869_000995_006311_006573_011721_001565_035517,
  1_000397_000001_000001_000001_000009_000001_000033_000107_000051_000041_000889_001191_001055_000503_014779_006641_058117_074157,
  1_000403_000001_000001_000007_000005_000013_000039_000039_000033_000293_000075_000963_003379_001847_012371_009005_038107_069753,
  1_000409_000001_000001_000005_000005_000007_000037_000019_000241_000427_000635_001711_003835_000773_010525_017207_001675_127255,
  1_000410_000001_000001_000003_000007_000017_000019_000011_000113_000191_000947_001133_003173_000213_010125_001373_056797_111011,
  1_000425_000001_000003_000001_000001_000029_000045_000065_000237_000223_000695_000697_003197_006887_008079_022099_012079_054847,
  1_000443_000001_000003_000003_000007_000005_000047_000019_000215_000341_000863_001879_000571_007113_002465_023407_052555_044375,
  1_000472_000001_000003_000005_000011_000025_000031_000109_000073_000429_000553_001905_001753_006733_004433_013785_032041_027115,
  1_000475_000001_000001_000001_000003_000027_000005_000097_000047_000343_000977_001241_000721_003355_003559_028349_056389_063103,
  1_000481_000001_000003_000003_000009_000021_000053_000057_000211_000073_000155_001855_000715_003179_005963_010061_035141_063131,
  1_000488_000001_000003_000001_000015_000021_000025_000051_000073_000031_000025_001385_000637_006585_000049_002105_006829_009353,
  1_000493_000001_000001_000007_000005_000011_000055_000031_000069_000145_000637_001131_002175_003547_013031_002131_012361_074737,
  1_000501_000001_000003_000003_000005_000031_000007_000119_000119_000309_000925_000895_003813_001131_004765_017865_048707_113577,
  1_000515_000001_000003_000003_000009_000013_000033_000127_000177_000323_000727_001881_000775_007329_011881_028309_000987_116093,
  1_000522_000001_000001_000003_000005_000031_000055_000039_000041_000511_000157_001655_002991_003633_008521_027049_018771_054015,
  1_000524_000001_000003_000005_000013_000011_000045_000113_000185_000375_000661_001331_004013_005521_001037_023365_030239_076957,
  1_000527_000001_000003_000003_000007_000019_000007_000023_000017_000435_000913_001985_000353_006049_007549_003371_060867_041099,
  1_000535_000001_000003_000003_000015_000017_000009_000053_000127_000149_000849_001181_002237_001345_000539_019715_026277_125445,
  1_000542_000001_000001_000001_000003_000001_000009_000067_000079_000079_000795_001793_003167_005917_005323_022043_022007_003917,
  1_000545_000001_000003_000005_000009_000015_000019_000059_000037_000141_000145_000413_001095_007709_000669_027061_040171_101499,
  1_000555_000001_000003_000001_000001_000009_000049_000109_000007_000119_000861_000875_001049_004125_006113_015699_006105_048799,
  1_000558_000001_000001_000003_000009_000011_000029_000043_000175_000371_000357_001181_003933_000043_004559_010333_023603_083095,
  1_000560_000001_000003_000003_000009_000009_000007_000057_000061_000409_000143_000591_000761_004107_008117_001051_004471_091771,
  1_000563_000001_000001_000003_000011_000003_000053_000119_000021_000213_000219_000051_003491_007143_000937_024693_003211_099463,
  1_000570_000001_000001_000003_000003_000001_000047_000053_000153_000211_000523_001637_003351_003753_012489_031825_027613_096431,
  1_000578_000001_000001_000005_000015_000023_000057_000081_000231_000147_000009_001043_003157_001463_004835_022435_057407_059615,
  1_000583_000001_000003_000003_000013_000015_000063_000111_000005_000449_000957_001175_002887_007741_008975_028775_004067_069283,
  1_000590_000001_000003_000001_000001_000005_000061_000109_000211_000349_000179_000951_000153_003147_007555_027037_059829_016077,
  1_000597_000001_000003_000003_000007_000015_000033_000053_000061_000309_000991_000227_003437_003983_014559_013065_046387_049105,
  1_000604_000001_000003_000005_000003_000025_000023_000097_000139_000315_000601_001179_001083_006799_001813_015511_060433_065641,
  1_000608_000001_000001_000007_000001_000011_000043_000087_000087_000173_000161_000091_003011_001869_002313_013691_003509_039433,
  1_000614_000001_000003_000005_000007_000015_000005_000039_000251_000269_000819_000815_002283_005635_006953_027017_065143_045281,
  1_000635_000001_000003_000007_000009_000001_000037_000009_000057_000467_000037_001743_004031_003751_008105_023789_046847_021911,
  1_000637_000001_000001_000007_000001_000023_000047_000063_000099_000059_000951_001837_002829_000161_000857_004045_009945_053487,
  1_000653_000001_000003_000007_000007_000011_000047_000043_000099_000279_000945_001189_002091_004597_000183_015527_007151_112403,
  1_000654_000001_000003_000003_000015_000009_000053_000063_000135_000119_000095_000131_002461_000157_010631_020847_051699_058865,
  1_000659_000001_000001_000003_000001_000025_000003_000115_000029_000303_000361_001529_003993_005899_011501_004463_047121_075333,
  1_000666_000001_000003_000001_000015_000009_000039_000031_000199_000305_000279_000015_000611_000561_006593_003189_001863_061875,
  1_000671_000001_000003_000005_000015_000005_000049_000087_000017_000087_000005_001179_001351_007647_007529_015901_030351_031959,
  1_000689_000001_000003_000003_000009_000031_000057_000127_000239_000349_000773_000547_002649_001309_008071_010741_057645_014423,
  1_000690_000001_000001_000005_000009_000005_000015_000059_000185_000315_000411_001425_003905_000853_012393_000021_015195_114291,
  1_000695_000001_000003_000001_000005_000029_000047_000019_000203_000319_000673_001169_002413_005295_006251_019883_002725_028937,
  1_000713_000001_000003_000001_000005_000021_000055_000019_000185_000103_000827_000117_000341_003315_005625_000345_063845_049081,
  1_000722_000001_000001_000007_000009_000027_000051_000105_000015_000243_000735_001221_001641_000293_014423_005363_060873_066223,
  1_000733_000001_000001_000005_000001_000019_000005_000109_000131_000131_000067_000231_002907_004389_005079_020503_059045_033625,
  1_000758_000001_000003_000001_000005_000005_000015_000079_000067_000287_000225_000519_001543_002389_000671_007767_062625_061639,
  1_000770_000001_000001_000001_000009_000025_000035_000083_000015_000291_000207_001757_003691_005669_011255_027939_057813_046251,
  1_000782_000001_000003_000001_000001_000029_000003_000083_000109_000323_000179_001855_003205_007665_016201_013863_016347_098977]

def dirRows17_0_1 : List Nat := [
  1_000784_000001_000003_000001_000013_000017_000001_000101_000183_000153_000985_000125_000999_000855_015897_019491_008953_023277,
  1_000793_000001_000001_000007_000011_000009_000033_000045_000229_000411_000155_000537_003037_001785_011719_008589_016617_047339,
  1_000803_000001_000001_000005_000005_000009_000011_000007_000163_000305_000621_001647_002609_007901_014421_023447_001205_052681,
  1_000805_000001_000003_000003_000001_000007_000029_000039_000227_000419_000561_000129_003299_003123_004243_018689_012335_071783,
  1_000812_000001_000003_000001_000009_000011_000061_000065_000207_000123_000763_000485_001943_003617_000415_022397_058597_128017,
  1_000838_000001_000001_000005_000013_000025_000043_000115_000073_000269_000137_001765_000705_001705_016137_022751_060021_004333,
  1_000849_000001_000001_000005_000013_000003_000057_000009_000141_000075_000695_000597_003435_001085_004905_019625_016061_012111,
  1_000875_000001_000001_000005_000009_000029_000013_000119_000251_000353_000421_001955_003503_002605_002587_012503_046419_128815,
  1_000877_000001_000003_000005_000007_000007_000029_000067_000025_000037_000327_001607_001899_001691_005801_017441_009755_024993,
  1_000880_000001_000001_000003_000011_000017_000029_000121_000201_000371_000597_000213_002361_006615_000169_024801_056175_129241,
  1_000892_000001_000003_000005_000001_000031_000063_000085_000077_000151_000599_000103_000677_004431_012897_006373_040349_100819,
  1_000895_000001_000003_000005_000009_000025_000009_000119_000219_000379_000939_001907_000945_005819_007433_032519_056493_050441,
  1_000899_000001_000001_000003_000009_000013_000001_000063_000189_000135_000839_001821_002247_002547_000965_006847_063335_032921,
  1_000919_000001_000003_000005_000013_000021_000025_000111_000037_000319_000469_001999_001637_008167_002641_024615_063713_115923,
  1_000920_000001_000003_000005_000009_000009_000027_000001_000063_000275_000223_001675_003833_007377_009755_006279_037161_108805,
  1_000932_000001_000003_000003_000013_000029_000023_000021_000073_000401_000863_000701_002527_004557_005549_022493_006651_039167,
  1_000935_000001_000001_000003_000015_000025_000021_000097_000025_000083_000925_002029_003789_003241_007617_013699_031123_124619,
  1_000936_000001_000003_000007_000005_000023_000007_000095_000227_000123_000215_000359_002099_004505_008477_032665_018211_099679,
  1_000941_000001_000003_000001_000009_000011_000057_000075_000017_000105_000175_000831_001033_005425_008419_016163_023901_033889,
  1_000950_000001_000001_000007_000001_000017_000049_000071_000023_000129_000413_000333_002547_004627_014961_016745_053649_073059,
  1_000961_000001_000003_000005_000003_000013_000033_000121_000147_000443_000187_001949_000319_008141_014359_011203_053569_070415,
  1_000962_000001_000003_000001_000011_000015_000001_000023_000029_000509_000985_001217_003755_000385_003697_024631_037619_062435,
  1_000971_000001_000003_000003_000003_000017_000011_000107_000037_000227_000913_000259_002799_003249_002347_009703_052741_101187,
  1_000982_000001_000001_000005_000013_000025_000025_000047_000077_000405_000415_001947_001675_005079_001333_010059_032033_088975,
  1_000986_000001_000003_000005_000009_000027_000007_000019_000241_000445_000205_000333_000285_007997_006339_029643_010229_029965,
  1_001012_000001_000003_000005_000011_000017_000009_000091_000223_000173_001013_000779_003967_000781_005471_004309_024795_099203,
  1_001021_000001_000001_000001_000003_000019_000053_000007_000159_000351_000515_000223_003375_000001_004985_016729_043333_085917,
  1_001024_000001_000003_000003_000001_000019_000035_000095_000069_000019_000157_001177_000579_007109_003499_003219_026641_049491,
  1_001029_000001_000003_000003_000005_000025_000021_000125_000005_000039_000857_000615_002925_002005_005503_025523_036711_030939,
  1_001030_000001_000003_000001_000005_000011_000033_000029_000005_000425_000125_000939_001641_000321_001023_012551_004587_116617,
  1_001051_000001_000003_000003_000013_000009_000059_000093_000137_000103_000517_001555_000013_007965_013629_014339_037425_065891,
  1_001054_000001_000003_000007_000001_000031_000031_000087_000237_000365_000951_000267_002019_005085_006133_029371_050319_094313,
  1_001064_000001_000003_000005_000007_000017_000019_000023_000225_000501_000189_001291_000603_006873_008633_011425_030565_026355,
  1_001067_000001_000003_000007_000011_000023_000017_000091_000111_000415_000225_001287_002081_004683_012069_003627_032281_017995,
  1_001082_000001_000001_000005_000015_000025_000059_000075_000203_000179_000405_001711_003147_007483_005583_003729_011765_061019,
  1_001096_000001_000003_000003_000009_000003_000043_000065_000007_000269_000033_000829_001789_000967_013119_026329_016937_018533,
  1_001116_000001_000001_000003_000015_000011_000039_000073_000011_000031_000143_001913_001227_001363_011831_028687_050489_106373,
  1_001119_000001_000001_000003_000003_000025_000019_000015_000011_000349_001011_000421_003193_003665_006149_020729_006997_051437,
  1_001129_000001_000003_000005_000009_000013_000063_000073_000055_000417_000223_001753_002913_004809_003947_010769_005751_093867,
  1_001130_000001_000003_000007_000013_000031_000039_000039_000133_000483_000839_001137_003303_007285_004309_024079_060529_103337,
  1_001132_000001_000001_000003_000007_000001_000055_000003_000253_000435_000589_001949_001461_000513_000381_029455_004263_016831,
  1_001137_000001_000001_000001_000015_000025_000019_000077_000101_000299_000187_001021_001533_008021_004165_002277_018927_110439,
  1_001147_000001_000001_000001_000011_000009_000035_000071_000159_000409_000527_000015_004073_005749_008563_002503_053015_111581,
  1_001150_000001_000001_000007_000005_000021_000047_000113_000023_000477_000559_000543_000409_004701_011479_030761_008373_087777,
  1_001154_000001_000003_000005_000013_000009_000027_000025_000137_000081_000037_000799_000857_003539_004471_015753_059015_048589,
  1_001165_000001_000001_000003_000007_000011_000057_000103_000083_000209_000071_000193_003251_004839_013959_032009_006471_023631,
  1_001166_000001_000001_000007_000011_000025_000033_000085_000031_000371_000253_001667_001627_006159_010039_015177_052121_039475,
  1_001174_000001_000001_000005_000009_000013_000055_000037_000013_000095_000113_001895_001525_001907_006361_005863_027767_108143,
  1_001177_000001_000001_000003_000013_000021_000005_000053_000039_000485_000171_001355_002117_003127_006467_031697_045343_111477,
  1_001184_000001_000001_000007_000015_000013_000057_000011_000231_000329_000703_001823_002983_000215_002835_019719_056637_126169,
  1_001194_000001_000003_000005_000015_000013_000051_000013_000173_000301_000867_000127_002391_002795_004945_013293_049947_010765,
  1_001204_000001_000003_000003_000009_000023_000005_000029_000165_000467_000599_001181_003213_004069_005473_008937_051495_042611,
  1_001208_000001_000001_000007_000015_000005_000005_000031_000125_000397_000519_001465_000115_007877_007025_014213_050343_085827,
  1_001213_000001_000003_000007_000003_000025_000059_000095_000103_000101_000347_000095_000003_001251_015109_012615_007511_056789,
  1_001219_000001_000003_000005_000009_000013_000059_000071_000019_000107_000073_000345_003177_006519_002407_018033_031075_113185,
  1_001233_000001_000001_000001_000003_000027_000037_000005_000219_000169_000149_000355_000549_001811_011351_022627_053931_088619,
  1_001264_000001_000003_000001_000003_000027_000007_000009_000097_000399_000947_001393_003917_005439_015845_019465_030123_069099,
  1_001267_000001_000001_000007_000009_000013_000025_000107_000045_000111_000409_000967_003359_002499_001703_020763_045187_016265,
  1_001281_000001_000001_000001_000013_000005_000049_000043_000249_000049_000947_000597_001773_002387_002693_015297_057969_053385,
  1_001312_000001_000001_000007_000015_000027_000025_000027_000121_000421_000781_000143_000817_007335_014211_000139_055601_056671,
  1_001321_000001_000003_000001_000005_000029_000047_000077_000023_000413_000931_000785_001221_000769_013131_026955_056441_085745,
  1_001330_000001_000001_000001_000011_000027_000003_000053_000021_000467_000043_001533_001053_000691_006369_008325_051087_071261,
  1_001332_000001_000001_000003_000015_000007_000009_000043_000225_000293_000143_001049_003095_006119_003165_009913_026023_062657,
  1_001335_000001_000003_000007_000009_000011_000039_000099_000193_000217_000941_000259_003811_006757_000281_010377_046961_048949,
  1_001341_000001_000001_000001_000001_000025_000001_000099_000061_000495_000861_002013_000487_002821_012921_030111_027213_097363,
  1_001356_000001_000001_000005_000009_000023_000033_000103_000237_000161_000721_002021_000159_000995_000475_020615_030961_031767,
  1_001371_000001_000003_000001_000001_000005_000059_000063_000139_000451_000789_001285_000655_005501_000273_021061_035937_020811,
  1_001377_000001_000003_000003_000009_000009_000015_000121_000233_000287_000929_001605_001243_000417_001695_029903_028699_085981,
  1_001380_000001_000003_000003_000005_000007_000025_000027_000253_000469_000255_000285_002467_004897_004079_029759_050351_076451,
  1_001384_000001_000001_000003_000003_000005_000033_000029_000209_000291_000967_001429_001953_005957_014065_008875_032675_004629,
  1_001395_000001_000003_000005_000009_000007_000031_000097_000021_000177_000485_001115_004051_006683_007761_030181_037531_051789,
  1_001397_000001_000001_000007_000003_000025_000051_000023_000183_000057_000699_001245_002519_002783_004457_006381_043199_040071,
  1_001411_000001_000003_000005_000005_000019_000055_000045_000101_000299_000461_001009_000319_007335_007769_005479_061113_007937,
  1_001414_000001_000001_000007_000003_000029_000021_000055_000055_000437_000771_000363_000683_004299_015569_013813_040663_086285,
  1_001426_000001_000001_000001_000013_000031_000035_000093_000175_000451_000387_001145_003367_003833_013495_011019_048925_085721,
  1_001432_000001_000001_000007_000015_000031_000021_000055_000205_000117_000895_000535_002627_001473_010779_024493_042999_130805,
  1_001435_000001_000001_000003_000013_000027_000011_000045_000037_000193_000237_001505_001405_003613_009565_003037_053643_085211,
  1_001437_000001_000001_000003_000013_000009_000017_000019_000027_000117_000503_000065_001033_007891_004005_009229_020999_096601,
  1_001442_000001_000003_000003_000005_000017_000003_000071_000079_000145_000985_000935_003997_006239_012511_013895_065031_126383,
  1_001454_000001_000001_000005_000001_000023_000055_000003_000105_000071_000243_001479_000111_007103_010753_026193_035833_014583,
  1_001468_000001_000003_000003_000003_000015_000003_000073_000125_000267_000029_001775_001437_008091_010891_025731_054381_012821,
  1_001473_000001_000001_000001_000003_000023_000015_000067_000123_000401_000347_000807_001097_000031_011209_008727_058149_129099,
  1_001488_000001_000003_000003_000007_000007_000061_000049_000129_000423_000535_000135_003587_000233_004509_023209_059203_041297,
  1_001491_000001_000003_000001_000007_000005_000029_000065_000031_000335_000855_000835_001421_003081_014219_016321_048269_041603,
  1_001509_000001_000001_000001_000013_000003_000021_000005_000117_000163_000603_001519_003789_007873_010981_004615_009165_083929,
  1_001524_000001_000003_000005_000011_000015_000021_000075_000151_000193_000757_000647_001603_000333_010515_022771_055459_003315,
  1_001533_000001_000001_000007_000001_000027_000003_000063_000197_000271_000175_001599_002119_001031_008671_010893_035641_094535,
  1_001555_000001_000001_000001_000015_000001_000059_000093_000017_000005_000213_001663_000941_000435_008107_001963_034951_106181,
  1_001567_000001_000001_000005_000011_000013_000035_000111_000097_000267_000737_002023_001301_007407_011249_031785_031933_020673,
  1_001571_000001_000003_000003_000015_000005_000015_000029_000063_000189_000687_000027_002005_007129_011377_023175_042389_030933,
  1_001586_000001_000001_000001_000009_000013_000063_000007_000155_000067_000291_001419_000755_002623_004749_022971_007545_055711,
  1_001592_000001_000003_000007_000007_000023_000029_000083_000151_000213_000201_000157_003051_006553_006401_015931_047941_022869,
  1_001595_000001_000003_000005_000005_000007_000045_000033_000155_000225_000025_000049_002419_004241_006835_011401_050725_118343,
  1_001600_000001_000001_000003_000013_000031_000027_000037_000041_000019_000375_001771_001789_002313_002577_012615_022715_022179,
  1_001606_000001_000003_000001_000011_000017_000053_000055_000229_000235_000837_000143_003583_002789_005471_006515_044565_008619,
  1_001627_000001_000001_000005_000015_000005_000017_000023_000095_000217_000551_000353_000027_003973_002547_027903_050611_072277,
  1_001648_000001_000001_000003_000007_000005_000013_000041_000111_000157_000215_001327_003073_001871_011875_024239_040527_097637,
  1_001651_000001_000003_000001_000001_000029_000063_000111_000187_000369_000395_001197_003229_004353_014715_029671_050503_089321,
  1_001654_000001_000003_000001_000001_000005_000063_000011_000039_000171_000209_000463_003421_003451_004453_014397_002219_098261,
  1_001667_000001_000003_000003_000005_000001_000001_000013_000101_000067_000815_001521_001543_007221_007337_010765_030029_047881]

def dirRows17_0_2 : List Nat := [
  1_001669_000001_000001_000005_000007_000009_000009_000033_000197_000439_000893_000961_000011_004319_014265_024839_033581_035531,
  1_001674_000001_000003_000003_000015_000029_000035_000043_000229_000313_000369_000955_001069_002939_012623_020373_001533_009105,
  1_001687_000001_000003_000001_000007_000021_000007_000127_000243_000103_000353_000859_003789_004369_012063_022369_014531_094289,
  1_001698_000001_000003_000005_000015_000001_000027_000065_000127_000229_000099_000627_002693_007173_007305_029971_007097_010113,
  1_001710_000001_000001_000005_000015_000003_000047_000061_000029_000155_000725_001727_002667_007003_016277_021983_021365_129365,
  1_001717_000001_000001_000005_000007_000027_000061_000115_000133_000137_000661_001201_002151_000367_003567_012885_062143_053955,
  1_001722_000001_000001_000001_000011_000009_000041_000113_000103_000469_000687_001541_003679_006833_010493_032747_039909_121445,
  1_001735_000001_000001_000007_000005_000005_000005_000091_000091_000005_000405_000529_003999_006783_002387_016621_012919_008659,
  1_001741_000001_000001_000007_000013_000021_000047_000125_000155_000083_000913_001833_004027_006657_007031_031231_058201_088943,
  1_001749_000001_000003_000007_000003_000017_000055_000025_000029_000181_000205_001173_001081_006475_005037_018461_022487_114131,
  1_001750_000001_000001_000007_000007_000025_000063_000101_000103_000171_000191_001863_003441_002515_014179_030123_019145_031669,
  1_001769_000001_000003_000007_000011_000029_000049_000073_000163_000415_000821_001809_000723_007049_014565_004829_019395_061131,
  1_001775_000001_000001_000007_000009_000005_000025_000103_000167_000381_000757_000813_000471_003021_006619_020929_038133_129505,
  1_001777_000001_000001_000005_000013_000025_000061_000059_000199_000257_000999_000169_003289_007181_002049_002185_039045_102703,
  1_001778_000001_000001_000003_000001_000021_000001_000111_000125_000289_000033_000701_003491_005569_008055_023149_026793_102563,
  1_001792_000001_000001_000007_000003_000025_000015_000105_000235_000307_000201_001947_000699_002519_010615_029345_017061_112949,
  1_001797_000001_000003_000003_000015_000019_000001_000093_000173_000399_000013_000269_001189_000523_005145_032731_054087_094123,
  1_001802_000001_000003_000001_000015_000009_000041_000059_000079_000217_000833_001993_002429_003599_006919_030911_012615_067947,
  1_001822_000001_000003_000003_000013_000031_000009_000095_000037_000343_000955_001363_003851_004091_013165_015241_014853_035747,
  1_001825_000001_000001_000003_000005_000027_000039_000037_000217_000385_000473_001997_002247_007353_001503_009003_015055_027289,
  1_001831_000001_000003_000007_000011_000001_000013_000021_000243_000375_000091_001295_001661_000203_015251_015355_016065_024183,
  1_001838_000001_000003_000001_000013_000011_000045_000085_000005_000275_000741_001395_004011_007987_016087_024113_050555_128147,
  1_001852_000001_000001_000001_000007_000003_000011_000013_000189_000055_000151_000395_000657_000807_011973_026297_013043_109641,
  1_001855_000001_000001_000007_000013_000031_000019_000033_000235_000491_000647_001115_002299_006381_007525_002237_036197_126457,
  1_001860_000001_000003_000005_000001_000021_000015_000053_000231_000077_000347_000969_000141_004501_009429_001815_050887_074581,
  1_001867_000001_000001_000001_000009_000029_000043_000047_000103_000327_000131_000927_000441_007517_007277_021065_000409_050351,
  1_001869_000001_000001_000005_000001_000011_000013_000103_000157_000239_000069_001347_000477_005017_009723_028133_065135_012359,
  1_001875_000001_000001_000001_000013_000017_000063_000117_000189_000323_000565_000927_001727_005337_013243_005739_031241_014209,
  1_001882_000001_000001_000003_000009_000029_000009_000103_000061_000467_000217_001367_002405_005355_005743_031469_030149_098775,
  1_001903_000001_000001_000001_000015_000023_000023_000017_000229_000103_000583_000179_000115_007081_009437_032623_062639_072391,
  1_001908_000001_000001_000005_000011_000011_000039_000097_000209_000115_000107_000593_002347_001445_006179_032011_008435_065847,
  1_001917_000001_000003_000007_000003_000029_000027_000055_000111_000027_000731_000995_001871_005017_001485_011313_002559_006561,
  1_001927_000001_000003_000001_000003_000027_000009_000103_000247_000083_000197_000517_001629_002189_007255_000183_035111_015077,
  1_001941_000001_000003_000007_000005_000031_000037_000087_000223_000343_000331_001361_003371_002007_013235_010897_063839_109837,
  1_001945_000001_000001_000007_000011_000017_000005_000041_000197_000489_000625_001595_002663_005941_014029_030999_016781_116001,
  1_001948_000001_000003_000003_000007_000019_000019_000061_000175_000125_000609_001391_000147_003001_004189_010133_024031_046219,
  1_001962_000001_000001_000003_000013_000013_000057_000117_000181_000299_000939_000583_003151_000829_006561_030449_012211_107879,
  1_001975_000001_000001_000005_000011_000023_000045_000087_000115_000259_000613_001001_000171_000057_013789_022173_056837_026263,
  1_001976_000001_000001_000003_000003_000007_000043_000045_000131_000087_000251_001411_002737_002739_004595_012561_012043_082885,
  1_001987_000001_000003_000003_000007_000019_000039_000087_000223_000461_000037_000283_003937_006193_010887_011509_041131_038359,
  1_001993_000001_000003_000001_000011_000011_000037_000025_000133_000105_001013_000925_003301_000239_016295_004831_008649_125767,
  1_002004_000001_000003_000003_000011_000025_000011_000041_000155_000001_000717_001587_000635_000279_001803_014817_028669_088835,
  1_002020_000001_000003_000003_000011_000029_000017_000039_000051_000013_000871_001197_002561_006671_008465_022709_015933_015923,
  1_002029_000001_000003_000007_000001_000013_000017_000057_000043_000267_000261_000901_000241_003767_015053_011017_036321_072497,
  1_002030_000001_000003_000001_000015_000023_000013_000017_000063_000171_000919_001387_002673_007605_008523_014807_021187_056057,
  1_002038_000001_000003_000007_000015_000023_000041_000085_000095_000053_000629_001877_003167_002411_009619_024621_031213_030069,
  1_002041_000001_000001_000005_000003_000003_000025_000099_000039_000321_000549_000599_001279_002401_002335_008227_059429_094549,
  1_002048_000001_000003_000003_000011_000009_000021_000029_000055_000477_000019_001275_000029_002253_011421_030401_057059_093219,
  1_002054_000001_000001_000007_000001_000027_000013_000117_000249_000463_000769_000281_000515_007467_011507_001621_039765_031109,
  1_002057_000001_000003_000005_000007_000019_000007_000077_000107_000023_000895_001013_002701_003805_007327_027247_006119_102395,
  1_002058_000001_000001_000003_000013_000021_000049_000099_000015_000163_000641_001703_003061_000163_004265_032571_013957_075005,
  1_002068_000001_000001_000005_000011_000027_000017_000087_000169_000427_000959_000361_001023_005727_016279_001099_039081_067215,
  1_002072_000001_000003_000003_000009_000023_000013_000001_000091_000173_000325_001881_001385_008023_000935_009221_019673_036949,
  1_002075_000001_000003_000001_000007_000007_000025_000119_000189_000107_000249_000811_000973_006499_000101_011281_055227_032361,
  1_002077_000001_000001_000005_000013_000019_000037_000117_000095_000463_000587_001419_000445_004019_007257_029757_050773_052247,
  1_002082_000001_000001_000001_000001_000017_000057_000081_000057_000043_000789_001035_000625_001707_009683_003681_012411_110623,
  1_002084_000001_000001_000007_000005_000007_000057_000049_000091_000459_000513_001869_003377_000139_010037_024091_054247_041279,
  1_002087_000001_000003_000003_000009_000009_000033_000029_000051_000355_000415_001907_000809_006543_000349_018507_012919_041667,
  1_002101_000001_000001_000005_000011_000003_000017_000073_000201_000121_000909_001623_000799_003271_009051_005717_015169_127861,
  1_002111_000001_000001_000007_000007_000023_000031_000001_000155_000475_000087_002001_002459_001285_005931_006803_056757_071671,
  1_002113_000001_000001_000005_000013_000005_000001_000021_000109_000263_000841_000723_001539_007529_000433_023721_033195_057001,
  1_002119_000001_000003_000003_000013_000029_000055_000105_000231_000405_000265_000671_000351_004693_009033_021963_052073_125131,
  1_002147_000001_000003_000001_000013_000025_000051_000055_000227_000245_000983_000251_002553_002017_001381_031461_003953_075775,
  1_002154_000001_000001_000001_000011_000031_000011_000091_000091_000287_000749_001019_004055_003237_006965_014765_001663_082987,
  1_002161_000001_000001_000007_000003_000011_000015_000067_000161_000079_000729_001115_003713_002715_009361_009365_026093_063409,
  1_002164_000001_000003_000001_000007_000001_000051_000125_000015_000457_000433_000405_002329_000157_004817_025867_038177_045319,
  1_002177_000001_000003_000007_000009_000025_000057_000005_000233_000481_000781_001313_003179_007219_008717_014825_016079_127149,
  1_002178_000001_000001_000007_000015_000027_000051_000005_000065_000077_000313_001751_001489_004307_010541_011345_052577_018143,
  1_002184_000001_000001_000001_000015_000021_000005_000113_000071_000411_000327_001681_001023_005661_015815_005387_010351_021121,
  1_002198_000001_000001_000005_000005_000029_000055_000025_000255_000069_000879_000501_001915_003731_000633_012197_005249_031129,
  1_002201_000001_000003_000005_000007_000003_000023_000107_000163_000485_000853_000359_003069_004353_000371_006027_053239_105541,
  1_002213_000001_000003_000005_000015_000007_000041_000009_000047_000033_000327_000621_000147_000577_000029_014623_003403_009791,
  1_002217_000001_000003_000003_000015_000029_000047_000041_000149_000477_000127_000573_000877_003101_005963_028457_014231_067425,
  1_002228_000001_000001_000001_000015_000031_000007_000055_000191_000101_000259_001071_000219_002233_003583_021969_032745_080529,
  1_002240_000001_000003_000007_000013_000017_000053_000115_000069_000241_000071_001475_000191_000509_003721_015537_053773_018005,
  1_002245_000001_000001_000003_000009_000005_000057_000013_000095_000103_000871_002043_002239_007833_010727_006513_055273_003781,
  1_002250_000001_000001_000005_000005_000009_000011_000055_000151_000239_000537_000135_002779_007393_015393_011097_058593_100745,
  1_002263_000001_000001_000001_000009_000015_000039_000029_000105_000441_000181_001113_002125_008145_011045_006589_033603_083377,
  1_002267_000001_000003_000001_000001_000011_000063_000069_000153_000225_000845_000675_000407_004691_013383_027359_038881_005509,
  1_002285_000001_000003_000007_000011_000023_000031_000069_000003_000041_000057_000683_000887_006861_012161_014537_027293_113001,
  1_002286_000001_000001_000001_000011_000005_000001_000101_000175_000437_000003_001477_001005_006607_007429_007213_004025_066479,
  1_002291_000001_000001_000007_000005_000019_000007_000099_000131_000273_000977_001717_003831_000175_005673_012577_036787_030945,
  1_002298_000001_000003_000001_000001_000015_000037_000105_000195_000061_000869_000255_002625_007401_009361_013217_052811_130811,
  1_002306_000001_000003_000005_000003_000029_000027_000105_000023_000511_000813_001311_002859_001647_001949_001329_027589_125209,
  1_002325_000001_000003_000003_000001_000021_000011_000119_000247_000123_000401_000409_001845_002133_010793_000221_043217_014069,
  1_002329_000001_000001_000005_000001_000029_000021_000051_000073_000501_000861_000725_000249_004249_008029_015767_011985_018637,
  1_002332_000001_000001_000005_000011_000019_000039_000097_000065_000013_000283_000489_002307_005239_004161_018639_060035_022405,
  1_002335_000001_000003_000005_000001_000003_000007_000109_000027_000429_000663_001569_003001_003453_008627_009719_023941_110451,
  1_002339_000001_000003_000007_000005_000017_000013_000125_000209_000347_000095_001937_001419_005661_007171_020607_009777_068343,
  1_002346_000001_000001_000001_000001_000007_000041_000043_000229_000057_000049_001863_002819_003735_000915_001571_011603_116275,
  1_002351_000001_000001_000007_000009_000021_000027_000005_000199_000181_000521_000303_001097_005427_008899_030325_055457_016189,
  1_002353_000001_000003_000003_000007_000019_000041_000003_000205_000279_000223_000971_000633_002617_013191_010193_023375_062563,
  1_002363_000001_000003_000003_000013_000023_000059_000085_000025_000253_000405_000065_001625_004401_004679_014381_057833_030001,
  1_002378_000001_000003_000003_000003_000013_000035_000011_000157_000123_000397_000119_002513_001919_014583_005469_011463_094711,
  1_002383_000001_000001_000001_000007_000017_000037_000083_000211_000451_000939_000449_000013_006671_001457_019855_015053_052327,
  1_002391_000001_000001_000005_000003_000009_000057_000039_000183_000331_000451_001391_001865_007801_014293_029069_000705_109497,
  1_002401_000001_000003_000007_000007_000023_000021_000085_000081_000255_000009_001685_002879_006327_012675_031657_038877_074131,
  1_002408_000001_000001_000005_000009_000025_000019_000041_000195_000031_000555_000927_001445_000593_011067_010819_017205_082037,
  1_002414_000001_000003_000001_000013_000001_000035_000029_000071_000323_000705_000053_003885_006223_001319_030853_059935_035949,
  1_002419_000001_000001_000007_000003_000027_000063_000067_000031_000149_000061_001611_000077_004271_003161_012493_038341_053837]

def dirRows17_0_3 : List Nat := [
  1_002428_000001_000001_000001_000015_000027_000053_000031_000249_000429_000925_001485_001855_004421_005703_010097_014827_036685,
  1_002441_000001_000003_000007_000013_000007_000063_000053_000009_000317_000485_001679_003631_003745_005643_021615_045129_048027,
  1_002444_000001_000001_000001_000001_000017_000043_000019_000163_000441_000847_000937_000959_006649_013071_001065_055193_129509,
  1_002461_000001_000001_000001_000011_000029_000047_000009_000215_000397_000637_000961_003139_002007_012603_027657_022825_072873,
  1_002480_000001_000003_000003_000015_000007_000045_000055_000163_000259_000899_000951_003245_004191_015813_020195_008361_054025,
  1_002483_000001_000001_000005_000011_000003_000017_000013_000223_000289_000255_000875_002937_001593_009729_021569_063199_083875,
  1_002486_000001_000001_000001_000015_000019_000031_000017_000129_000267_000009_002015_003233_006799_012891_018473_037865_019547,
  1_002489_000001_000001_000005_000005_000005_000029_000081_000037_000357_000539_001525_002839_008041_005569_004423_008907_035461,
  1_002490_000001_000001_000005_000005_000029_000011_000085_000061_000333_000521_001111_003627_000325_009805_017889_025655_039537,
  1_002518_000001_000003_000005_000011_000011_000053_000081_000025_000079_000253_001963_000287_007487_015045_021431_035417_102391,
  1_002527_000001_000001_000001_000005_000011_000033_000045_000045_000425_000773_001817_004077_001471_011655_000683_007115_092651,
  1_002540_000001_000001_000003_000003_000021_000013_000101_000215_000311_000853_000041_001007_005511_002581_025565_013155_117225,
  1_002558_000001_000001_000003_000011_000019_000009_000125_000059_000273_000691_000499_001547_000567_010259_021963_048725_003601,
  1_002567_000001_000001_000003_000007_000027_000031_000039_000125_000317_000625_001329_003947_003943_006889_002811_034055_001449,
  1_002571_000001_000001_000001_000003_000029_000045_000073_000239_000319_000611_000647_001839_005277_007807_003107_014683_020203,
  1_002574_000001_000003_000003_000003_000005_000005_000107_000139_000103_000809_001343_004041_003273_001789_016205_047873_027803,
  1_002579_000001_000003_000001_000009_000021_000023_000013_000131_000105_000741_001773_000981_005633_014609_012281_050343_014317,
  1_002585_000001_000001_000001_000005_000011_000005_000125_000171_000109_000555_000159_000905_000691_012401_022817_041411_070113,
  1_002615_000001_000003_000003_000009_000031_000037_000109_000231_000059_000615_000799_000319_002459_004521_008525_004827_022969,
  1_002639_000001_000003_000001_000005_000011_000007_000049_000237_000345_000473_000981_002073_006525_008805_013403_003659_069897,
  1_002641_000001_000003_000001_000005_000009_000037_000013_000203_000141_000573_000745_002613_005589_000607_024483_038427_095775,
  1_002644_000001_000001_000003_000001_000023_000061_000075_000057_000299_000191_000805_002993_005175_012037_013649_058831_048791,
  1_002663_000001_000003_000007_000013_000031_000057_000013_000219_000185_000717_001607_003785_004719_011583_029285_048207_092021,
  1_002667_000001_000003_000007_000015_000023_000035_000023_000069_000411_000773_001549_001087_001685_015703_027193_062675_043505,
  1_002669_000001_000001_000005_000003_000025_000019_000097_000075_000493_000549_001655_002881_004989_002765_004797_043143_113955,
  1_002672_000001_000001_000005_000007_000021_000005_000065_000037_000383_000133_001907_003747_001525_005803_019977_050551_023157,
  1_002687_000001_000001_000001_000011_000015_000061_000059_000109_000489_000901_001787_001611_006101_010653_003071_035643_056227,
  1_002700_000001_000003_000001_000005_000015_000025_000121_000111_000025_000251_001467_001795_001631_013753_032391_014831_090739,
  1_002705_000001_000001_000001_000013_000023_000055_000119_000147_000045_000871_001389_001929_001023_016131_010041_040055_023337,
  1_002724_000001_000003_000001_000015_000027_000033_000023_000041_000463_000603_001633_003445_002007_005999_011175_018343_013159,
  1_002728_000001_000003_000001_000009_000017_000015_000107_000063_000493_000411_000293_003669_006143_003057_008253_025491_058907,
  1_002733_000001_000003_000005_000011_000001_000043_000005_000117_000127_000813_001881_003711_002567_007819_005809_064471_104221,
  1_002741_000001_000003_000005_000009_000025_000027_000049_000093_000077_000705_001773_001745_004605_016137_014621_062893_081637,
  1_002748_000001_000003_000001_000015_000009_000029_000041_000101_000291_000763_001475_003185_003661_010351_026645_050375_059373,
  1_002751_000001_000001_000005_000015_000009_000031_000107_000159_000125_000471_001023_002361_004805_008073_021563_014903_077801,
  1_002756_000001_000003_000007_000001_000027_000017_000075_000129_000071_000697_000551_001969_006597_013821_002605_061783_074791,
  1_002771_000001_000001_000007_000015_000017_000027_000049_000047_000059_000047_001671_002535_001299_002387_024349_023661_091123,
  1_002774_000001_000001_000005_000015_000021_000061_000045_000037_000415_000189_000143_000351_001815_003479_002399_056753_123893,
  1_002793_000001_000001_000003_000007_000007_000019_000093_000249_000335_000305_001437_001329_002693_013201_009589_061513_115995,
  1_002796_000001_000001_000001_000011_000021_000057_000033_000205_000235_000253_000751_000259_006029_009811_010231_036899_078035,
  1_002804_000001_000001_000001_000011_000013_000025_000115_000195_000111_000913_001851_003283_006083_011717_002773_040727_000493,
  1_002814_000001_000003_000003_000009_000009_000017_000083_000137_000465_000671_001277_000325_002767_012413_021977_047525_023041,
  1_002822_000001_000001_000001_000011_000015_000047_000065_000219_000271_000197_000297_003195_001325_009991_026385_046055_043151,
  1_002845_000001_000001_000001_000013_000031_000021_000039_000089_000127_000629_000367_002935_006259_006627_015691_055781_097251,
  1_002846_000001_000001_000007_000013_000011_000045_000065_000075_000211_000785_001221_002087_007751_015619_025489_028195_069007,
  1_002850_000001_000003_000005_000015_000027_000037_000075_000111_000487_000219_000233_000583_006433_015105_000355_028331_021105,
  1_002855_000001_000003_000003_000015_000031_000053_000033_000095_000027_000197_001727_001467_007115_015479_026873_031075_012793,
  1_002856_000001_000003_000007_000001_000019_000003_000019_000105_000225_000599_000737_000107_007951_010193_031699_059207_085619,
  1_002867_000001_000003_000001_000003_000007_000017_000073_000191_000247_000421_000537_001473_000189_004219_029993_025491_021189,
  1_002891_000001_000003_000007_000007_000013_000021_000033_000095_000147_000699_000943_002275_004093_006067_009063_025503_111085,
  1_002894_000001_000001_000007_000009_000013_000047_000123_000121_000347_000467_000225_000957_002329_014075_029843_061753_097179,
  1_002902_000001_000003_000003_000007_000017_000055_000037_000167_000215_000819_000163_001747_004485_015991_028011_036351_106495,
  1_002908_000001_000001_000003_000009_000025_000005_000083_000199_000209_000395_001757_001967_005739_002573_013989_032145_004847,
  1_002951_000001_000003_000003_000013_000011_000021_000025_000223_000239_000569_001877_000299_008089_003697_000801_064775_026827,
  1_002970_000001_000003_000005_000007_000017_000009_000127_000009_000065_000919_001073_002661_001337_010065_030099_030929_090067,
  1_002972_000001_000003_000001_000013_000025_000041_000035_000251_000279_000351_000111_003917_002815_007989_009895_054859_126355,
  1_002975_000001_000001_000003_000007_000017_000061_000013_000073_000335_000831_000703_000037_002765_013169_012513_056301_013907,
  1_002976_000001_000001_000005_000013_000011_000015_000033_000045_000505_000127_001723_000017_004927_011453_028859_009671_080041,
  1_002981_000001_000003_000001_000005_000009_000001_000025_000147_000281_000601_000243_002687_005533_006725_011075_034807_024619,
  1_002986_000001_000001_000003_000001_000007_000021_000071_000031_000485_000561_001361_001237_008171_015885_007941_004583_032851,
  1_002999_000001_000003_000007_000001_000005_000035_000095_000155_000283_000959_000577_001343_004269_013481_030819_040273_008711,
  1_003000_000001_000003_000007_000003_000001_000053_000077_000045_000215_000537_001045_000077_002791_003553_013273_023819_062263,
  1_003006_000001_000003_000001_000015_000029_000059_000007_000145_000085_000003_000251_002691_007547_011241_032295_024645_075739,
  1_003014_000001_000001_000005_000009_000019_000009_000039_000163_000303_000233_002039_002027_007169_002773_028649_038317_066761,
  1_003028_000001_000003_000007_000005_000021_000027_000093_000227_000131_001019_001619_001497_004043_001131_025761_020173_099957,
  1_003031_000001_000003_000007_000005_000019_000033_000015_000173_000435_000399_000531_002001_003221_012627_010153_024421_061805,
  1_003035_000001_000003_000001_000009_000011_000003_000069_000105_000289_000183_001103_000831_002297_001613_018801_054395_054243,
  1_003037_000001_000003_000003_000009_000003_000053_000113_000183_000079_000355_001629_001061_003713_004563_014365_043529_056073,
  1_003053_000001_000003_000007_000011_000031_000039_000107_000139_000187_000873_000225_000033_004943_015837_000225_006407_085967,
  1_003059_000001_000003_000001_000011_000017_000047_000093_000233_000119_000699_001429_002845_002061_008887_020665_045497_033107,
  1_003065_000001_000003_000005_000001_000025_000011_000055_000075_000091_001009_001887_003167_000515_015929_011659_057953_063401,
  1_003080_000001_000001_000003_000015_000027_000059_000103_000053_000353_000553_002021_001543_002785_009373_014609_021213_019911,
  1_003091_000001_000003_000007_000009_000003_000001_000101_000133_000437_000773_001399_001067_007419_001793_016589_003483_042065,
  1_003094_000001_000003_000007_000001_000025_000057_000127_000113_000065_000577_001865_001527_006485_011273_015803_039625_075219,
  1_003109_000001_000003_000005_000009_000007_000063_000029_000089_000155_000045_001029_002407_006783_004749_004849_026639_054059,
  1_003110_000001_000003_000007_000009_000025_000013_000113_000041_000267_000767_001071_001689_000269_014437_021255_039473_065771,
  1_003113_000001_000003_000001_000015_000005_000003_000077_000043_000391_000763_000059_001027_006263_003715_031061_043311_130725,
  1_003116_000001_000003_000007_000007_000021_000051_000127_000071_000229_000171_000397_001099_000871_002717_001643_017363_125979,
  1_003136_000001_000001_000005_000015_000025_000011_000011_000113_000203_000795_001703_003901_001113_012819_025345_046691_112313,
  1_003139_000001_000003_000007_000005_000001_000059_000091_000081_000325_000483_000595_001491_007455_006699_000199_035597_059851,
  1_003141_000001_000003_000005_000001_000003_000033_000043_000195_000201_000575_001395_001305_007001_002023_022419_015233_120355,
  1_003154_000001_000001_000003_000003_000015_000037_000081_000059_000087_000675_000199_003231_004473_005023_016753_051475_102113,
  1_003160_000001_000001_000007_000009_000013_000039_000065_000009_000051_000565_001171_000119_007875_012149_006565_056849_123235,
  1_003169_000001_000003_000003_000007_000015_000045_000053_000093_000111_000533_001849_000643_002265_010241_024741_011559_074333,
  1_003182_000001_000003_000001_000001_000011_000061_000075_000051_000005_000199_000535_000279_005821_006005_002907_032521_074121,
  1_003187_000001_000001_000003_000015_000003_000021_000029_000193_000071_000993_001719_001865_006135_007683_012171_029275_014539,
  1_003189_000001_000001_000001_000007_000007_000013_000001_000061_000315_000431_001145_002067_005745_001641_001047_055111_129477,
  1_003190_000001_000001_000005_000001_000021_000043_000115_000193_000153_000573_001181_003947_007809_011317_030649_056891_047741,
  1_003203_000001_000001_000005_000007_000019_000015_000061_000239_000109_000683_000395_002869_003103_001531_012019_045159_037525,
  1_003217_000001_000001_000005_000007_000029_000055_000045_000007_000353_000659_000591_003371_005777_008475_002743_047483_011983,
  1_003229_000001_000003_000001_000003_000013_000017_000039_000195_000043_000005_001749_002559_005843_008719_021421_058511_105637,
  1_003236_000001_000003_000005_000005_000005_000021_000029_000063_000387_000301_000567_003325_002109_000403_023053_024851_014493,
  1_003248_000001_000001_000003_000003_000017_000057_000107_000131_000085_000855_001101_003199_007159_014739_004197_027943_113009,
  1_003257_000001_000001_000003_000011_000001_000061_000031_000079_000033_000123_001509_000507_006679_002279_008465_037279_017553,
  1_003278_000001_000003_000001_000015_000007_000033_000011_000071_000217_000609_001661_003437_005497_013365_006247_000649_026407,
  1_003283_000001_000001_000003_000001_000019_000045_000049_000125_000005_000455_001669_004083_000253_010101_027327_016401_120399,
  1_003289_000001_000003_000001_000001_000027_000019_000117_000137_000261_000341_001697_000457_007553_012169_030049_049281_036937,
  1_003292_000001_000001_000001_000003_000009_000049_000033_000013_000461_000545_001537_002623_000883_010921_005583_058997_114183,
  1_003302_000001_000001_000007_000009_000029_000053_000029_000165_000205_000989_001347_002343_007505_007609_018503_051677_105993,
  1_003316_000001_000001_000001_000013_000001_000029_000059_000121_000297_000659_001965_001765_005255_010971_032613_018763_041983]

def dirRows17_0_4 : List Nat := [
  1_003328_000001_000003_000007_000011_000021_000041_000019_000047_000125_000485_000475_002745_004075_008101_031227_004679_115473,
  1_003333_000001_000003_000003_000007_000021_000023_000055_000065_000223_001001_000317_001459_000183_005139_026553_041471_116373,
  1_003337_000001_000001_000007_000003_000001_000009_000029_000139_000343_000913_001993_003139_003791_005869_006057_023863_035737,
  1_003340_000001_000003_000003_000003_000007_000021_000077_000197_000239_000467_000035_000591_001061_003417_031811_038825_124981,
  1_003368_000001_000003_000003_000001_000021_000029_000005_000213_000417_000111_001681_001409_002899_016233_001053_051235_087767,
  1_003371_000001_000001_000005_000003_000013_000047_000061_000203_000223_000073_001947_003613_005885_013567_007593_034329_068597,
  1_003376_000001_000003_000001_000001_000017_000009_000011_000187_000361_000973_000781_001835_001539_012917_021725_048279_115037,
  1_003385_000001_000003_000001_000001_000009_000025_000117_000157_000433_000395_000403_002183_003327_005427_007505_002673_077137,
  1_003386_000001_000001_000007_000015_000031_000015_000027_000155_000441_000837_001877_003829_005139_016331_031183_015803_095699,
  1_003393_000001_000001_000007_000015_000005_000051_000077_000179_000289_000727_001763_002529_006715_003967_029267_027293_067953,
  1_003399_000001_000003_000007_000013_000007_000003_000003_000017_000311_000547_001465_001413_003937_002725_024523_012321_109763,
  1_003405_000001_000003_000005_000015_000009_000005_000087_000135_000281_000097_002021_001903_008007_010321_027989_018993_110407,
  1_003414_000001_000001_000001_000013_000025_000061_000089_000107_000233_000823_001375_003531_001757_001577_029457_001461_017217,
  1_003433_000001_000001_000001_000013_000017_000017_000027_000193_000485_000759_000145_003943_004183_014119_011217_003793_001935,
  1_003436_000001_000001_000001_000003_000013_000031_000101_000227_000311_000363_001925_001525_005275_002385_015093_048769_121189,
  1_003448_000001_000001_000005_000013_000011_000061_000089_000141_000117_000229_000417_003935_007249_013869_030591_062763_067521,
  1_003467_000001_000001_000003_000015_000007_000059_000105_000239_000453_000221_001101_000395_002031_008941_023155_007077_125593,
  1_003469_000001_000001_000001_000011_000007_000055_000099_000031_000305_000371_001035_000577_004473_000577_000371_046093_069157,
  1_003472_000001_000003_000001_000009_000009_000033_000035_000245_000095_000047_001623_002965_006849_007269_005321_031641_073321,
  1_003477_000001_000001_000001_000015_000021_000061_000065_000065_000159_000151_000625_002281_002993_001311_029757_024703_071029,
  1_003484_000001_000003_000005_000015_000029_000059_000029_000069_000351_000901_000631_003501_007031_000703_020805_036437_094931,
  1_003494_000001_000003_000007_000001_000021_000011_000019_000125_000237_000807_001651_002389_007347_011759_027151_038669_000965,
  1_003505_000001_000001_000005_000001_000015_000041_000001_000105_000089_000127_000895_000029_002339_015951_018633_002781_067269,
  1_003515_000001_000001_000005_000015_000025_000007_000003_000033_000375_000447_000203_002579_006145_014015_009939_052777_123181,
  1_003523_000001_000003_000001_000015_000029_000007_000007_000027_000451_000869_000107_002457_005557_011601_028957_036181_041419,
  1_003530_000001_000001_000001_000007_000001_000057_000033_000213_000329_000763_000815_000169_000623_000155_020529_020603_073311,
  1_003543_000001_000003_000005_000007_000025_000021_000007_000217_000159_000089_001373_001735_000705_004093_013083_003855_055875,
  1_003559_000001_000003_000001_000001_000029_000033_000105_000127_000095_000543_000235_000067_000691_005015_022139_018251_089945,
  1_003568_000001_000001_000003_000011_000027_000053_000105_000083_000337_000331_001571_001145_000745_001845_017881_017697_088139,
  1_003577_000001_000003_000007_000015_000019_000037_000119_000035_000035_000463_001925_001665_000673_012193_012137_062371_010957,
  1_003578_000001_000003_000003_000003_000019_000021_000113_000029_000459_000467_000623_002661_000857_016265_027509_046555_018867,
  1_003594_000001_000003_000007_000005_000017_000049_000123_000041_000085_000673_000041_001871_007649_008687_028269_064423_093675,
  1_003601_000001_000003_000003_000003_000007_000023_000101_000171_000181_000527_000065_002387_006629_006089_017387_046551_036143,
  1_003607_000001_000001_000005_000001_000013_000051_000021_000251_000139_000429_001993_003767_001089_005459_019407_041747_041033,
  1_003608_000001_000001_000001_000011_000015_000009_000081_000091_000073_000969_001513_002067_007959_002605_026641_037631_124571,
  1_003620_000001_000001_000003_000015_000029_000015_000005_000057_000247_000901_000527_003325_005859_011299_009871_063947_125247,
  1_003629_000001_000003_000001_000005_000001_000035_000075_000021_000307_000043_001111_003299_001647_003585_031045_018217_095169,
  1_003644_000001_000003_000001_000007_000023_000035_000011_000103_000003_000461_001915_004019_000453_013111_026941_043091_022917,
  1_003656_000001_000001_000005_000005_000001_000061_000121_000167_000475_000005_001749_000887_002237_005055_007077_029453_017691,
  1_003664_000001_000003_000003_000015_000015_000015_000009_000015_000171_000787_001965_000577_004507_007325_020901_008557_111909,
  1_003670_000001_000003_000005_000001_000027_000015_000123_000141_000063_000055_000599_004095_001245_013919_027485_049977_074551,
  1_003680_000001_000003_000005_000009_000021_000061_000079_000119_000007_000573_001923_002775_003127_012689_012135_053429_130163,
  1_003685_000001_000003_000003_000013_000027_000041_000067_000249_000447_000277_000311_000775_008187_010161_012953_022885_121247,
  1_003686_000001_000003_000005_000009_000021_000055_000115_000065_000045_000395_000481_002063_006493_004199_019219_027119_062255,
  1_003695_000001_000001_000003_000013_000007_000041_000003_000127_000383_000923_001725_001033_007731_011971_003089_046459_098369,
  1_003698_000001_000001_000003_000011_000013_000039_000039_000149_000309_000311_001491_000807_002109_000363_014637_065429_124731,
  1_003703_000001_000001_000007_000013_000013_000035_000067_000081_000493_000859_001177_000237_004605_015319_016669_016661_021385,
  1_003710_000001_000001_000003_000007_000007_000039_000057_000103_000239_000753_000221_001611_001557_013317_027453_010245_033839,
  1_003714_000001_000001_000005_000013_000027_000053_000097_000041_000123_000253_000535_001839_005827_007587_001261_020313_065961,
  1_003726_000001_000001_000007_000001_000011_000047_000093_000135_000223_000591_001087_003329_003293_014207_006187_054789_023781,
  1_003731_000001_000003_000007_000007_000025_000021_000097_000105_000269_000515_001805_003711_003295_007307_021065_065205_116969,
  1_003733_000001_000003_000001_000011_000025_000037_000021_000089_000109_000581_001055_002393_001291_001115_025545_036383_093605,
  1_003737_000001_000003_000007_000001_000027_000013_000113_000011_000395_000473_000943_004045_005507_015051_025203_002971_031961,
  1_003756_000001_000001_000005_000005_000027_000035_000057_000219_000067_000949_000659_000203_005235_006509_013731_061533_054963,
  1_003759_000001_000003_000001_000001_000015_000039_000085_000013_000347_000099_000025_003595_003081_013617_014373_058909_102181,
  1_003767_000001_000001_000007_000013_000003_000025_000097_000091_000287_000389_000665_002981_002301_012625_004495_057489_068677,
  1_003776_000001_000001_000005_000001_000015_000057_000077_000055_000299_000713_001457_003699_002807_005549_000467_047367_008163,
  1_003785_000001_000001_000007_000003_000023_000045_000091_000251_000501_000193_001121_002359_004781_012797_013713_055171_000927,
  1_003793_000001_000003_000003_000007_000007_000031_000087_000163_000249_000163_000937_001293_004827_010299_031935_058787_080589,
  1_003812_000001_000003_000001_000009_000007_000001_000073_000065_000475_000791_001429_003319_007149_000433_010373_044061_121195,
  1_003815_000001_000001_000005_000009_000009_000061_000027_000249_000435_000437_001329_002163_005859_013663_000623_055569_094283,
  1_003824_000001_000003_000007_000011_000001_000029_000117_000195_000399_000999_001705_001325_006043_009823_027335_030377_016627,
  1_003844_000001_000001_000001_000015_000005_000011_000063_000185_000015_000741_001061_002961_003455_000005_026587_054081_018107,
  1_003859_000001_000001_000005_000007_000029_000057_000017_000203_000501_000177_000049_002773_008069_012513_014437_064489_058661,
  1_003866_000001_000003_000003_000009_000011_000023_000121_000003_000415_000447_001773_000135_005901_004951_002683_000437_126251,
  1_003872_000001_000003_000003_000001_000007_000023_000017_000023_000115_000591_001075_003133_000049_015183_010615_037857_122609,
  1_003884_000001_000001_000003_000003_000013_000049_000063_000037_000275_000763_001135_002913_001563_011037_006693_018799_032089,
  1_003889_000001_000003_000005_000011_000007_000029_000059_000045_000227_000941_001947_002733_000797_010485_007071_014741_011451,
  1_003899_000001_000001_000001_000009_000021_000019_000077_000097_000075_000991_000187_001003_005619_011013_003931_019907_079723,
  1_003902_000001_000001_000007_000013_000001_000057_000061_000177_000443_000227_001347_002665_002011_012329_014137_037795_063331,
  1_003909_000001_000003_000003_000009_000031_000059_000087_000093_000485_000635_000901_001845_006153_010797_001289_008989_041717,
  1_003913_000001_000001_000001_000001_000003_000007_000085_000017_000067_000309_001891_000435_000303_008011_032127_054309_021457,
  1_003933_000001_000003_000007_000001_000029_000027_000041_000239_000293_000717_001331_000917_006145_007131_028199_035093_103683,
  1_003938_000001_000003_000007_000003_000021_000063_000065_000233_000257_000789_001095_000505_004557_016259_007397_024815_089529,
  1_003949_000001_000003_000003_000011_000029_000041_000055_000017_000335_000715_000779_002121_006393_008887_032753_045647_082665,
  1_003952_000001_000001_000001_000011_000027_000047_000071_000013_000141_000283_000967_003359_004309_006661_020481_023175_050835,
  1_003980_000001_000003_000003_000007_000003_000025_000019_000241_000409_000573_001565_003355_001307_012205_018017_008271_117007,
  1_003991_000001_000003_000003_000009_000021_000039_000021_000253_000439_000963_000341_003637_002275_001845_011015_000481_083369,
  1_003992_000001_000003_000007_000009_000031_000029_000029_000163_000111_000983_000571_000713_002621_011569_013341_028341_130381,
  1_004002_000001_000003_000007_000007_000011_000035_000089_000049_000081_000115_000113_001857_003527_014819_006909_014659_023557,
  1_004008_000001_000003_000003_000015_000029_000041_000085_000241_000317_000737_000213_001667_005789_016321_013991_036165_124151,
  1_004011_000001_000003_000001_000003_000031_000001_000075_000099_000495_000241_001499_001535_002033_002135_006699_058893_037031,
  1_004016_000001_000001_000007_000009_000025_000015_000101_000023_000477_000563_001691_002655_002321_002323_004255_022055_099661,
  1_004034_000001_000003_000007_000005_000007_000007_000049_000221_000051_000083_000279_002205_002939_002119_014073_032839_108075,
  1_004036_000001_000003_000005_000011_000017_000039_000003_000127_000087_000501_000799_000401_004439_009895_013017_064975_067177,
  1_004063_000001_000003_000003_000009_000017_000041_000059_000095_000283_000309_000083_001293_006385_005783_030115_033997_012531,
  1_004067_000001_000003_000005_000003_000007_000031_000069_000171_000225_000409_001237_003343_000835_008039_016723_037203_129047,
  1_004073_000001_000003_000003_000015_000017_000023_000107_000001_000105_000135_001245_000993_004101_007325_007425_017379_098121,
  1_004082_000001_000001_000007_000009_000027_000005_000067_000111_000075_000531_000243_002239_002527_004513_027059_040533_088169,
  1_004091_000001_000003_000005_000007_000021_000063_000057_000015_000075_000679_001729_001845_006259_008531_018691_049321_101599,
  1_004093_000001_000001_000005_000009_000003_000035_000007_000201_000351_000885_000669_002339_005009_000279_026469_054597_067933,
  1_004101_000001_000003_000005_000013_000027_000005_000085_000161_000141_000733_001017_002021_006951_015595_021817_017243_088607,
  1_004113_000001_000003_000005_000001_000011_000031_000117_000097_000175_000629_000995_001207_002941_005825_005319_048191_009505,
  1_004120_000001_000003_000003_000007_000025_000039_000045_000079_000021_000607_001593_001749_007951_010425_017491_016617_056903,
  1_004125_000001_000001_000001_000005_000015_000041_000107_000115_000079_000693_000919_003513_006793_006541_005545_058583_027963,
  1_004126_000001_000003_000007_000011_000021_000019_000123_000001_000441_000531_000359_002117_002465_011389_013489_032755_004577,
  1_004139_000001_000001_000005_000013_000007_000007_000007_000127_000201_000377_001423_000269_002611_003339_019153_025659_033069,
  1_004142_000001_000003_000007_000001_000013_000035_000045_000005_000313_000739_001779_002983_001815_008817_014239_003921_057975,
  1_004144_000001_000003_000001_000011_000009_000039_000033_000111_000039_000255_000159_002345_002193_011475_012841_047579_090309,
  1_004147_000001_000001_000001_000003_000027_000049_000085_000157_000243_000247_001473_000323_004631_001787_015193_005533_104999]

def dirRows17_0_5 : List Nat := [
  1_004153_000001_000001_000007_000009_000011_000029_000023_000219_000057_000339_001797_000409_006025_010569_027409_015147_130281,
  1_004154_000001_000001_000007_000001_000031_000031_000113_000229_000063_000877_000319_002655_003335_007743_019593_010089_028215,
  1_004164_000001_000001_000003_000011_000023_000003_000071_000235_000329_000751_000159_002579_005363_012681_020233_053855_016407,
  1_004174_000001_000001_000005_000001_000007_000061_000021_000235_000379_000849_000061_002969_006399_002655_021635_016955_058675,
  1_004182_000001_000003_000007_000007_000029_000015_000005_000011_000143_000699_001875_002115_006633_006195_005829_053633_111221,
  1_004185_000001_000003_000007_000011_000019_000041_000017_000219_000483_000829_001233_003183_006283_002363_025245_063075_082733,
  1_004188_000001_000003_000007_000013_000021_000017_000001_000207_000443_000575_000521_002585_006875_014871_014739_010211_127435,
  1_004191_000001_000003_000007_000007_000015_000039_000099_000197_000219_000259_001723_003737_006625_000849_000887_041293_053825,
  1_004195_000001_000003_000003_000003_000005_000003_000075_000155_000189_000935_000085_002273_001375_004217_010709_058047_081689,
  1_004219_000001_000003_000005_000005_000027_000027_000107_000229_000179_000887_000091_000421_007313_006495_000451_043859_040033,
  1_004225_000001_000003_000005_000011_000025_000049_000121_000073_000169_000311_001387_001037_006519_009317_026975_050627_046805,
  1_004228_000001_000001_000005_000011_000017_000021_000019_000125_000387_000697_001017_001759_007295_009869_028241_009367_119255,
  1_004232_000001_000001_000007_000005_000029_000027_000087_000187_000095_000625_000933_001751_005253_000313_030841_016349_067347,
  1_004246_000001_000001_000003_000003_000015_000051_000023_000101_000183_000267_000243_000711_000983_012461_017801_001429_047273,
  1_004255_000001_000001_000001_000003_000017_000003_000073_000067_000049_000449_000879_002559_000401_011983_013697_012023_078855,
  1_004274_000001_000003_000007_000015_000025_000025_000043_000081_000141_000161_000595_000621_001165_010869_022875_006741_090017,
  1_004283_000001_000003_000005_000011_000013_000057_000053_000219_000145_000937_000769_001961_004725_003335_012623_008335_046305,
  1_004286_000001_000001_000003_000005_000007_000039_000019_000101_000313_000583_000483_002515_000125_005211_002559_011937_126717,
  1_004306_000001_000003_000001_000007_000007_000001_000117_000049_000231_000133_000381_000697_000927_008263_026529_064881_025059,
  1_004311_000001_000001_000001_000015_000011_000025_000077_000149_000233_000215_001239_003045_000099_011183_030279_032271_100943,
  1_004317_000001_000001_000005_000007_000031_000025_000001_000051_000221_000607_001733_002145_006765_007011_016927_029257_002445,
  1_004321_000001_000003_000005_000001_000019_000023_000123_000093_000381_000295_000765_002335_008025_014003_004801_054243_057297,
  1_004324_000001_000001_000007_000009_000009_000031_000063_000191_000495_000527_000251_002119_001663_000209_007445_001441_004075,
  1_004331_000001_000003_000005_000005_000013_000017_000097_000079_000369_000055_000677_002031_007315_004769_031659_021975_022061,
  1_004333_000001_000003_000003_000007_000003_000063_000121_000243_000039_000917_001917_000297_007241_001565_031675_014443_067239,
  1_004359_000001_000003_000007_000001_000013_000025_000051_000065_000145_000475_001853_004023_005121_014411_015993_042165_013615,
  1_004360_000001_000003_000003_000001_000003_000051_000075_000029_000169_000311_001309_002929_007669_001507_014605_032667_103861,
  1_004368_000001_000003_000007_000001_000023_000037_000089_000211_000137_000495_001469_003425_001167_012429_027301_046857_083007,
  1_004373_000001_000003_000007_000007_000027_000037_000033_000129_000073_000023_000761_000119_006217_004749_020835_047477_033665,
  1_004389_000001_000001_000003_000005_000029_000035_000079_000021_000183_000933_000043_003149_005273_012159_020695_005387_023569,
  1_004394_000001_000001_000005_000005_000003_000011_000057_000205_000349_000657_001509_003693_005495_011865_013861_062215_094141,
  1_004413_000001_000003_000001_000007_000017_000043_000117_000119_000075_000849_001247_000643_002691_002289_009759_018683_068649,
  1_004422_000001_000001_000001_000015_000005_000055_000089_000177_000427_000701_000735_002993_005293_015395_000567_005501_102393,
  1_004431_000001_000003_000003_000015_000005_000037_000073_000111_000009_000141_000407_001579_006691_011843_006377_064181_097347,
  1_004436_000001_000001_000005_000001_000009_000017_000071_000127_000285_000929_001243_002605_000359_014589_032603_039879_115901,
  1_004440_000001_000003_000007_000015_000003_000027_000091_000121_000047_000631_001589_000385_005997_014077_021285_033895_036985,
  1_004445_000001_000003_000003_000009_000001_000047_000089_000079_000213_000027_000547_001703_004035_013205_004341_021895_034247,
  1_004452_000001_000003_000005_000007_000009_000009_000047_000089_000231_000857_000297_002949_002715_001275_014427_020227_021569,
  1_004462_000001_000003_000001_000003_000015_000057_000061_000183_000377_000477_001135_001729_002863_008607_029241_034983_084443,
  1_004469_000001_000001_000007_000007_000005_000053_000091_000149_000071_000041_001025_003945_003989_015853_020903_026943_099841,
  1_004470_000001_000003_000003_000003_000029_000021_000059_000217_000483_000257_000331_000657_002935_000945_009821_042501_098087,
  1_004473_000001_000003_000005_000003_000017_000039_000123_000103_000109_000957_000853_003821_000555_010869_027673_038315_083105,
  1_004479_000001_000003_000001_000003_000027_000007_000097_000057_000429_000053_001791_001405_004113_008435_012845_021567_091559,
  1_004480_000001_000003_000003_000001_000017_000061_000125_000077_000225_000395_000945_003213_001363_015947_027049_004389_064037,
  1_004483_000001_000001_000001_000003_000015_000051_000015_000189_000449_000989_000939_000985_006929_013779_025011_022277_072543,
  1_004489_000001_000003_000003_000001_000025_000053_000005_000219_000195_000703_000163_001405_000821_006797_014329_001675_096653,
  1_004503_000001_000001_000007_000013_000007_000001_000045_000135_000369_000125_000711_002509_000131_013663_029769_019497_116779,
  1_004519_000001_000001_000007_000015_000023_000025_000007_000225_000435_000835_001981_002537_005727_015961_030089_058905_100339,
  1_004520_000001_000003_000007_000003_000019_000009_000079_000063_000371_000419_001357_003649_007987_014541_006631_050555_084217,
  1_004525_000001_000003_000003_000009_000007_000061_000011_000157_000099_000095_000945_002803_001703_000117_012891_021817_084259,
  1_004526_000001_000003_000007_000007_000025_000037_000111_000099_000065_000599_001313_002557_005489_003625_007429_019309_078111,
  1_004533_000001_000003_000001_000001_000019_000015_000085_000253_000347_000315_001349_000983_002507_004155_015311_043535_101409,
  1_004552_000001_000003_000003_000003_000001_000055_000003_000057_000375_000107_000177_001673_006871_007137_010297_065363_042293,
  1_004581_000001_000001_000001_000003_000009_000005_000083_000045_000139_000893_000063_002859_006333_015591_018491_026387_025573,
  1_004585_000001_000001_000007_000015_000001_000039_000113_000127_000503_000617_001367_001855_000185_004233_005787_008265_042097,
  1_004591_000001_000001_000003_000011_000011_000041_000119_000165_000331_000625_000081_002495_007247_009139_015269_031447_128425,
  1_004594_000001_000001_000005_000005_000017_000035_000039_000001_000091_000563_001841_002975_001233_003837_022145_036719_104503,
  1_004596_000001_000001_000007_000003_000023_000035_000077_000069_000271_000487_000921_002597_008011_013037_006001_020519_032673,
  1_004599_000001_000001_000001_000001_000029_000017_000011_000145_000473_000877_000813_000727_006805_003563_013371_022169_017239,
  1_004612_000001_000001_000001_000013_000017_000013_000001_000125_000313_000423_001079_002401_002325_002219_024071_025613_034163,
  1_004621_000001_000001_000005_000007_000029_000033_000053_000215_000011_000555_000555_001965_003643_005433_012923_059655_025339,
  1_004630_000001_000003_000003_000003_000023_000037_000119_000117_000459_000359_001849_001019_000433_015391_005625_052649_081313,
  1_004636_000001_000003_000003_000001_000021_000031_000121_000161_000113_000667_000863_000105_003805_014459_028235_024543_089755,
  1_004640_000001_000001_000005_000015_000017_000037_000015_000111_000511_000477_000611_000955_002591_016137_014179_030995_129575,
  1_004649_000001_000003_000003_000003_000021_000049_000025_000037_000287_000263_000851_001015_008133_009429_010959_064483_082533,
  1_004650_000001_000001_000005_000001_000025_000019_000049_000159_000155_000443_000975_001413_000321_007871_022935_057303_124027,
  1_004660_000001_000003_000001_000001_000019_000045_000047_000089_000409_000509_001249_002445_002053_003781_007517_061869_125137,
  1_004677_000001_000001_000005_000013_000027_000057_000045_000043_000361_000329_001321_000771_004665_012245_018993_015121_127485,
  1_004687_000001_000003_000003_000007_000003_000041_000127_000075_000485_000821_000497_002649_006423_012419_031421_009441_063645,
  1_004696_000001_000001_000003_000005_000019_000061_000091_000035_000311_000287_000449_003955_005805_005631_025613_055409_104545,
  1_004701_000001_000003_000007_000011_000027_000019_000027_000053_000019_000035_001687_003923_003379_010435_015053_012343_089077,
  1_004705_000001_000003_000005_000013_000031_000041_000015_000239_000349_000533_001771_000737_006503_014355_018781_027805_079049,
  1_004706_000001_000003_000001_000003_000013_000011_000069_000227_000169_000873_000533_002217_001047_012415_012271_022447_014163,
  1_004711_000001_000001_000003_000009_000007_000031_000023_000155_000133_000305_001569_000521_000201_010339_016999_029163_032817,
  1_004720_000001_000001_000001_000005_000031_000057_000043_000223_000121_000803_000357_001855_004321_010245_025725_002543_047395,
  1_004723_000001_000003_000005_000009_000003_000005_000047_000189_000217_000899_001455_000691_001277_007861_003627_014895_041109,
  1_004732_000001_000003_000007_000003_000029_000009_000037_000063_000453_000709_000921_000771_008069_000239_022639_059937_010635,
  1_004736_000001_000003_000007_000001_000011_000051_000079_000131_000225_000757_000549_001605_003921_001849_016307_029809_120597,
  1_004742_000001_000003_000007_000007_000001_000045_000033_000185_000023_000881_001941_004093_004741_011633_002059_032007_011103,
  1_004748_000001_000003_000005_000011_000017_000021_000043_000205_000363_000559_000697_004057_000631_006697_000883_061705_102791,
  1_004754_000001_000001_000007_000009_000029_000035_000109_000085_000373_000321_000415_002969_006163_006999_009999_036435_125267,
  1_004759_000001_000001_000007_000011_000025_000009_000113_000091_000337_000889_000947_002093_005289_001367_013297_036155_021825,
  1_004769_000001_000001_000003_000009_000017_000025_000035_000079_000275_000687_000335_001181_007327_003729_001561_027441_114355,
  1_004787_000001_000003_000003_000011_000025_000041_000027_000089_000115_000361_000871_001497_005735_006365_001737_014277_063847,
  1_004807_000001_000003_000007_000007_000001_000063_000031_000073_000289_000067_000277_001821_004883_010795_011755_015471_105871,
  1_004814_000001_000003_000007_000009_000023_000017_000037_000179_000409_000957_000373_002393_002363_006735_028737_041927_115735,
  1_004837_000001_000001_000003_000009_000015_000043_000111_000061_000455_000181_001643_003063_004311_013705_029993_021731_025243,
  1_004867_000001_000001_000001_000015_000013_000013_000069_000187_000091_000395_000209_003477_004649_007727_030557_014719_001953,
  1_004873_000001_000001_000001_000015_000009_000039_000119_000193_000459_000135_000567_000025_004583_008401_022161_014771_074165,
  1_004879_000001_000001_000003_000007_000005_000039_000077_000149_000293_000585_001245_003615_000357_011613_013865_040227_041023,
  1_004884_000001_000001_000007_000009_000009_000037_000005_000177_000121_000181_000771_000733_007683_004855_013629_008349_046137,
  1_004898_000001_000001_000003_000013_000003_000037_000073_000069_000281_000109_000563_001427_005127_008957_016749_041489_049531,
  1_004907_000001_000001_000007_000011_000029_000063_000079_000127_000095_000809_001175_001567_006353_007505_026551_005073_053733,
  1_004910_000001_000001_000001_000005_000025_000041_000059_000103_000059_000365_001111_003909_003749_014889_003639_010435_045407,
  1_004918_000001_000001_000001_000005_000003_000061_000093_000199_000097_000779_000067_000241_006197_006785_016869_007573_046745,
  1_004924_000001_000001_000005_000009_000027_000029_000021_000069_000165_000661_001245_001265_002979_009685_017781_023329_048029,
  1_004953_000001_000001_000001_000007_000007_000023_000039_000197_000169_000561_000499_002197_004371_000157_006837_044635_094861,
  1_004956_000001_000001_000005_000013_000007_000005_000009_000207_000321_000243_000899_002967_003553_015413_008961_055039_006459,
  1_004965_000001_000003_000005_000003_000013_000025_000033_000145_000045_000979_000033_002211_007003_011147_011327_055151_030697,
  1_004966_000001_000001_000003_000013_000007_000051_000025_000229_000231_000115_001815_003867_001533_015259_008067_064803_087535]

def dirRows17_0_6 : List Nat := [
  1_004970_000001_000001_000003_000003_000021_000051_000101_000049_000227_000393_001659_000955_000545_007395_031563_005499_130541,
  1_004972_000001_000003_000001_000001_000021_000041_000057_000161_000269_000035_000893_001817_000857_007027_000973_012529_046659,
  1_004983_000001_000001_000003_000007_000017_000035_000023_000029_000335_000725_000453_001051_006019_007595_029451_001853_116615,
  1_004989_000001_000003_000003_000001_000003_000055_000073_000187_000213_000329_000997_000703_005829_007903_001081_033359_119123,
  1_004994_000001_000003_000003_000015_000029_000055_000015_000017_000245_000117_001735_000767_004457_008803_017621_026925_072487,
  1_005000_000001_000003_000005_000003_000025_000007_000119_000139_000159_000199_000317_003875_008115_007581_029239_050225_048459,
  1_005005_000001_000003_000007_000011_000011_000041_000107_000225_000395_000545_000259_002379_006709_011669_014545_043663_069979,
  1_005014_000001_000003_000005_000013_000023_000045_000073_000137_000447_000305_000117_002659_007989_000233_031991_060495_000571,
  1_005018_000001_000003_000007_000009_000001_000037_000031_000001_000433_000701_000159_003811_004529_006697_007121_031107_061555,
  1_005023_000001_000003_000005_000005_000013_000021_000081_000063_000095_000741_001189_001567_001223_012371_028435_010537_053785,
  1_005039_000001_000001_000001_000011_000017_000031_000067_000121_000281_000593_000561_001759_000387_009639_028595_022473_004935,
  1_005053_000001_000003_000007_000003_000005_000043_000059_000151_000351_000263_000297_000423_001681_003785_015171_007145_057531,
  1_005054_000001_000003_000007_000015_000009_000035_000105_000189_000261_000175_001669_001289_005401_012801_019585_048169_093195,
  1_005061_000001_000001_000007_000001_000031_000041_000023_000237_000151_000549_001079_002933_005509_015593_001791_015757_044607,
  1_005065_000001_000001_000001_000003_000029_000001_000059_000115_000013_000999_001179_003561_002749_010059_012861_006797_011793,
  1_005080_000001_000003_000003_000007_000011_000005_000023_000217_000101_000775_001497_004047_002427_005117_009683_028895_027557,
  1_005083_000001_000003_000007_000005_000031_000055_000099_000065_000055_000587_001271_002277_007947_012995_013149_004463_037625,
  1_005107_000001_000001_000007_000011_000003_000063_000023_000191_000125_000365_001153_002657_006763_004557_021643_026885_036753,
  1_005119_000001_000001_000001_000015_000025_000015_000111_000135_000507_000745_001947_002545_004329_014325_008187_052021_063401,
  1_005146_000001_000001_000003_000003_000027_000025_000019_000211_000393_000467_001015_002495_007135_000495_010385_026961_049325,
  1_005151_000001_000001_000003_000005_000015_000035_000003_000203_000337_000337_000703_001989_006869_006055_021095_004749_125669,
  1_005152_000001_000001_000005_000001_000031_000039_000057_000101_000419_000717_001489_000199_005729_003003_002607_064593_011515,
  1_005155_000001_000003_000007_000013_000015_000003_000033_000061_000017_000433_001097_000957_005351_003043_003679_044881_126909,
  1_005169_000001_000001_000003_000011_000005_000001_000121_000175_000119_000367_000399_002527_002157_002667_031069_024797_119621,
  1_005170_000001_000003_000001_000007_000027_000047_000115_000229_000455_000775_000073_000837_001181_003457_004057_033907_067151,
  1_005176_000001_000003_000003_000001_000007_000051_000071_000177_000463_000921_000393_003137_001225_005709_000303_020597_077581,
  1_005179_000001_000003_000005_000003_000031_000001_000093_000053_000177_000433_001471_002191_004471_009211_019397_057727_060367,
  1_005182_000001_000001_000003_000011_000029_000055_000121_000089_000067_000869_001631_002657_007357_007159_022449_016357_020077,
  1_005189_000001_000003_000007_000015_000011_000039_000127_000063_000211_000359_000971_001221_001909_009963_007827_060923_098495,
  1_005193_000001_000001_000007_000009_000023_000047_000047_000085_000307_000471_001287_003825_005451_015151_015647_063043_092443,
  1_005196_000001_000003_000007_000005_000019_000011_000011_000027_000307_000695_000099_001037_001997_013673_000591_008183_082197,
  1_005204_000001_000003_000005_000005_000003_000053_000109_000227_000503_000855_001269_003903_005049_010647_021751_058707_078311,
  1_005207_000001_000001_000003_000011_000031_000003_000051_000211_000285_000919_000487_003393_003463_002271_008053_056791_033763,
  1_005211_000001_000003_000003_000005_000021_000015_000005_000005_000327_000809_000915_001365_007323_004247_031603_026261_080389,
  1_005220_000001_000003_000007_000007_000015_000033_000031_000221_000291_000815_001307_000929_003249_014573_013613_059509_059741,
  1_005258_000001_000003_000007_000015_000019_000041_000061_000027_000353_000965_001901_000087_002669_012757_029723_047165_016521,
  1_005265_000001_000003_000005_000003_000011_000043_000097_000215_000361_000901_001425_004063_005327_014119_000457_043145_107401,
  1_005271_000001_000001_000003_000015_000019_000037_000101_000069_000131_000927_000897_000477_007641_004299_021213_026017_123801,
  1_005277_000001_000003_000007_000007_000019_000005_000011_000051_000277_000985_001071_003437_006595_009547_011855_064249_030957,
  1_005278_000001_000001_000007_000009_000021_000041_000089_000113_000061_000235_000685_001419_007619_009863_021221_028685_053409,
  1_005282_000001_000001_000001_000001_000027_000001_000019_000003_000473_000827_000269_001659_002621_012347_013359_064687_099293,
  1_005296_000001_000003_000007_000007_000029_000037_000061_000049_000215_000883_000625_002671_003743_004517_002075_064865_058611,
  1_005299_000001_000003_000003_000007_000015_000011_000035_000037_000255_000781_000613_003587_007643_013081_032467_014427_015235,
  1_005319_000001_000001_000001_000011_000031_000047_000107_000065_000489_000377_000425_003453_002901_009999_007687_013311_103947,
  1_005328_000001_000003_000003_000007_000009_000017_000007_000107_000033_000545_000407_003335_007563_014315_032725_008483_069093,
  1_005343_000001_000001_000001_000005_000017_000009_000087_000229_000417_000769_000423_000569_007073_008705_024487_063743_069807,
  1_005353_000001_000003_000001_000009_000001_000029_000075_000025_000483_000259_001941_001533_008147_014127_024087_037475_130961,
  1_005364_000001_000003_000003_000011_000015_000015_000051_000045_000215_000283_001687_000185_004521_012205_013041_033283_077007,
  1_005368_000001_000001_000003_000003_000005_000047_000107_000067_000325_000087_001831_002845_001645_001741_010811_008983_058515,
  1_005379_000001_000003_000001_000013_000019_000017_000001_000151_000411_000915_001739_003781_004939_015767_025897_007205_017285,
  1_005381_000001_000003_000005_000015_000019_000001_000125_000033_000321_000325_000639_004013_000967_004347_019743_013445_061229,
  1_005399_000001_000003_000003_000013_000013_000037_000071_000085_000051_000775_000973_000739_004341_015707_012221_024321_048073,
  1_005415_000001_000001_000007_000013_000015_000013_000009_000211_000331_000429_001323_003027_001091_013311_000289_057789_093261,
  1_005422_000001_000001_000001_000001_000027_000007_000013_000027_000067_000573_000455_002353_000113_011831_009069_004503_089291,
  1_005441_000001_000001_000001_000007_000021_000063_000047_000039_000419_000991_001623_000011_003153_012633_009425_065087_044935,
  1_005451_000001_000003_000001_000007_000023_000011_000015_000011_000099_000543_001739_003955_005883_012469_007529_014177_001945,
  1_005456_000001_000003_000001_000003_000005_000017_000031_000251_000387_000311_000725_003827_006835_005065_003141_043441_087955,
  1_005462_000001_000001_000001_000011_000025_000007_000075_000135_000067_000589_000889_003429_000155_009081_028653_008059_057251,
  1_005490_000001_000003_000005_000015_000021_000015_000103_000149_000311_000407_001391_000717_001765_014887_014381_037483_029587,
  1_005495_000001_000003_000005_000005_000019_000031_000093_000005_000507_000193_001735_003841_007895_009853_010317_014867_049529,
  1_005501_000001_000003_000007_000007_000019_000003_000099_000201_000479_000313_000693_003435_005453_001157_023127_049005_020167,
  1_005502_000001_000003_000007_000009_000015_000021_000123_000041_000019_000281_001837_002589_001003_001993_018345_010039_089325,
  1_005505_000001_000003_000005_000001_000019_000021_000077_000151_000145_000951_002017_000609_005847_004475_012439_006357_108277,
  1_005512_000001_000001_000001_000009_000017_000021_000091_000091_000111_000951_000497_001759_000503_012787_025117_024323_096447,
  1_005523_000001_000001_000003_000011_000013_000009_000073_000205_000329_000243_001187_000829_002821_005563_014391_000771_116441,
  1_005529_000001_000001_000001_000001_000011_000057_000039_000221_000041_000521_001541_003515_002367_004179_021039_052943_011627,
  1_005548_000001_000003_000003_000003_000023_000013_000103_000125_000067_000217_000863_003755_000213_012657_031399_003771_054107,
  1_005551_000001_000003_000003_000007_000003_000009_000107_000217_000497_000935_000519_003041_000323_014895_005695_028789_036085,
  1_005553_000001_000001_000005_000011_000023_000033_000081_000023_000167_000003_001683_002279_005365_000847_014717_009689_064481,
  1_005565_000001_000003_000001_000007_000001_000015_000107_000093_000429_000363_001745_001459_005879_008351_017527_044001_070293,
  1_005568_000001_000003_000003_000009_000027_000055_000125_000211_000141_000827_001239_000663_004803_011067_032039_028091_056421,
  1_005577_000001_000003_000005_000005_000007_000013_000125_000231_000427_000483_000967_000549_003105_013919_003017_039207_023253,
  1_005578_000001_000003_000007_000003_000021_000029_000079_000067_000039_000451_000157_000337_003585_003621_009545_031205_063201,
  1_005583_000001_000003_000001_000001_000029_000025_000077_000057_000167_000899_000095_002487_003743_005381_003637_056289_039453,
  1_005585_000001_000001_000001_000009_000029_000019_000041_000097_000075_000199_001709_000483_004099_003113_010953_020659_109273,
  1_005588_000001_000003_000005_000015_000013_000009_000083_000043_000111_000789_000965_004061_001239_014577_010113_026359_052609,
  1_005613_000001_000003_000005_000005_000011_000039_000113_000031_000457_000119_000725_000831_004143_005675_027431_012431_094977,
  1_005614_000001_000001_000003_000003_000025_000017_000093_000253_000307_000625_000143_001061_004415_003563_003313_053527_029537,
  1_005616_000001_000003_000005_000003_000029_000041_000043_000109_000147_000919_001675_000465_006101_012251_028915_015397_085233,
  1_005622_000001_000001_000001_000001_000031_000025_000059_000187_000439_000561_000559_000413_001917_009319_027475_049715_032953,
  1_005631_000001_000001_000007_000013_000023_000031_000095_000231_000141_000207_001373_002173_002905_000169_023825_055071_006147,
  1_005637_000001_000001_000007_000013_000015_000039_000043_000117_000321_000297_000661_002941_007359_011675_015483_024093_007269,
  1_005638_000001_000003_000003_000013_000009_000059_000051_000049_000081_000563_000745_001843_000295_004689_019847_042137_063197,
  1_005668_000001_000003_000001_000009_000005_000033_000021_000199_000509_000927_001777_001349_003593_001065_024943_055667_073539,
  1_005675_000001_000003_000001_000011_000017_000015_000091_000021_000059_000587_001207_000543_006669_010861_024755_001789_091249,
  1_005683_000001_000003_000007_000015_000013_000047_000057_000147_000381_001021_000921_001347_003847_005969_009075_039081_127241,
  1_005695_000001_000003_000003_000015_000019_000015_000001_000097_000203_000409_001745_001217_002199_007945_024361_041771_123127,
  1_005703_000001_000003_000003_000005_000017_000017_000043_000255_000179_000717_001993_000645_006527_001533_032719_027481_122425,
  1_005710_000001_000003_000005_000009_000013_000059_000015_000157_000373_000937_000027_003325_002297_000089_010861_048615_016083,
  1_005715_000001_000003_000001_000003_000019_000027_000109_000243_000189_000017_000099_001879_000695_011329_012467_006053_041749,
  1_005727_000001_000001_000005_000005_000023_000041_000103_000069_000171_000917_001303_002101_000617_010017_026525_011009_066137,
  1_005738_000001_000001_000001_000009_000021_000045_000047_000171_000455_000257_000411_004021_006995_012881_004793_051193_060775,
  1_005752_000001_000003_000007_000005_000025_000031_000089_000053_000321_000593_001795_002435_003833_002767_017241_063373_025457,
  1_005767_000001_000003_000001_000001_000003_000045_000019_000255_000179_000991_001407_003683_001435_006803_012215_012835_002005,
  1_005773_000001_000003_000007_000003_000017_000005_000117_000251_000071_000983_001391_003499_005119_007257_007325_016565_006321,
  1_005776_000001_000003_000005_000007_000005_000049_000047_000201_000297_000485_001879_002205_004903_013619_022537_005479_121625,
  1_005781_000001_000001_000003_000005_000027_000027_000087_000061_000145_000943_000343_001639_006307_004549_020765_033479_113697,
  1_005791_000001_000001_000003_000009_000017_000005_000101_000129_000305_000653_001901_003901_006361_002369_007449_055259_075215,
  1_005792_000001_000001_000007_000005_000031_000045_000117_000055_000335_000827_001309_002603_002111_011005_014747_056999_097373,
  1_005795_000001_000001_000007_000011_000029_000029_000081_000175_000169_000453_000293_002589_001057_015795_032397_065433_079455]

def dirRows17_0_7 : List Nat := [
  1_005798_000001_000001_000001_000005_000011_000007_000013_000249_000029_000407_001289_002385_008113_015327_004029_032005_105901,
  1_005801_000001_000001_000005_000005_000007_000061_000103_000141_000109_000391_000631_000821_001479_014771_025057_001415_008081,
  1_005810_000001_000003_000001_000001_000009_000037_000017_000231_000501_000745_001695_000045_007797_002945_005529_034747_039069,
  1_005812_000001_000001_000007_000009_000021_000059_000103_000103_000033_000875_000723_003477_004729_007311_029979_060901_072187,
  1_005836_000001_000003_000003_000003_000015_000063_000093_000237_000203_000635_001189_002035_006499_009943_009133_062977_029657,
  1_005839_000001_000001_000001_000009_000003_000011_000063_000207_000095_000563_000775_003009_007125_013141_004489_016343_120951,
  1_005841_000001_000001_000003_000001_000021_000057_000015_000217_000185_000305_000463_001597_006529_004989_014011_011265_131031,
  1_005867_000001_000003_000005_000015_000017_000061_000035_000127_000411_000579_001349_000615_003293_008475_009773_030635_117639,
  1_005870_000001_000001_000007_000009_000011_000003_000055_000105_000305_000223_001899_002217_001261_009831_023693_003013_030489,
  1_005877_000001_000003_000007_000015_000015_000029_000001_000099_000067_000293_000499_001941_005303_001329_024547_014065_007927,
  1_005881_000001_000001_000005_000011_000017_000055_000071_000049_000499_000435_000985_002803_006139_001503_024167_047181_102529,
  1_005899_000001_000003_000005_000001_000019_000053_000071_000017_000063_000469_001871_002051_000357_011661_005689_036373_013379,
  1_005914_000001_000001_000005_000001_000027_000047_000023_000247_000059_000381_001895_002453_003665_005487_024081_050501_091659,
  1_005925_000001_000001_000005_000007_000029_000019_000003_000033_000083_000301_000133_003603_005133_016171_022905_036271_010405,
  1_005929_000001_000003_000007_000009_000011_000023_000057_000087_000009_000731_000631_003703_002593_012851_007115_008801_108919,
  1_005943_000001_000003_000003_000003_000023_000035_000033_000099_000343_000837_000231_003921_006975_015093_015049_064623_123523,
  1_005949_000001_000001_000007_000011_000015_000061_000113_000103_000501_000057_001345_003155_002965_004433_010605_043765_042169,
  1_005962_000001_000001_000007_000013_000007_000053_000091_000121_000229_000127_000103_000833_007829_001571_010847_020861_101155,
  1_005969_000001_000003_000007_000001_000009_000025_000071_000103_000037_000473_001133_001129_001651_006965_006937_016597_020439,
  1_005976_000001_000001_000005_000009_000001_000009_000047_000131_000285_000967_001869_001075_008127_000135_015575_038569_123729,
  1_005988_000001_000001_000007_000009_000005_000031_000033_000227_000347_000041_002025_003755_000857_007805_013121_038307_125825,
  1_005997_000001_000003_000005_000007_000011_000011_000019_000055_000023_000627_001477_003093_002779_007653_007165_023053_076123,
  1_006006_000001_000001_000003_000001_000003_000047_000083_000089_000177_000381_001247_000141_007051_006443_027369_034323_043063,
  1_006010_000001_000001_000007_000007_000013_000015_000055_000223_000351_000525_001051_003009_005443_011499_008335_037949_069149,
  1_006016_000001_000001_000001_000003_000013_000061_000089_000033_000129_000921_001905_000201_003141_005531_000135_034103_056883,
  1_006022_000001_000001_000005_000013_000017_000027_000013_000163_000169_000471_001263_001421_007015_007927_021027_058001_026739,
  1_006026_000001_000001_000001_000015_000019_000049_000109_000207_000245_000049_001271_003635_002561_005091_024415_059195_067701,
  1_006031_000001_000003_000005_000007_000027_000057_000099_000155_000461_000595_001859_001727_000857_004993_031733_042141_010035,
  1_006040_000001_000001_000001_000015_000011_000011_000085_000009_000251_000375_000155_000379_007501_012559_032583_036317_004675,
  1_006043_000001_000001_000005_000013_000019_000057_000081_000069_000201_000293_000593_003169_004519_009057_016685_012847_123797,
  1_006050_000001_000003_000001_000005_000005_000001_000019_000243_000345_000661_000561_003549_002541_005887_025879_041467_072799,
  1_006059_000001_000001_000005_000013_000015_000051_000067_000061_000079_000089_000447_001471_004915_010637_010901_048157_103545,
  1_006079_000001_000003_000005_000013_000031_000025_000073_000129_000435_000659_001851_003595_000753_007717_010927_030115_109221,
  1_006099_000001_000001_000001_000003_000025_000003_000121_000043_000349_000205_001209_002671_006445_008755_007171_058631_074319,
  1_006101_000001_000001_000003_000001_000011_000015_000083_000037_000483_000065_000759_001835_003883_001693_030051_061077_001187,
  1_006105_000001_000003_000007_000015_000029_000023_000085_000077_000139_000903_001821_000943_006453_001523_018539_049039_110787,
  1_006108_000001_000001_000007_000015_000015_000017_000069_000253_000507_000921_000523_000079_000747_004011_025795_042029_088309,
  1_006124_000001_000001_000007_000003_000025_000047_000119_000083_000313_000045_000985_000145_000205_003407_009013_064517_115811,
  1_006132_000001_000001_000007_000001_000029_000021_000009_000123_000097_000545_001987_002979_006901_012667_023325_063635_070593,
  1_006145_000001_000003_000007_000003_000023_000045_000081_000255_000041_000029_001493_004065_003201_010479_017193_039999_055493,
  1_006146_000001_000003_000001_000003_000009_000043_000043_000135_000235_000603_000481_003139_002729_014759_007269_007995_110351,
  1_006151_000001_000003_000001_000011_000017_000035_000113_000093_000417_000967_000755_000659_003115_016163_022997_038205_126961,
  1_006152_000001_000001_000007_000011_000029_000057_000081_000235_000093_000869_000475_000825_006269_015819_014977_053057_116021,
  1_006158_000001_000001_000007_000013_000005_000061_000005_000241_000245_000673_001651_003367_002355_000713_020107_030133_000735,
  1_006160_000001_000001_000005_000009_000021_000003_000121_000241_000129_000703_001435_001943_005087_013123_030023_058287_050377,
  1_006163_000001_000001_000001_000015_000023_000027_000067_000197_000123_000629_000169_003303_001679_011051_016875_028055_012379,
  1_006165_000001_000001_000003_000003_000007_000063_000097_000043_000089_000739_000779_002893_007763_006351_026135_044647_127987,
  1_006170_000001_000003_000003_000009_000031_000059_000095_000131_000131_000321_001125_000127_004865_000145_026237_047871_114549,
  1_006182_000001_000003_000003_000013_000021_000003_000033_000017_000445_000693_001599_002517_001679_002237_015053_030983_106755,
  1_006196_000001_000001_000005_000013_000031_000037_000049_000067_000403_000027_000575_001795_003385_001067_000585_060277_123189,
  1_006199_000001_000003_000001_000015_000013_000035_000023_000247_000493_000305_000363_000451_004011_003679_018281_031751_127933,
  1_006200_000001_000001_000007_000005_000021_000045_000123_000253_000469_000267_000985_002349_003427_007653_025685_013747_000531,
  1_006205_000001_000001_000005_000011_000007_000059_000105_000209_000027_000847_000593_003775_006165_001655_029867_028465_092193,
  1_006226_000001_000003_000001_000011_000007_000025_000101_000081_000233_000311_000009_002735_003951_000485_010105_024489_000649,
  1_006228_000001_000003_000001_000007_000027_000005_000115_000243_000295_000659_000215_001787_005131_002513_029201_021195_103383,
  1_006237_000001_000003_000005_000013_000029_000021_000007_000057_000345_000467_001297_000207_005115_000335_006153_032959_125697,
  1_006247_000001_000001_000001_000009_000003_000063_000063_000005_000373_000123_001265_002365_001623_001561_014805_017487_104787,
  1_006251_000001_000003_000001_000005_000015_000013_000055_000069_000251_000341_000463_002611_004793_012157_004669_011613_128705,
  1_006253_000001_000003_000007_000013_000019_000007_000093_000149_000453_000693_001731_000861_006971_000943_018891_056547_034411,
  1_006256_000001_000001_000007_000001_000027_000049_000027_000009_000281_000121_000581_000393_002583_001159_026989_039955_100765,
  1_006268_000001_000001_000003_000009_000003_000043_000097_000207_000311_000617_001987_002559_002101_015791_030085_040713_041909,
  1_006272_000001_000003_000001_000003_000015_000019_000053_000183_000375_000867_000397_003203_004207_005381_025065_060357_088739,
  1_006275_000001_000003_000003_000003_000027_000051_000085_000231_000019_000559_000567_004049_004875_014201_011623_039763_057339,
  1_006281_000001_000001_000005_000001_000019_000007_000081_000249_000041_000789_000985_003725_004053_004255_009861_001609_029511,
  1_006289_000001_000003_000005_000005_000021_000013_000049_000041_000367_000283_001161_002753_004733_003691_027931_053055_083625,
  1_006335_000001_000003_000005_000011_000029_000047_000095_000051_000265_000085_000385_000833_007957_014985_007017_041937_041377,
  1_006338_000001_000001_000007_000005_000001_000023_000017_000191_000185_000323_000515_003183_007685_007361_021143_005227_110297,
  1_006355_000001_000003_000003_000007_000011_000039_000031_000097_000237_000497_001649_003529_006153_005055_029021_035125_121581,
  1_006362_000001_000003_000005_000003_000017_000047_000105_000075_000055_000343_000595_002447_005575_010673_032015_037541_127867,
  1_006373_000001_000003_000001_000007_000019_000039_000031_000135_000167_000979_000219_001353_000489_009667_027107_055565_072291,
  1_006386_000001_000001_000003_000013_000031_000049_000087_000093_000235_000577_001551_002663_000387_001129_026683_031285_015913,
  1_006388_000001_000003_000003_000007_000015_000029_000061_000033_000115_000511_001781_002029_004265_006745_001467_034415_040907,
  1_006391_000001_000001_000007_000005_000001_000055_000013_000129_000167_000937_000079_002047_003589_001979_004153_015229_085745,
  1_006397_000001_000001_000007_000015_000015_000025_000089_000129_000031_000435_001359_000049_002659_002829_008741_025215_004239,
  1_006405_000001_000003_000005_000003_000011_000039_000095_000239_000187_000615_001481_003509_001133_013497_024833_059635_045695,
  1_006406_000001_000001_000005_000003_000019_000017_000017_000235_000315_000943_000883_001381_007129_015709_009847_041183_116071,
  1_006410_000001_000001_000001_000003_000009_000063_000109_000209_000309_001015_001391_002617_001481_006483_004151_028063_049887,
  1_006417_000001_000001_000005_000013_000023_000037_000031_000089_000501_000461_000041_000931_007863_015499_025635_016995_041651,
  1_006443_000001_000001_000001_000009_000029_000029_000125_000161_000219_000439_001465_001615_007483_007497_001121_049693_030269,
  1_006457_000001_000003_000001_000005_000007_000043_000027_000161_000431_000375_000419_002995_000527_008207_000747_018491_015351,
  1_006468_000001_000001_000003_000013_000025_000021_000067_000177_000009_000453_001171_000065_002845_016147_012699_030905_122255,
  1_006475_000001_000003_000001_000005_000029_000047_000077_000251_000473_000385_000947_003239_005375_013617_010639_036005_095821,
  1_006486_000001_000003_000001_000015_000013_000001_000075_000223_000509_000019_000175_001541_000637_005711_001097_044901_035277,
  1_006489_000001_000003_000003_000007_000003_000027_000017_000151_000039_000583_000391_002739_007339_002051_017005_049573_085969,
  1_006495_000001_000003_000001_000011_000003_000025_000119_000125_000017_000629_000201_002347_002923_001273_014871_058299_097667,
  1_006499_000001_000001_000007_000001_000031_000039_000011_000121_000339_000667_001863_003479_001895_011319_005683_064969_009261,
  1_006505_000001_000001_000005_000009_000027_000061_000101_000221_000221_000583_000287_000707_005931_004225_029537_046097_114361,
  1_006511_000001_000001_000001_000009_000023_000047_000001_000035_000085_001021_000151_003153_003867_000971_031573_004745_107639,
  1_006520_000001_000001_000007_000013_000015_000015_000063_000037_000291_000907_000411_001571_006415_007443_026635_027945_130909,
  1_006529_000001_000003_000001_000009_000021_000013_000077_000147_000485_000107_000235_000481_002389_000957_011493_053033_046373,
  1_006542_000001_000003_000005_000007_000003_000055_000125_000237_000205_000411_001911_004053_005983_015489_029333_044727_062167,
  1_006547_000001_000001_000003_000003_000017_000003_000059_000239_000209_000495_000447_003427_003425_002347_010057_026147_052243,
  1_006550_000001_000001_000003_000001_000011_000031_000003_000139_000441_000997_000295_001267_002181_006047_032419_062657_024921,
  1_006554_000001_000003_000007_000015_000005_000003_000011_000009_000211_000701_001987_002611_006195_014379_022919_015785_052149,
  1_006556_000001_000001_000007_000009_000007_000027_000035_000253_000343_000679_000103_001217_003983_008677_017671_041347_089355,
  1_006560_000001_000001_000001_000005_000007_000055_000111_000115_000231_000999_000773_002111_003617_002469_016967_060735_024557,
  1_006569_000001_000003_000005_000001_000029_000005_000077_000217_000131_000307_000473_003595_002713_006503_018459_057245_091897,
  1_006572_000001_000003_000005_000013_000009_000033_000093_000031_000059_000343_001337_001971_007593_015629_022693_019885_004139,
  1_006590_000001_000003_000003_000003_000021_000033_000115_000205_000373_000587_000739_000669_008065_005339_016507_029455_015863,
  1_006592_000001_000003_000005_000011_000009_000043_000045_000041_000091_000087_000019_001523_005059_009403_006739_036893_006395]

def dirRows17_0_8 : List Nat := [
  1_006601_000001_000001_000005_000015_000019_000043_000081_000003_000401_000621_001839_001443_000179_008085_027021_007757_095011,
  1_006610_000001_000003_000005_000015_000019_000021_000045_000167_000077_000977_000309_000431_003437_008327_012895_050521_068473,
  1_006632_000001_000003_000003_000015_000007_000021_000049_000169_000327_000271_000007_000785_001767_014747_007083_065223_024213,
  1_006635_000001_000001_000005_000009_000009_000051_000101_000197_000507_000839_001413_003131_000331_015725_032293_060433_086759,
  1_006640_000001_000001_000007_000001_000017_000039_000127_000201_000341_000607_001565_001615_001367_016043_028265_029139_063813,
  1_006643_000001_000003_000005_000007_000009_000001_000107_000073_000121_000649_001385_003203_002897_008479_028519_034041_001359,
  1_006649_000001_000001_000007_000007_000021_000055_000019_000013_000415_000647_002015_000107_004167_005033_016849_041407_094387,
  1_006659_000001_000003_000005_000013_000031_000027_000107_000095_000425_000679_000055_003521_006737_011459_019995_064189_044323,
  1_006662_000001_000001_000003_000009_000017_000047_000029_000167_000017_000063_000005_002505_006483_014089_007127_007907_068555,
  1_006666_000001_000001_000005_000003_000029_000003_000087_000107_000227_000893_001821_000341_005481_013317_010637_008611_028625,
  1_006690_000001_000001_000001_000013_000011_000019_000059_000157_000397_000103_001821_003913_003083_006053_001015_025475_094813,
  1_006692_000001_000003_000001_000003_000015_000045_000001_000209_000335_001015_000539_002959_001711_002567_030169_000147_025383,
  1_006704_000001_000003_000007_000001_000017_000005_000099_000121_000091_000531_000865_001667_005615_004729_007473_021445_037925,
  1_006713_000001_000001_000007_000013_000003_000051_000027_000115_000439_000761_001121_001503_003047_002127_029253_048147_010813,
  1_006728_000001_000003_000007_000015_000001_000051_000033_000161_000509_000159_001705_003365_007953_014027_003873_029609_033101,
  1_006731_000001_000001_000005_000015_000015_000053_000119_000115_000433_000075_000497_001259_001681_007715_024767_034647_082007,
  1_006734_000001_000001_000005_000003_000027_000063_000041_000181_000393_000439_000095_002765_007617_000817_001311_018595_016921,
  1_006746_000001_000003_000001_000015_000031_000007_000057_000089_000371_000745_000475_003211_006893_010681_018547_028373_127787,
  1_006755_000001_000003_000005_000013_000005_000055_000045_000167_000147_000833_000765_001153_004037_008503_010751_049541_077489,
  1_006757_000001_000003_000001_000011_000011_000007_000045_000167_000431_000759_001035_001367_001649_011711_004915_058915_072479,
  1_006764_000001_000001_000005_000001_000011_000003_000015_000135_000427_000637_000879_001667_006139_014759_025665_013083_067961,
  1_006772_000001_000003_000003_000009_000001_000003_000073_000167_000269_000051_001481_003659_007863_007187_003951_010711_005909,
  1_006792_000001_000001_000003_000003_000009_000053_000101_000209_000109_000691_001641_000919_001083_006247_023041_044681_130105,
  1_006797_000001_000003_000007_000005_000021_000055_000127_000009_000437_000225_001599_002575_005407_008099_020009_040339_110581,
  1_006821_000001_000003_000003_000013_000007_000041_000015_000137_000363_000337_000995_001215_003651_011011_027209_053927_078065,
  1_006822_000001_000001_000001_000007_000011_000017_000027_000009_000481_000079_000905_001297_000811_010221_000463_012979_114731,
  1_006831_000001_000001_000003_000013_000007_000059_000105_000079_000253_000699_000139_003823_004939_012955_032069_007255_018159,
  1_006834_000001_000003_000005_000007_000029_000007_000079_000079_000147_000921_000425_001423_005967_006397_017393_030009_084075,
  1_006851_000001_000003_000007_000013_000023_000045_000051_000141_000237_000443_001101_000309_004533_007479_022415_031517_120407,
  1_006858_000001_000001_000005_000013_000003_000019_000097_000185_000059_000179_001343_002537_003165_016295_025005_049769_078007,
  1_006860_000001_000003_000007_000015_000011_000053_000127_000195_000309_000121_001741_001415_000225_015645_016365_038729_070061,
  1_006871_000001_000003_000007_000011_000029_000035_000047_000109_000179_000003_000849_002305_003035_015289_031569_028851_090057,
  1_006875_000001_000001_000007_000001_000013_000027_000093_000119_000439_000045_000623_001263_006595_006669_012981_064721_130109,
  1_006884_000001_000001_000007_000013_000005_000043_000043_000099_000395_000417_000795_003991_005601_013115_012803_052247_039245,
  1_006888_000001_000003_000003_000003_000015_000061_000085_000091_000407_000391_000359_003885_001925_004873_000169_041727_129471,
  1_006894_000001_000003_000003_000009_000011_000047_000003_000033_000355_000853_001329_001347_001995_008197_010015_000787_066773,
  1_006919_000001_000003_000003_000013_000031_000031_000049_000195_000055_000185_001743_003523_001781_008469_007623_055933_074953,
  1_006940_000001_000003_000005_000015_000029_000031_000005_000045_000149_000071_002033_003171_004601_009941_015005_055709_074403,
  1_006950_000001_000003_000005_000003_000001_000027_000105_000007_000139_000805_001877_000915_001843_011897_029485_019275_044711,
  1_006959_000001_000001_000005_000007_000025_000057_000111_000057_000401_000935_001685_002985_002015_013501_014581_053579_117011,
  1_006968_000001_000001_000005_000011_000013_000047_000063_000137_000145_000077_001727_002629_007377_006311_000537_013703_129503,
  1_006981_000001_000001_000007_000009_000005_000049_000067_000051_000163_000989_000845_000007_002141_014467_003197_057581_121087,
  1_006988_000001_000001_000005_000003_000031_000049_000057_000103_000171_000491_001109_001255_004353_011927_029525_016685_048469,
  1_006996_000001_000001_000001_000003_000007_000029_000017_000111_000339_000747_000763_000179_007747_002483_018415_045301_025155,
  1_006999_000001_000001_000007_000007_000001_000041_000071_000109_000401_000815_001311_003933_001349_013327_020847_044391_049721,
  1_007015_000001_000001_000001_000015_000027_000057_000039_000129_000391_000701_000619_003925_000701_000403_011821_030517_022035,
  1_007019_000001_000001_000005_000011_000021_000049_000109_000101_000497_000417_000073_002727_002899_002777_022161_035561_070211,
  1_007022_000001_000001_000003_000003_000015_000043_000001_000159_000041_000833_000055_002415_005009_009663_031295_029397_003187,
  1_007040_000001_000001_000003_000007_000027_000005_000113_000187_000453_000753_001649_001605_002405_011791_004239_020915_054033,
  1_007045_000001_000003_000001_000011_000001_000057_000049_000229_000283_000113_000345_000785_008009_011977_030169_063787_032011,
  1_007049_000001_000001_000007_000003_000005_000059_000057_000091_000327_000685_000219_001949_003095_008389_002035_011903_073461,
  1_007055_000001_000001_000003_000003_000019_000059_000019_000037_000453_000001_001811_003263_001807_016147_024861_014003_031747,
  1_007073_000001_000001_000003_000011_000001_000053_000093_000203_000429_000629_001931_001487_003301_008805_004901_002459_098555,
  1_007076_000001_000001_000007_000005_000021_000005_000037_000135_000159_000749_001589_002631_008145_007279_028397_047113_082309,
  1_007085_000001_000001_000005_000015_000025_000061_000019_000051_000217_000495_000109_001179_002743_012107_012509_013003_094375,
  1_007091_000001_000003_000003_000015_000011_000007_000067_000165_000057_000925_000427_002549_007189_005917_013113_030933_062703,
  1_007103_000001_000001_000005_000005_000009_000005_000043_000005_000485_000159_000757_003979_004963_003389_029731_048477_113429,
  1_007112_000001_000003_000005_000001_000005_000005_000081_000163_000493_000357_002005_001093_005951_001045_010569_040321_056881,
  1_007117_000001_000003_000001_000005_000007_000029_000011_000007_000007_000013_001641_001031_004025_016337_024333_009589_037779,
  1_007118_000001_000003_000005_000011_000015_000003_000069_000019_000141_000079_000749_000391_004505_006939_003079_003647_022363,
  1_007123_000001_000003_000003_000003_000029_000003_000007_000189_000183_000513_001225_000239_004203_009197_023507_033089_124433,
  1_007126_000001_000003_000003_000013_000027_000037_000081_000221_000287_000891_001197_003501_000539_002053_020509_048635_050269,
  1_007154_000001_000001_000005_000007_000013_000003_000035_000079_000003_000885_000343_003527_001043_007197_006973_008515_039315,
  1_007180_000001_000003_000003_000009_000021_000053_000079_000225_000229_000759_000457_000293_000953_012857_020483_003677_093839,
  1_007192_000001_000003_000005_000003_000005_000017_000045_000107_000153_000279_000761_001923_007013_002989_010137_019107_126897,
  1_007195_000001_000003_000001_000003_000023_000053_000091_000001_000133_000729_000013_002017_006933_007405_001255_049509_105571,
  1_007207_000001_000003_000005_000001_000009_000045_000035_000153_000209_000289_001779_002557_000315_000981_015347_030391_016027,
  1_007208_000001_000003_000003_000005_000017_000003_000051_000105_000263_000959_001255_001177_008143_010541_007687_038731_093561,
  1_007214_000001_000001_000001_000013_000019_000001_000015_000135_000447_000847_000663_003893_003539_006833_013265_062923_008375,
  1_007222_000001_000003_000001_000015_000031_000011_000105_000001_000091_000523_001583_003493_002665_000117_010757_029845_127201,
  1_007234_000001_000001_000001_000003_000029_000049_000009_000103_000309_000605_001751_001981_000833_003653_014001_016545_058513,
  1_007254_000001_000001_000005_000009_000001_000019_000117_000071_000237_000765_000249_001983_002289_006019_026505_031427_064333,
  1_007258_000001_000001_000003_000011_000015_000031_000005_000207_000347_000143_000011_001987_003569_002051_031051_022193_093289,
  1_007264_000001_000001_000003_000005_000013_000015_000005_000073_000457_000611_000673_002675_008071_013245_019443_014399_099599,
  1_007279_000001_000001_000001_000009_000011_000005_000103_000231_000031_000457_001031_002257_003159_008323_031585_026163_045159,
  1_007282_000001_000003_000001_000011_000029_000051_000029_000007_000089_000331_000783_000951_006353_015421_012801_008337_119171,
  1_007293_000001_000001_000003_000013_000023_000057_000063_000043_000505_000001_000657_004005_006327_007545_015455_027097_053649,
  1_007297_000001_000001_000001_000005_000031_000007_000051_000107_000175_000461_001893_000305_000157_004819_018549_033087_009499,
  1_007322_000001_000003_000001_000003_000019_000045_000037_000009_000459_000143_001327_003611_001899_015109_030151_017911_013233,
  1_007324_000001_000001_000005_000015_000019_000049_000011_000227_000375_000661_000665_000259_003659_013723_028239_048159_059209,
  1_007351_000001_000003_000007_000007_000017_000049_000077_000161_000505_000713_001521_000935_003629_005033_026717_047199_003693,
  1_007363_000001_000003_000005_000009_000017_000061_000001_000201_000259_000179_001637_002485_004995_002813_019923_043739_032183,
  1_007380_000001_000001_000003_000005_000001_000023_000125_000061_000225_000703_002011_001013_006651_014029_027375_023301_080269,
  1_007384_000001_000001_000003_000009_000011_000057_000037_000049_000321_000443_001055_001989_004755_008467_022001_018647_112617,
  1_007389_000001_000003_000001_000005_000005_000039_000021_000139_000101_000583_001881_002599_004185_015679_022215_019093_076737,
  1_007396_000001_000003_000001_000011_000031_000051_000085_000091_000159_000421_002005_001075_007757_012653_025489_003545_062961,
  1_007413_000001_000001_000001_000015_000027_000057_000075_000151_000357_000571_000395_000299_005607_012865_002149_021059_120753,
  1_007417_000001_000001_000001_000003_000015_000057_000063_000171_000265_000709_001089_000677_007243_010207_009789_038431_130415,
  1_007431_000001_000003_000007_000005_000021_000009_000073_000149_000197_000773_000773_003931_004135_005671_002733_057173_090693,
  1_007443_000001_000001_000005_000001_000023_000001_000047_000201_000033_000167_001643_004009_002687_005725_028733_027859_055163,
  1_007445_000001_000001_000005_000015_000025_000011_000057_000139_000471_000625_001067_003647_006213_015605_023537_005005_032593,
  1_007450_000001_000003_000001_000011_000017_000011_000025_000163_000199_000021_001775_003721_002845_015769_002381_027643_019909,
  1_007456_000001_000003_000005_000005_000021_000041_000023_000125_000401_000483_000535_000925_007065_001727_003761_008485_003519,
  1_007466_000001_000001_000003_000015_000027_000031_000011_000007_000093_000237_000611_003635_004747_009751_020607_020473_073935,
  1_007468_000001_000001_000007_000003_000015_000019_000069_000169_000387_000291_001981_000635_003387_015817_020357_047537_107311,
  1_007474_000001_000003_000007_000015_000013_000059_000031_000235_000399_000343_001265_002975_006839_013335_005397_058915_031313,
  1_007479_000001_000001_000007_000001_000003_000035_000081_000243_000387_000421_001533_000799_002615_013219_009041_026967_022677,
  1_007486_000001_000001_000007_000015_000017_000041_000089_000115_000067_000569_001647_001831_005533_004629_001413_020037_097343,
  1_007497_000001_000001_000005_000001_000023_000041_000011_000149_000319_000377_000439_001237_004819_014303_014657_061711_129235,
  1_007508_000001_000003_000003_000007_000009_000011_000079_000219_000249_000607_001453_002931_003407_013725_028289_042869_096759]

def dirRows17_0_9 : List Nat := [
  1_007515_000001_000001_000005_000011_000007_000009_000101_000051_000011_000893_000697_001221_004237_001873_011191_025517_119861,
  1_007533_000001_000001_000003_000011_000023_000023_000019_000245_000485_000317_001945_002339_000193_009389_030709_033927_095089,
  1_007542_000001_000001_000003_000001_000027_000055_000005_000081_000063_000185_000223_003639_006093_010053_001793_011885_029307,
  1_007546_000001_000001_000007_000013_000015_000041_000033_000133_000467_000457_000213_003687_001313_002555_019487_044257_108667,
  1_007551_000001_000001_000003_000005_000031_000051_000053_000115_000449_000273_001043_002743_001759_002013_028171_057091_076837,
  1_007569_000001_000001_000005_000015_000021_000043_000011_000215_000151_000253_000913_001889_002799_013787_003869_054413_050991,
  1_007572_000001_000001_000003_000013_000029_000019_000081_000123_000461_000203_000081_000555_006601_015689_012637_041467_105343,
  1_007595_000001_000001_000003_000013_000007_000021_000075_000111_000047_000481_001519_003299_006199_003501_031323_029215_045607,
  1_007603_000001_000003_000001_000003_000017_000051_000045_000223_000321_000233_000267_003333_003803_003099_004601_029061_088441,
  1_007605_000001_000001_000005_000013_000023_000027_000007_000057_000273_000893_000773_000239_006357_015875_005497_021775_108291,
  1_007629_000001_000003_000001_000015_000025_000017_000011_000229_000175_000909_000691_003507_005247_002933_001741_035059_062841,
  1_007632_000001_000003_000005_000001_000029_000007_000011_000069_000345_000087_000099_003243_005669_011053_001185_006979_117069,
  1_007638_000001_000003_000005_000011_000013_000033_000023_000183_000089_000475_000643_002773_007899_015219_000133_005073_129355,
  1_007648_000001_000003_000007_000009_000023_000017_000031_000053_000455_000193_001695_002557_001645_012675_027857_050447_121335,
  1_007654_000001_000001_000003_000011_000015_000019_000041_000057_000305_000235_001131_001165_001857_013667_019285_029755_118885,
  1_007663_000001_000003_000007_000003_000009_000043_000107_000003_000275_000673_000677_003769_003097_005497_024911_004617_080505,
  1_007675_000001_000001_000007_000009_000021_000039_000107_000155_000471_000753_000579_002929_004951_004245_025035_041795_086955,
  1_007693_000001_000003_000001_000007_000031_000051_000027_000165_000147_000751_000709_000399_000045_000947_009893_032721_122127,
  1_007705_000001_000003_000003_000001_000031_000031_000073_000059_000351_000293_000845_003139_004177_003537_009465_020689_065837,
  1_007717_000001_000003_000005_000009_000027_000029_000013_000115_000417_000435_000465_001291_005225_011687_029207_039895_055443,
  1_007724_000001_000003_000003_000015_000029_000049_000111_000179_000221_000565_000787_001811_004055_007863_027273_032975_026985,
  1_007727_000001_000001_000001_000007_000015_000049_000121_000145_000277_000027_000149_000965_004903_003497_032333_037217_105073,
  1_007735_000001_000001_000007_000001_000023_000029_000031_000077_000353_000349_000755_002081_004291_000567_000641_041751_020397,
  1_007761_000001_000001_000005_000003_000025_000031_000097_000003_000405_000607_000965_002981_003217_014695_025977_022457_113539,
  1_007767_000001_000003_000003_000015_000025_000003_000091_000125_000269_000825_001163_002181_004247_006813_004699_035091_087771,
  1_007783_000001_000001_000005_000009_000025_000023_000113_000145_000071_000031_001115_003729_006793_011869_026509_018779_099499,
  1_007784_000001_000001_000001_000009_000031_000051_000077_000217_000247_000599_001541_003217_001383_005203_027971_023647_071823,
  1_007798_000001_000001_000005_000007_000017_000035_000113_000073_000475_000511_000035_001961_005311_002257_001935_058963_094349,
  1_007802_000001_000003_000001_000007_000027_000031_000067_000253_000095_000883_001213_000855_003429_015049_026715_056099_101797,
  1_007811_000001_000001_000003_000005_000009_000009_000061_000057_000511_000537_001803_000949_001327_003921_011297_013807_064629,
  1_007817_000001_000001_000005_000001_000031_000057_000105_000161_000309_000283_001291_002737_007141_007497_025893_014453_035375,
  1_007823_000001_000001_000003_000001_000021_000003_000077_000037_000013_000211_001863_001895_008035_005801_025981_012317_048375,
  1_007832_000001_000003_000007_000007_000025_000045_000013_000077_000185_000553_001501_001349_005951_015581_032657_018467_128363,
  1_007837_000001_000003_000005_000009_000023_000063_000105_000239_000213_000935_001331_003653_002775_006591_006067_034597_019217,
  1_007842_000001_000003_000007_000013_000015_000019_000079_000091_000391_000637_001685_002263_003507_002025_002111_015875_014831,
  1_007853_000001_000003_000003_000005_000007_000029_000081_000069_000511_000399_000343_000737_002833_001021_010471_018689_036181,
  1_007854_000001_000001_000005_000011_000021_000017_000039_000137_000145_000857_000583_000789_008057_015995_032113_064163_037153,
  1_007856_000001_000003_000003_000011_000009_000061_000087_000131_000487_000667_001295_000493_004629_007719_018157_049715_002051,
  1_007861_000001_000003_000005_000009_000019_000005_000085_000003_000491_000353_000571_002829_004411_000343_024781_062325_123959,
  1_007862_000001_000001_000007_000013_000013_000039_000011_000031_000413_000285_000027_002433_003307_006165_026565_040065_102655,
  1_007873_000001_000001_000005_000011_000025_000045_000007_000097_000009_000973_001833_002537_001457_007389_024087_038061_122805,
  1_007874_000001_000003_000005_000003_000021_000063_000077_000021_000249_000525_001145_001421_008011_003357_015051_030293_127017,
  1_007886_000001_000001_000005_000003_000013_000053_000081_000185_000303_000307_001579_000841_002277_000607_010899_034209_000215,
  1_007914_000001_000003_000003_000013_000017_000001_000125_000145_000205_000763_000127_001865_004129_000849_027247_029845_036515,
  1_007927_000001_000003_000007_000013_000005_000059_000019_000071_000227_000111_000365_001309_005857_006035_032379_011303_127329,
  1_007936_000001_000001_000001_000001_000019_000061_000079_000253_000459_000023_000725_003615_004583_000429_013215_031879_004523,
  1_007951_000001_000001_000001_000007_000019_000013_000053_000041_000243_000107_001767_000983_003483_002249_002209_058895_014805,
  1_007963_000001_000001_000001_000009_000005_000063_000031_000085_000119_000307_000633_003295_000841_003495_022965_057587_108271,
  1_007966_000001_000003_000005_000009_000017_000013_000057_000049_000097_000613_000405_002637_003229_014253_004663_061345_033415,
  1_007976_000001_000003_000001_000001_000017_000037_000063_000003_000005_000375_001073_003971_000665_004445_000153_020437_038513,
  1_007993_000001_000003_000003_000015_000005_000009_000077_000161_000409_000461_000443_000567_005581_008623_027735_009041_005517,
  1_008001_000001_000003_000005_000013_000013_000005_000019_000053_000263_000155_000557_003973_006841_004829_030751_030025_121973,
  1_008004_000001_000003_000007_000009_000027_000037_000049_000243_000107_001013_001743_001509_004465_015415_004741_041409_072695,
  1_008013_000001_000001_000003_000005_000011_000049_000039_000045_000021_000463_000875_003681_001901_015325_024553_051369_082227,
  1_008021_000001_000001_000003_000015_000011_000035_000021_000091_000383_000149_001815_000911_004633_012027_012413_022307_120049,
  1_008026_000001_000003_000005_000007_000007_000003_000015_000083_000477_000687_000145_001705_006893_005233_020171_043337_072603,
  1_008028_000001_000001_000003_000009_000025_000035_000019_000173_000067_000005_000561_002139_004557_004911_026273_038409_022801,
  1_008031_000001_000001_000003_000013_000015_000039_000085_000091_000091_000187_001851_001181_004049_016353_026525_043703_019415,
  1_008035_000001_000003_000001_000009_000013_000041_000077_000179_000415_000705_000693_003017_005847_016191_011435_028979_051839,
  1_008042_000001_000001_000003_000005_000023_000015_000003_000159_000269_000067_000625_004043_004701_001599_006467_010949_080073,
  1_008071_000001_000003_000003_000015_000007_000043_000081_000157_000393_000321_001875_002801_004359_011703_001063_064015_109997,
  1_008085_000001_000001_000007_000003_000025_000021_000037_000123_000133_000691_000973_003115_002291_010519_013339_022751_085445,
  1_008092_000001_000003_000001_000001_000021_000021_000009_000023_000431_000679_001873_000289_004503_003939_014417_036081_018709,
  1_008102_000001_000003_000005_000005_000001_000053_000109_000133_000033_000279_000727_002233_003065_008557_007487_025797_109177,
  1_008105_000001_000001_000007_000007_000001_000009_000047_000127_000179_000757_001985_000547_000169_013393_022669_058795_092897,
  1_008114_000001_000003_000005_000011_000017_000021_000095_000219_000263_000579_001493_003283_005461_001235_001749_033325_036033,
  1_008123_000001_000001_000003_000011_000021_000049_000045_000143_000511_000983_001933_000965_007905_001925_027857_040723_068251,
  1_008131_000001_000003_000007_000003_000027_000009_000073_000007_000441_000877_000107_001599_004795_007251_006819_007671_021137,
  1_008140_000001_000001_000003_000003_000021_000025_000049_000043_000247_000949_000627_002859_002507_004787_011269_053221_126387,
  1_008145_000001_000001_000005_000003_000005_000053_000127_000065_000353_000521_001701_002981_003201_000611_013475_058015_002605,
  1_008157_000001_000001_000005_000013_000009_000039_000055_000103_000053_000281_000705_002433_006179_003381_031973_030267_091307,
  1_008158_000001_000001_000007_000013_000031_000023_000029_000161_000347_000449_000123_003427_005731_012691_015175_020487_074695,
  1_008185_000001_000003_000003_000015_000013_000019_000083_000137_000437_000317_000921_000913_007979_006665_005313_001435_060271,
  1_008186_000001_000003_000005_000007_000019_000023_000031_000131_000421_000095_001999_000897_004839_001815_012387_045009_002609,
  1_008188_000001_000001_000001_000007_000003_000053_000121_000033_000047_000283_000813_003841_004449_002543_015211_059285_042551,
  1_008192_000001_000003_000001_000013_000009_000043_000037_000167_000093_000417_000213_002721_003395_002089_013743_032925_091147,
  1_008212_000001_000003_000007_000005_000031_000025_000097_000025_000019_000011_000543_001889_000455_005765_009517_056963_131069,
  1_008219_000001_000003_000001_000007_000003_000007_000087_000061_000209_000039_001303_001637_006687_008001_005003_047911_110657,
  1_008221_000001_000001_000005_000003_000011_000025_000099_000077_000379_000843_001423_002933_007535_004181_032223_049327_048041,
  1_008235_000001_000003_000003_000013_000009_000007_000085_000059_000047_000777_000401_002449_002795_011289_025023_007725_073887,
  1_008237_000001_000001_000003_000005_000011_000051_000093_000057_000369_000871_001175_002705_001253_005169_024691_014243_119667,
  1_008249_000001_000003_000001_000003_000005_000007_000033_000171_000359_000115_001909_002003_001413_013829_003471_036185_118399,
  1_008260_000001_000001_000001_000011_000005_000049_000097_000145_000415_000731_000671_002309_007211_011359_022757_015415_070951,
  1_008264_000001_000001_000003_000005_000007_000051_000061_000101_000375_000575_001321_002835_007569_009599_004707_007655_053417,
  1_008270_000001_000003_000001_000015_000009_000063_000025_000117_000203_000005_001345_002571_005273_002059_004689_027237_023199,
  1_008282_000001_000001_000003_000015_000015_000023_000069_000049_000349_000995_000005_001565_000903_010165_009565_006343_016653,
  1_008291_000001_000001_000003_000009_000021_000015_000069_000009_000463_000069_001447_002347_005125_007479_018257_014405_051321,
  1_008293_000001_000001_000007_000011_000023_000057_000057_000179_000017_000129_000999_000777_006281_001693_031885_031085_029237,
  1_008297_000001_000003_000005_000001_000025_000055_000015_000021_000199_000271_001645_001719_002023_010049_015215_011959_044875,
  1_008298_000001_000003_000001_000003_000029_000043_000083_000011_000281_000027_000429_000685_007189_009151_008665_009553_115293,
  1_008305_000001_000003_000001_000007_000017_000043_000125_000011_000189_000803_000713_000683_007285_004455_018195_045333_032281,
  1_008306_000001_000003_000003_000003_000011_000055_000021_000059_000173_000283_000709_001561_005391_005097_024725_019217_013769,
  1_008311_000001_000003_000005_000013_000007_000029_000117_000207_000415_000525_000567_001741_003553_006729_000433_017619_045971,
  1_008318_000001_000001_000007_000007_000003_000023_000043_000043_000213_000823_000609_001037_003797_004733_030717_061067_089581,
  1_008327_000001_000003_000005_000007_000011_000007_000007_000241_000379_000217_000739_002815_002549_014297_010283_001509_080613,
  1_008345_000001_000001_000001_000001_000017_000045_000053_000229_000193_000893_001881_000227_006751_007135_020823_036939_027667,
  1_008379_000001_000003_000003_000001_000015_000039_000027_000217_000101_000949_001963_002213_002357_004129_011925_000841_059259,
  1_008390_000001_000001_000003_000003_000005_000053_000059_000255_000421_001009_000683_002171_006691_012489_020865_029363_070611,
  1_008394_000001_000001_000007_000015_000007_000031_000105_000141_000153_000401_000549_003045_005443_011147_018159_024283_021859,
  1_008414_000001_000003_000007_000001_000011_000017_000017_000231_000175_000603_001915_000111_003203_010627_009687_047235_087057]

def dirRows17_0_10 : List Nat := [
  1_008417_000001_000001_000001_000011_000019_000021_000115_000041_000045_000727_001523_000739_003025_010321_027353_063139_016051,
  1_008432_000001_000003_000007_000011_000013_000009_000033_000121_000237_000565_002043_002131_003079_012575_002187_014427_085939,
  1_008437_000001_000003_000001_000015_000021_000019_000091_000227_000485_000049_000101_000015_001903_004039_023819_040001_066405,
  1_008441_000001_000003_000001_000005_000015_000025_000065_000025_000393_000287_001435_001851_006437_005983_013769_037847_120907,
  1_008449_000001_000003_000007_000015_000015_000021_000097_000037_000359_000155_000807_001421_000517_013135_002955_056979_052299,
  1_008456_000001_000001_000005_000001_000027_000053_000079_000027_000467_000605_000267_001193_000031_006177_012369_032621_038319,
  1_008473_000001_000001_000001_000011_000027_000015_000015_000231_000205_000677_000331_000133_003313_007193_008059_036449_021671,
  1_008489_000001_000003_000003_000011_000019_000057_000113_000083_000399_000801_001843_002119_002779_014061_030901_028745_120903,
  1_008495_000001_000001_000001_000011_000005_000027_000121_000247_000467_000251_001487_000251_000897_003171_028383_022473_001709,
  1_008522_000001_000001_000001_000015_000007_000059_000123_000165_000123_000373_000167_001323_005239_009027_013791_055593_078785,
  1_008524_000001_000003_000001_000011_000031_000011_000081_000229_000123_000183_000461_001751_005713_002615_027795_001657_039253,
  1_008529_000001_000001_000007_000001_000021_000045_000107_000003_000283_000149_000549_003731_006435_003595_032753_016079_084257,
  1_008545_000001_000003_000003_000015_000019_000009_000081_000037_000051_000341_000909_000985_001503_012787_016129_037789_113515,
  1_008557_000001_000003_000005_000013_000003_000033_000127_000219_000369_000341_001191_001305_000567_002339_031221_049435_114927,
  1_008565_000001_000001_000007_000015_000029_000047_000103_000107_000257_000015_002029_002133_002129_011235_029553_049139_033809,
  1_008572_000001_000003_000003_000013_000023_000033_000105_000043_000155_000815_001087_002261_002781_003461_007371_004479_123093,
  1_008576_000001_000001_000001_000013_000017_000007_000089_000107_000143_000349_000637_003651_004153_012131_028393_045781_084133,
  1_008582_000001_000003_000005_000011_000031_000047_000105_000101_000267_000403_001853_003977_003277_001737_015503_047365_014361,
  1_008594_000001_000001_000001_000013_000001_000063_000125_000107_000123_000183_001027_003491_003597_015949_005779_034665_081257,
  1_008629_000001_000003_000001_000009_000013_000005_000125_000041_000389_000073_001487_001983_000957_012645_013983_007675_072711,
  1_008636_000001_000003_000007_000005_000017_000005_000025_000063_000211_000591_000261_002345_003883_004403_000773_043963_093509,
  1_008668_000001_000003_000003_000001_000011_000035_000015_000251_000225_000643_000537_003769_007593_006113_001377_052185_081459,
  1_008678_000001_000003_000005_000015_000027_000027_000051_000035_000389_000853_001437_002803_005739_001887_015099_003299_111827,
  1_008701_000001_000001_000003_000015_000025_000063_000031_000201_000079_000131_000031_003929_004195_013045_008681_048121_110723,
  1_008702_000001_000001_000005_000007_000011_000043_000101_000057_000069_000271_000189_003087_004893_011365_006945_014285_041961,
  1_008708_000001_000001_000007_000009_000021_000061_000041_000123_000025_000947_001619_002895_007879_012397_017405_048139_071519,
  1_008712_000001_000003_000001_000015_000001_000027_000113_000225_000441_000855_000541_000357_003111_004867_020571_030627_070123,
  1_008745_000001_000003_000005_000003_000005_000033_000103_000001_000021_000093_000383_000407_005145_007857_020289_051943_016223,
  1_008754_000001_000001_000007_000015_000001_000013_000041_000215_000463_000417_000513_003417_001755_016165_007271_003101_054353,
  1_008759_000001_000003_000003_000013_000019_000029_000005_000205_000245_000927_001249_000773_003653_009959_000357_040863_037289,
  1_008763_000001_000003_000003_000007_000003_000005_000085_000241_000029_000627_001963_003133_001369_000503_011449_004699_002573,
  1_008766_000001_000001_000007_000015_000003_000035_000047_000157_000413_000437_001627_003953_000947_012721_022209_034303_081237,
  1_008780_000001_000001_000005_000005_000001_000045_000047_000245_000253_000349_001853_003481_006105_007267_003159_038833_117889,
  1_008783_000001_000003_000007_000015_000023_000043_000025_000181_000121_000681_000479_001239_006155_003317_009419_028717_044643,
  1_008786_000001_000003_000003_000015_000031_000043_000111_000099_000405_000991_000301_001689_007107_016131_016703_024059_040345,
  1_008798_000001_000001_000003_000009_000025_000005_000107_000091_000117_000351_001595_000163_003007_013743_024535_038671_029745,
  1_008804_000001_000003_000003_000005_000027_000047_000015_000195_000119_000919_000665_001903_001981_007753_021709_033699_015963,
  1_008819_000001_000003_000001_000011_000023_000023_000075_000115_000477_000105_000541_001111_000209_013939_017129_007565_075415,
  1_008826_000001_000001_000001_000011_000007_000061_000123_000201_000305_000713_000779_002059_004899_013733_020529_015617_039833,
  1_008835_000001_000001_000007_000011_000021_000007_000063_000113_000213_000871_000375_000029_001925_015237_007091_012229_008457,
  1_008838_000001_000001_000001_000007_000019_000057_000083_000091_000297_000255_001993_000063_005337_004569_021243_040867_046969,
  1_008856_000001_000001_000003_000007_000013_000063_000091_000191_000281_000259_001367_003505_005885_010557_012423_056303_014731,
  1_008862_000001_000001_000005_000015_000027_000015_000029_000067_000115_000287_000253_001497_003739_002183_014427_044931_011547,
  1_008871_000001_000003_000001_000009_000025_000061_000025_000113_000137_000819_000781_003741_002457_007817_031209_020707_093007,
  1_008875_000001_000001_000007_000003_000005_000013_000023_000003_000365_000077_001117_003061_004707_003013_027899_010887_078677,
  1_008890_000001_000003_000001_000015_000001_000039_000085_000107_000483_000083_000603_003121_001995_005241_032319_009515_094551,
  1_008892_000001_000001_000007_000003_000027_000013_000105_000041_000285_000237_001589_000517_002009_010833_001459_026217_050759,
  1_008898_000001_000001_000003_000011_000027_000001_000127_000083_000355_000107_001003_000657_004997_004123_013151_056601_122307,
  1_008927_000001_000001_000001_000007_000013_000017_000093_000075_000481_000473_000131_001359_004859_001319_023919_050079_128849,
  1_008928_000001_000001_000003_000007_000009_000033_000111_000229_000011_000283_001089_003049_001635_000959_019109_062821_105391,
  1_008945_000001_000003_000001_000003_000009_000047_000049_000169_000343_000929_001379_001985_005867_006053_012179_039727_116053,
  1_008952_000001_000003_000003_000015_000027_000039_000061_000113_000439_000719_001313_003701_004793_010275_002943_032405_095457,
  1_008955_000001_000001_000001_000001_000027_000049_000121_000171_000319_000365_001593_001655_000063_006257_018097_035285_112245,
  1_008965_000001_000003_000001_000001_000019_000033_000089_000235_000281_000519_001867_000525_004475_012059_026611_014789_059541,
  1_008972_000001_000003_000001_000015_000001_000051_000065_000071_000131_000599_000117_002459_007421_007157_024393_048139_053701,
  1_008977_000001_000001_000007_000007_000001_000041_000057_000191_000207_000329_000043_001235_005671_012243_022549_040751_104513,
  1_008990_000001_000003_000005_000013_000015_000021_000055_000187_000283_000209_001511_001329_006665_015953_004521_016879_057625,
  1_008996_000001_000001_000005_000003_000003_000053_000075_000123_000291_000663_001893_003669_004903_008575_027971_046977_056357,
  1_009025_000001_000003_000001_000005_000027_000041_000019_000199_000489_000197_000439_003299_006315_006957_015809_035297_005559,
  1_009037_000001_000003_000005_000001_000003_000025_000109_000191_000033_000543_000125_002309_000429_014059_003149_045747_047357,
  1_009040_000001_000001_000003_000011_000015_000061_000109_000103_000305_000001_001479_002781_006521_008921_023681_009583_087257,
  1_009049_000001_000001_000007_000015_000005_000019_000121_000139_000177_000967_001363_000705_000211_011877_022457_034563_007801,
  1_009062_000001_000001_000007_000013_000009_000021_000103_000095_000483_000567_000005_002095_004659_002447_023521_027273_085867,
  1_009068_000001_000003_000005_000015_000023_000055_000013_000237_000275_000113_001431_002931_005165_005317_005625_051865_042177,
  1_009076_000001_000003_000003_000007_000001_000023_000015_000171_000303_000043_001137_001255_003843_009049_001799_007075_002115,
  1_009079_000001_000001_000007_000005_000023_000053_000075_000129_000001_000511_000793_000265_006535_009641_025173_009449_046949,
  1_009099_000001_000003_000003_000001_000019_000039_000051_000173_000005_000281_002047_004065_003225_014587_016947_001459_087227,
  1_009107_000001_000003_000007_000013_000013_000053_000039_000115_000403_000037_001533_002727_002229_008291_018687_059553_037629,
  1_009114_000001_000003_000001_000009_000003_000055_000063_000191_000147_000321_001287_002419_006881_002249_011141_054839_050263,
  1_009123_000001_000001_000005_000003_000009_000061_000085_000139_000001_000409_000633_000053_000163_014677_013043_012253_106939,
  1_009126_000001_000001_000007_000003_000019_000003_000007_000165_000497_000621_001563_001267_008113_002383_017205_013337_102547,
  1_009137_000001_000003_000003_000013_000015_000029_000023_000031_000481_000535_000471_002125_000331_009421_029799_027097_005307,
  1_009149_000001_000001_000001_000001_000031_000045_000047_000139_000235_000509_000889_000685_001855_013599_024431_062105_109509,
  1_009150_000001_000003_000001_000007_000003_000013_000025_000197_000111_000045_001815_001031_004803_000349_032369_040837_111529,
  1_009155_000001_000001_000007_000001_000027_000009_000003_000073_000403_000321_000967_002713_006953_016123_008611_048651_120635,
  1_009161_000001_000003_000005_000003_000003_000025_000069_000231_000249_000393_001141_001721_007071_003711_015627_021815_104735,
  1_009162_000001_000003_000001_000011_000019_000063_000077_000005_000055_000481_001021_000119_003941_001227_010997_029513_018923,
  1_009167_000001_000003_000007_000005_000001_000011_000013_000099_000365_000797_001993_000699_003091_011401_003659_015339_090395,
  1_009172_000001_000003_000005_000007_000031_000043_000055_000143_000273_000379_001189_001689_004811_005159_003281_063819_057065,
  1_009186_000001_000001_000001_000013_000009_000025_000009_000003_000461_000281_000959_002439_003187_004837_013857_020221_029733,
  1_009188_000001_000001_000007_000011_000031_000017_000013_000101_000081_000921_001329_002421_002747_009435_023313_007093_007547,
  1_009191_000001_000001_000003_000003_000009_000051_000067_000095_000511_001011_001519_004089_005001_001351_015367_050665_092111,
  1_009198_000001_000001_000005_000013_000027_000043_000115_000077_000439_000589_000031_000915_007027_000697_025143_001443_059093,
  1_009200_000001_000001_000007_000003_000017_000005_000107_000117_000133_000649_001309_002979_000969_009789_012597_024507_106825,
  1_009205_000001_000001_000007_000013_000001_000027_000097_000035_000431_000183_000199_002619_000515_000089_020281_030291_097977,
  1_009206_000001_000001_000007_000001_000031_000009_000035_000011_000359_000021_001875_003227_001307_015691_017343_021163_084671,
  1_009215_000001_000003_000001_000011_000029_000021_000047_000137_000441_000841_001641_003283_001371_008835_016287_045009_013779,
  1_009227_000001_000001_000003_000009_000023_000053_000001_000099_000473_000649_000447_002589_005667_015579_006497_044321_046993,
  1_009232_000001_000001_000007_000009_000031_000063_000095_000081_000197_000373_001027_003959_007189_013369_017287_053643_012673,
  1_009241_000001_000003_000001_000005_000025_000061_000079_000183_000489_000725_001077_001147_000113_007357_027505_000529_061855,
  1_009244_000001_000001_000007_000011_000019_000035_000073_000223_000125_000765_001303_002887_007861_014839_009537_027027_094327,
  1_009251_000001_000003_000001_000003_000017_000035_000063_000233_000317_000133_001837_003339_004351_010071_005005_013245_034327,
  1_009254_000001_000003_000001_000003_000017_000013_000059_000113_000247_001015_001831_003391_006337_006853_007145_064309_040109,
  1_009275_000001_000003_000005_000013_000015_000023_000065_000203_000241_000545_001521_001253_003171_007777_021145_000565_087813,
  1_009283_000001_000001_000005_000015_000031_000009_000009_000145_000409_000155_000409_002935_005817_011427_032617_038167_069465,
  1_009285_000001_000001_000005_000011_000019_000031_000043_000085_000097_000931_000687_001501_003991_002215_011091_064735_056999,
  1_009303_000001_000001_000001_000003_000007_000011_000101_000021_000345_000829_000531_001475_006617_001187_026885_032135_009733,
  1_009304_000001_000003_000005_000011_000007_000049_000079_000197_000057_000015_001845_001485_006167_010887_017083_059367_007411,
  1_009313_000001_000003_000007_000005_000009_000033_000007_000091_000311_000847_001435_003573_003693_005369_026817_030105_115337,
  1_009314_000001_000003_000001_000009_000025_000043_000065_000069_000225_000337_000575_001979_005555_008499_008127_033035_052549]

def dirRows17_0_11 : List Nat := [
  1_009320_000001_000001_000003_000011_000017_000029_000071_000099_000379_000145_001067_002561_007635_005647_032491_056621_093603,
  1_009328_000001_000001_000005_000013_000025_000043_000075_000237_000407_000393_001219_003651_007719_011685_026123_062767_001043,
  1_009333_000001_000001_000007_000015_000013_000059_000009_000163_000273_000225_000873_003201_000633_006121_018777_058763_077731,
  1_009337_000001_000003_000007_000007_000003_000007_000099_000155_000279_000991_000799_000753_007205_009567_023643_038263_019083,
  1_009338_000001_000003_000007_000011_000011_000029_000065_000003_000207_000575_000253_002407_007935_011323_023239_001923_047737,
  1_009340_000001_000001_000005_000009_000025_000047_000001_000025_000397_001009_000193_004031_003023_002029_010561_032363_104405,
  1_009353_000001_000003_000007_000009_000019_000055_000063_000179_000385_000097_000461_003393_008137_008929_017621_009611_058925,
  1_009356_000001_000001_000001_000007_000001_000017_000127_000045_000157_000529_000809_003545_005173_005083_013325_052295_091261,
  1_009364_000001_000001_000007_000009_000025_000049_000099_000079_000157_000535_001569_002195_001725_001187_018423_047957_010043,
  1_009373_000001_000001_000003_000007_000003_000031_000083_000045_000199_000665_001261_003497_007885_005761_017187_012041_012867,
  1_009374_000001_000003_000001_000007_000003_000055_000073_000215_000041_001011_001883_001051_007293_001881_027435_029459_130933,
  1_009378_000001_000001_000003_000009_000021_000031_000113_000209_000035_000771_000365_003151_000787_003845_026555_013823_036951,
  1_009380_000001_000003_000007_000015_000013_000021_000119_000091_000015_000251_001337_002715_001665_003451_008309_011033_127159,
  1_009389_000001_000003_000001_000009_000009_000063_000005_000145_000357_000009_000859_001565_001141_014689_025121_041337_083357,
  1_009395_000001_000001_000007_000011_000013_000063_000057_000151_000033_000595_002025_000571_004713_011019_026771_016221_092439,
  1_009412_000001_000003_000003_000015_000029_000049_000093_000131_000167_000835_000033_000263_000093_008475_016139_061237_095081,
  1_009422_000001_000001_000007_000013_000001_000057_000043_000091_000485_000841_001415_003083_002665_008521_009825_059955_021763,
  1_009439_000001_000001_000001_000001_000029_000047_000063_000107_000439_000847_000537_002011_007571_003699_023961_054887_092681,
  1_009450_000001_000003_000007_000005_000027_000041_000105_000161_000095_000821_000451_002627_004687_001899_018851_035167_006869,
  1_009452_000001_000001_000001_000011_000007_000007_000013_000163_000399_000471_001587_002561_001241_005365_027189_049883_068101,
  1_009482_000001_000003_000007_000009_000019_000005_000119_000251_000151_000359_000235_002387_003919_007135_017591_001053_006265,
  1_009487_000001_000001_000005_000009_000013_000025_000043_000023_000453_000693_000517_001235_001045_004299_027877_003733_072269,
  1_009489_000001_000001_000007_000001_000027_000043_000103_000249_000487_000067_000855_003239_002157_008121_004701_037803_049971,
  1_009499_000001_000001_000003_000013_000001_000037_000125_000115_000365_000057_001419_004085_007039_010079_014991_048861_061979,
  1_009501_000001_000001_000005_000005_000003_000035_000109_000019_000219_000653_001219_001625_006847_011271_004525_056341_057801,
  1_009508_000001_000003_000007_000005_000031_000019_000037_000073_000185_000013_001723_001139_005919_011717_027161_013635_051765,
  1_009515_000001_000001_000001_000001_000019_000061_000053_000111_000215_000189_001199_000591_000943_002111_017171_015621_128459,
  1_009518_000001_000001_000007_000009_000017_000061_000101_000159_000085_000537_000015_001427_006139_004091_032639_028655_115385,
  1_009520_000001_000001_000007_000005_000023_000031_000125_000007_000151_000967_001079_004059_003287_011673_019307_049469_065981,
  1_009526_000001_000003_000003_000001_000029_000059_000095_000119_000031_000427_001653_000721_005509_006385_017043_045133_074155,
  1_009537_000001_000001_000003_000009_000013_000061_000035_000189_000001_000559_000119_003719_004137_001369_019147_010923_043909,
  1_009552_000001_000003_000003_000013_000001_000041_000031_000185_000451_000379_000029_000153_004121_013153_004171_036993_109241,
  1_009571_000001_000001_000001_000009_000015_000041_000099_000017_000021_000093_000649_002765_006955_010843_012547_064989_063713,
  1_009588_000001_000001_000007_000005_000005_000005_000073_000187_000473_000235_001907_000409_007335_004429_007493_020703_014505,
  1_009613_000001_000001_000003_000011_000027_000059_000017_000103_000337_000117_001241_000951_003701_010407_016741_046531_056485,
  1_009619_000001_000001_000003_000015_000011_000051_000111_000189_000137_000939_000097_001563_000851_013949_001375_041463_061445,
  1_009622_000001_000001_000007_000009_000019_000039_000117_000173_000165_000547_000483_000361_006819_015093_013631_029785_029593,
  1_009637_000001_000003_000003_000005_000015_000039_000041_000249_000455_000079_000233_003133_000405_009487_023161_032751_117743,
  1_009652_000001_000001_000005_000015_000007_000063_000007_000057_000127_000349_001913_001145_003371_003733_030971_035717_060935,
  1_009655_000001_000001_000007_000011_000007_000057_000049_000063_000051_000233_000855_002125_006961_015011_028503_040549_047175,
  1_009661_000001_000003_000007_000001_000025_000049_000035_000039_000237_000545_001637_001401_003279_010499_014463_034973_029485,
  1_009664_000001_000003_000003_000013_000007_000013_000079_000141_000055_000277_000843_003087_002339_006855_010635_013021_011273,
  1_009669_000001_000003_000001_000001_000011_000039_000051_000255_000119_000691_000559_003287_005485_000791_019283_051027_008061,
  1_009681_000001_000003_000007_000007_000003_000059_000119_000241_000185_000081_001843_002313_007471_015689_002271_059781_107439,
  1_009682_000001_000003_000003_000003_000017_000063_000093_000217_000329_000039_000583_003031_004315_004623_012557_042063_011877,
  1_009688_000001_000001_000001_000001_000015_000057_000037_000233_000387_000639_000037_000425_000637_001577_016449_033665_080417,
  1_009697_000001_000001_000001_000015_000025_000001_000067_000159_000423_000961_000959_000417_005657_008417_008127_029251_105893,
  1_009700_000001_000003_000005_000015_000031_000009_000087_000217_000259_000771_001663_002899_001531_007849_001961_061487_055399,
  1_009715_000001_000001_000003_000009_000021_000013_000039_000107_000089_000811_000449_002569_004617_008977_001649_037721_048943,
  1_009722_000001_000003_000007_000015_000015_000059_000063_000195_000287_000677_000269_001715_003545_003269_005231_046433_025921,
  1_009727_000001_000001_000005_000007_000019_000027_000057_000221_000243_000047_001791_002309_002751_004403_007083_034223_064905,
  1_009734_000001_000001_000001_000015_000001_000063_000119_000155_000383_000649_000429_003857_007309_009823_009539_008933_128573,
  1_009740_000001_000003_000007_000011_000017_000019_000099_000019_000321_000415_001501_002123_006119_009705_011397_039521_034327,
  1_009743_000001_000001_000005_000015_000029_000037_000009_000095_000417_000019_001637_002949_004961_010743_009619_016045_048083,
  1_009745_000001_000001_000001_000011_000021_000017_000057_000023_000247_000201_001781_000779_002207_002511_004829_013847_077593,
  1_009757_000001_000003_000001_000013_000007_000001_000095_000087_000223_000073_001129_000383_001355_004965_029645_063465_076281,
  1_009761_000001_000003_000003_000013_000003_000047_000033_000123_000155_000621_001019_001817_004083_004723_024701_047503_018007,
  1_009762_000001_000001_000007_000015_000013_000041_000073_000093_000379_000923_001183_002475_005901_010599_010053_009941_112107,
  1_009767_000001_000001_000003_000003_000013_000035_000059_000231_000045_001011_001101_002467_002703_010305_012575_007587_025737,
  1_009768_000001_000003_000007_000001_000021_000031_000009_000055_000373_000779_000397_001551_005139_016339_001769_010413_074059,
  1_009774_000001_000001_000007_000015_000007_000003_000067_000179_000411_000217_001219_000013_001577_013463_012263_041465_083001,
  1_009786_000001_000003_000007_000001_000021_000053_000007_000187_000395_000777_000391_000737_000047_012681_016749_026507_049415,
  1_009796_000001_000001_000005_000007_000005_000057_000093_000053_000419_000731_000825_000487_000045_009199_020947_056067_045343,
  1_009820_000001_000003_000003_000009_000031_000041_000035_000133_000063_000293_001503_000051_003111_015711_015051_001965_064951,
  1_009823_000001_000001_000005_000009_000009_000047_000053_000229_000405_000621_001795_001923_006609_006983_001695_018021_071893,
  1_009839_000001_000001_000005_000009_000023_000013_000107_000013_000149_000759_001113_001329_001747_014159_016705_061841_082955,
  1_009844_000001_000003_000003_000009_000025_000049_000031_000145_000481_000609_001847_001485_006345_007859_021231_037303_069975,
  1_009851_000001_000003_000001_000015_000013_000049_000059_000221_000027_000517_000431_003961_006401_008483_010161_037453_128237,
  1_009853_000001_000001_000003_000001_000003_000055_000037_000111_000263_000735_000655_002831_002219_009449_008413_049585_091355,
  1_009863_000001_000003_000007_000001_000031_000033_000007_000055_000261_000977_001215_001967_007297_014815_027009_035001_089671,
  1_009864_000001_000001_000007_000011_000013_000021_000033_000151_000195_000373_000181_001631_000355_007857_012555_007531_050417,
  1_009877_000001_000003_000001_000015_000019_000025_000079_000195_000237_000385_001531_002509_004371_016103_003575_062265_124251,
  1_009884_000001_000003_000001_000011_000005_000061_000021_000159_000051_000037_000845_003075_008039_014269_010505_036369_073793,
  1_009888_000001_000003_000005_000009_000011_000043_000067_000057_000271_000451_000989_003705_002481_010717_010861_063785_010183,
  1_009897_000001_000003_000003_000005_000013_000029_000119_000171_000439_000459_000479_003173_003781_011131_006827_053925_119939,
  1_009915_000001_000003_000007_000003_000027_000021_000001_000167_000079_000305_001283_001903_005483_005727_017911_016075_097629,
  1_009925_000001_000003_000001_000003_000023_000021_000029_000185_000227_000295_000915_002033_006269_002089_020785_015207_115675,
  1_009949_000001_000003_000007_000015_000011_000015_000065_000103_000249_000027_001805_002079_004797_002535_016865_061449_090923,
  1_009954_000001_000003_000007_000009_000027_000041_000077_000181_000457_000677_000633_001601_008085_002431_007957_055913_038677,
  1_009960_000001_000001_000005_000007_000011_000037_000003_000221_000079_000895_001023_000653_003925_012755_019729_018221_091123,
  1_009965_000001_000003_000001_000005_000023_000061_000119_000191_000425_000041_000853_003497_006915_001927_005513_055303_004895,
  1_009978_000001_000003_000005_000003_000007_000035_000047_000243_000167_000821_000267_002149_005797_006329_032495_051037_018313,
  1_009986_000001_000001_000007_000009_000023_000029_000079_000205_000115_000839_001217_000479_001601_009681_000001_035293_028731,
  1_009992_000001_000003_000003_000005_000031_000017_000031_000161_000035_000953_000377_000451_007985_011371_015115_060131_027033,
  1_009995_000001_000001_000003_000009_000015_000019_000043_000215_000327_000429_000145_001837_000725_014775_010465_007367_021271,
  1_010005_000001_000003_000007_000013_000031_000017_000085_000049_000487_000795_001679_000599_003783_003195_002683_053475_038603,
  1_010026_000001_000001_000001_000007_000019_000011_000071_000143_000443_000199_001117_003445_006429_012037_013751_043609_101563,
  1_010031_000001_000003_000005_000007_000029_000063_000065_000087_000305_000721_000851_002235_004987_003051_023015_001281_015755,
  1_010040_000001_000001_000003_000009_000017_000003_000057_000047_000223_000305_001409_000235_004379_005779_027695_022535_009387,
  1_010051_000001_000001_000003_000011_000025_000033_000075_000141_000155_000699_000085_001729_002551_007101_007739_018025_100819,
  1_010057_000001_000003_000003_000013_000005_000045_000063_000083_000141_000383_001931_003343_007397_004823_028893_041279_067805,
  1_010072_000001_000003_000005_000007_000019_000029_000097_000067_000177_000583_001783_004007_005087_000805_030999_023197_117553,
  1_010096_000001_000003_000005_000001_000025_000041_000033_000109_000511_000449_000653_000995_005881_002163_013689_054385_097419,
  1_010102_000001_000003_000003_000013_000025_000017_000049_000077_000497_000659_000783_003513_003735_003541_000573_050237_099247,
  1_010105_000001_000003_000001_000007_000017_000013_000037_000169_000019_000965_000289_000455_006855_011233_007553_007007_057389,
  1_010115_000001_000001_000007_000011_000005_000015_000011_000177_000075_000243_000453_003861_003091_004625_012489_011537_074199,
  1_010124_000001_000001_000005_000013_000017_000021_000023_000057_000343_000985_001755_003947_003899_011847_019321_062295_051265,
  1_010139_000001_000001_000003_000009_000019_000037_000031_000243_000433_000725_000535_003733_000033_007885_001425_041919_066507,
  1_010145_000001_000003_000005_000011_000015_000011_000025_000255_000093_000033_000071_002389_001855_000317_012773_013311_081927,
  1_010148_000001_000003_000001_000003_000007_000055_000021_000175_000357_000235_001679_000931_002051_014213_020539_038049_122513]

def dirRows17_0_12 : List Nat := [
  1_010157_000001_000001_000005_000015_000005_000051_000127_000079_000297_000135_001423_002783_007229_014451_027619_007299_049189,
  1_010158_000001_000001_000001_000003_000005_000013_000009_000209_000455_000483_001745_000323_000789_007645_026373_061659_023671,
  1_010163_000001_000001_000001_000009_000023_000063_000099_000091_000377_000275_000275_003005_001563_005945_023825_033211_052753,
  1_010180_000001_000001_000001_000001_000031_000055_000031_000109_000481_000581_000771_000197_006155_003465_008451_025925_041159,
  1_010187_000001_000003_000007_000013_000005_000033_000113_000161_000265_000493_001723_000513_005111_010177_021755_005321_058831,
  1_010198_000001_000001_000007_000001_000021_000033_000117_000183_000089_000689_001253_002215_006565_003079_016343_022427_096447,
  1_010208_000001_000001_000001_000005_000015_000061_000005_000139_000111_000463_000573_001907_004615_014975_005715_051017_069827,
  1_010214_000001_000001_000001_000013_000003_000003_000117_000249_000025_000361_001177_002901_001601_011381_018981_044811_047117,
  1_010220_000001_000001_000005_000003_000029_000005_000049_000221_000247_000057_000553_001889_000479_015581_007035_007293_053065,
  1_010237_000001_000003_000003_000003_000015_000049_000091_000187_000213_000981_001417_000211_003719_013693_017671_016691_057147,
  1_010238_000001_000001_000007_000009_000007_000017_000109_000185_000459_000769_001783_000899_000885_002291_030023_026315_007337,
  1_010241_000001_000001_000005_000011_000011_000031_000073_000191_000095_000025_001953_001387_001077_007547_009661_057739_076799,
  1_010244_000001_000001_000007_000013_000023_000041_000069_000177_000407_000699_001055_003653_001239_008113_012823_001803_117815,
  1_010251_000001_000001_000001_000015_000001_000055_000071_000133_000401_000593_000605_002855_004569_003533_014141_065457_125655,
  1_010253_000001_000001_000007_000009_000031_000055_000053_000011_000065_000017_000561_000925_001561_008929_019859_057111_012777,
  1_010256_000001_000003_000003_000011_000007_000059_000125_000205_000473_000655_001429_000337_006829_007551_027873_011667_039231,
  1_010259_000001_000003_000003_000009_000013_000023_000025_000161_000443_000545_001967_001895_006929_005975_017801_041769_030429,
  1_010266_000001_000003_000007_000013_000015_000001_000099_000043_000045_000451_000021_000639_007121_004781_002813_000419_017761,
  1_010284_000001_000001_000005_000013_000011_000009_000053_000083_000443_000441_001601_003177_001913_012211_025835_001733_004793,
  1_010290_000001_000003_000003_000001_000013_000015_000011_000187_000471_000699_001751_003279_002305_015259_031541_021357_073763,
  1_010331_000001_000003_000005_000009_000023_000011_000125_000057_000261_000479_000879_000719_003221_002943_010593_011521_083979,
  1_010334_000001_000003_000007_000013_000003_000039_000119_000135_000085_000417_001675_000971_007577_012709_020407_026105_097021,
  1_010350_000001_000001_000005_000011_000015_000063_000083_000141_000281_000663_001745_002775_005605_009127_000553_007177_115969,
  1_010355_000001_000001_000007_000001_000019_000047_000007_000165_000087_000095_000361_001879_006351_002861_009103_037489_024525,
  1_010357_000001_000003_000003_000011_000009_000021_000051_000149_000375_000967_001583_001427_001223_011611_007481_036619_128429,
  1_010367_000001_000001_000005_000001_000003_000031_000007_000217_000453_000565_001517_002847_006937_001197_024339_044311_066843,
  1_010368_000001_000001_000005_000003_000003_000017_000127_000059_000003_000905_000531_001179_003559_005175_024627_060941_129457,
  1_010377_000001_000001_000001_000007_000015_000015_000001_000031_000373_000643_000279_003831_004881_009763_017641_043219_083109,
  1_010388_000001_000003_000003_000009_000005_000021_000041_000071_000371_000201_000573_001481_003631_010783_006679_001089_117347,
  1_010407_000001_000001_000007_000007_000005_000025_000073_000063_000173_000197_000147_000981_001491_001597_011733_014285_074021,
  1_010421_000001_000001_000005_000011_000017_000015_000003_000175_000391_000503_001745_000319_000791_005607_018173_037319_092025,
  1_010434_000001_000003_000001_000001_000009_000037_000043_000081_000439_000951_000805_000251_004625_015617_013715_062263_003827,
  1_010439_000001_000003_000001_000001_000025_000021_000067_000191_000499_000205_001355_000105_001637_000563_022291_009045_006545,
  1_010440_000001_000001_000005_000005_000009_000003_000075_000075_000287_000303_001767_001789_003437_004637_009605_002537_064935,
  1_010443_000001_000001_000003_000003_000001_000051_000027_000155_000375_000149_000885_000187_001551_013109_027011_057301_041047,
  1_010446_000001_000001_000007_000005_000021_000023_000001_000081_000163_000231_002039_001519_001279_015379_025549_006711_081499,
  1_010457_000001_000001_000003_000005_000003_000037_000071_000243_000165_000365_000379_000351_004649_004287_013395_030329_078383,
  1_010469_000001_000003_000001_000001_000025_000063_000027_000215_000223_000699_002029_003737_005947_007287_020813_004931_019345,
  1_010476_000001_000001_000003_000015_000021_000007_000025_000187_000219_000053_001749_001797_003533_014307_000053_011095_075469,
  1_010479_000001_000001_000003_000013_000027_000031_000091_000121_000481_000291_000915_000535_004291_005271_012181_055921_125917,
  1_010481_000001_000003_000001_000001_000003_000029_000021_000251_000361_000747_000997_002989_001809_007235_017855_031027_100689,
  1_010494_000001_000003_000007_000001_000021_000013_000049_000093_000183_000673_000881_001931_007009_002565_026021_053815_019807,
  1_010501_000001_000001_000007_000013_000009_000023_000047_000237_000487_000843_001357_000919_001753_000903_002911_031527_073027,
  1_010505_000001_000001_000001_000001_000025_000033_000097_000241_000421_000375_000073_002541_006231_014659_015335_005915_110791,
  1_010516_000001_000003_000003_000007_000021_000017_000097_000125_000007_000271_000167_000475_004887_001847_030173_025913_036659,
  1_010532_000001_000001_000003_000015_000015_000037_000067_000005_000463_000423_000823_000941_001551_014175_015377_006017_118297,
  1_010541_000001_000001_000001_000007_000031_000051_000071_000127_000073_000517_000881_003205_006219_011213_014783_064275_070033,
  1_010547_000001_000003_000001_000005_000017_000017_000057_000107_000359_000999_001415_000757_004743_007775_014111_020075_073269,
  1_010550_000001_000003_000005_000003_000021_000057_000087_000043_000307_000777_000717_003329_004159_012545_031355_031329_041377,
  1_010591_000001_000003_000007_000015_000025_000043_000019_000147_000487_000517_000977_003625_002311_014173_015167_056563_110417,
  1_010597_000001_000003_000003_000011_000023_000001_000067_000157_000461_000169_000231_001977_005657_000865_000711_024213_076895,
  1_010602_000001_000001_000007_000013_000005_000037_000051_000165_000331_000097_000431_003819_001379_012083_027521_019689_100119,
  1_010610_000001_000001_000007_000015_000029_000021_000059_000193_000397_000467_000951_003037_002955_013235_020981_063865_030069,
  1_010619_000001_000003_000003_000005_000007_000049_000041_000143_000319_000071_000353_002159_003043_015317_024095_012017_064393,
  1_010631_000001_000001_000005_000013_000025_000045_000057_000153_000311_000805_000953_001763_005655_003961_012085_058761_076533,
  1_010646_000001_000001_000003_000015_000029_000019_000071_000107_000203_000221_001173_001597_001179_009649_021659_010463_008195,
  1_010655_000001_000001_000003_000009_000031_000029_000053_000151_000247_000577_000543_000459_008141_005613_012029_024199_118603,
  1_010665_000001_000003_000001_000005_000001_000055_000103_000023_000405_000005_000181_003805_001103_013389_006725_048733_099639,
  1_010673_000001_000001_000005_000009_000001_000047_000115_000231_000151_000885_000427_002849_000361_012969_000705_041711_053587,
  1_010674_000001_000001_000003_000011_000009_000003_000011_000231_000077_000775_000657_002721_003431_011919_010425_029405_091561,
  1_010680_000001_000001_000001_000005_000005_000007_000079_000041_000181_000333_000963_003117_007703_002259_016671_051139_027997,
  1_010693_000001_000003_000007_000007_000013_000055_000059_000157_000377_000711_001475_001509_001375_006825_013729_028613_109199,
  1_010700_000001_000003_000003_000003_000013_000011_000051_000001_000067_000609_000467_002161_007693_009019_001847_027969_074863,
  1_010721_000001_000001_000003_000003_000011_000033_000087_000217_000239_000505_001451_002801_001417_000695_029883_015877_099969,
  1_010727_000001_000003_000003_000005_000003_000061_000009_000171_000057_000547_002003_002335_002259_003205_005639_021721_025893,
  1_010746_000001_000003_000001_000003_000019_000015_000083_000069_000047_000897_000627_002839_007123_008567_014707_013159_125139,
  1_010748_000001_000003_000007_000011_000001_000059_000053_000033_000135_001009_001829_003011_001245_000421_028909_045517_055071,
  1_010757_000001_000001_000005_000009_000003_000027_000011_000243_000235_000683_001329_003145_002141_014027_003707_005933_051965,
  1_010761_000001_000001_000005_000007_000013_000063_000079_000105_000027_000195_001657_003107_001245_001681_029619_010589_078197,
  1_010770_000001_000003_000003_000007_000021_000001_000005_000079_000073_000125_001587_003053_005977_010745_028343_039023_056201,
  1_010776_000001_000001_000003_000015_000023_000021_000039_000041_000173_000913_001267_001323_002967_001979_016763_053753_021905,
  1_010782_000001_000001_000005_000007_000011_000011_000117_000151_000409_000345_001461_001703_000687_000557_031651_035507_054909,
  1_010791_000001_000001_000001_000015_000015_000049_000055_000223_000289_000765_001737_001117_003717_015465_031949_055061_097091,
  1_010792_000001_000001_000005_000009_000021_000029_000099_000013_000119_000035_001461_000061_005155_006785_015957_011295_052203,
  1_010805_000001_000003_000005_000007_000023_000039_000073_000161_000465_000715_000153_003529_002243_013773_016573_026233_130263,
  1_010810_000001_000003_000007_000009_000011_000051_000005_000149_000501_000119_002047_003417_003955_015055_031633_000473_127305,
  1_010832_000001_000001_000001_000009_000031_000057_000091_000119_000215_000011_001013_003969_001285_011521_008039_036737_086365,
  1_010835_000001_000001_000005_000003_000007_000017_000009_000027_000059_000883_000541_003027_006219_001091_002453_038247_021323,
  1_010841_000001_000001_000001_000001_000025_000039_000055_000249_000061_000313_000467_001763_004067_008367_032431_044463_066439,
  1_010842_000001_000003_000003_000001_000013_000003_000037_000209_000021_000653_001971_003649_006165_003789_012793_056327_060351,
  1_010847_000001_000001_000007_000009_000031_000033_000021_000051_000313_000631_000515_001761_004149_002601_012481_025975_094061,
  1_010853_000001_000001_000007_000015_000003_000007_000055_000129_000297_000735_000779_000633_003265_011713_003893_061197_113991,
  1_010860_000001_000003_000005_000013_000001_000015_000027_000253_000435_000595_001163_002753_007399_015225_026215_059753_074933,
  1_010871_000001_000001_000007_000007_000015_000023_000111_000043_000467_000957_001687_002893_002315_002025_001475_009061_101611,
  1_010878_000001_000001_000003_000003_000029_000041_000053_000169_000125_000415_000361_000869_003399_008821_018193_038575_073979,
  1_010881_000001_000001_000001_000015_000003_000005_000027_000005_000293_000765_001809_001961_000955_012441_010915_002363_049617,
  1_010888_000001_000001_000005_000015_000019_000011_000003_000091_000059_000323_000545_001177_007967_002729_014085_003283_079859,
  1_010894_000001_000001_000007_000013_000011_000017_000029_000163_000295_000951_000311_003471_001339_010719_000701_032377_041685,
  1_010901_000001_000003_000005_000007_000021_000019_000081_000247_000495_000767_000251_003455_006383_007221_019943_064865_033193,
  1_010915_000001_000001_000007_000015_000023_000041_000063_000195_000311_000619_000211_000743_000889_007627_012527_015865_040103,
  1_010918_000001_000001_000003_000001_000023_000023_000057_000221_000153_000027_000939_003949_000411_006357_031985_000939_091001,
  1_010922_000001_000003_000005_000015_000007_000005_000035_000135_000245_000921_000307_000823_000775_004891_024575_053503_048147,
  1_010936_000001_000001_000005_000007_000009_000031_000023_000139_000477_000495_000287_000807_001855_008321_013963_052197_078509,
  1_010954_000001_000003_000003_000003_000029_000059_000033_000083_000211_000065_000623_001269_001745_016383_010759_057199_014035,
  1_010968_000001_000003_000003_000015_000025_000055_000069_000171_000411_000937_000731_002275_002597_004133_005089_050507_039989,
  1_010971_000001_000003_000001_000009_000005_000047_000051_000021_000171_000913_000233_000043_002673_000471_027077_057039_032579,
  1_010973_000001_000003_000005_000003_000029_000035_000005_000105_000233_000379_000077_001775_002409_004597_019879_012691_049739,
  1_010978_000001_000003_000007_000013_000017_000029_000117_000177_000163_000927_000045_003227_007263_005551_009219_032101_122473,
  1_010998_000001_000001_000007_000005_000031_000039_000075_000147_000311_000991_001431_003821_006891_009637_017887_000661_023067,
  1_011009_000001_000003_000005_000013_000031_000053_000069_000079_000153_000329_000207_000479_002395_006505_029553_052023_031531]

def dirRows17_0_13 : List Nat := [
  1_011021_000001_000003_000001_000007_000015_000007_000087_000233_000025_000275_000981_001207_003083_016349_030185_060611_120607,
  1_011029_000001_000001_000005_000003_000021_000007_000047_000173_000291_000965_000065_000545_007465_004471_002249_034281_107217,
  1_011030_000001_000001_000003_000011_000019_000053_000017_000243_000193_000297_001937_001513_004979_014867_015497_010049_009135,
  1_011034_000001_000003_000001_000003_000025_000039_000029_000063_000231_000145_000247_001745_003439_008635_026687_018595_067123,
  1_011050_000001_000001_000007_000009_000029_000033_000089_000175_000429_000675_000891_001739_003567_005453_030427_033671_083395,
  1_011063_000001_000003_000001_000005_000031_000025_000069_000237_000235_000307_001217_003805_000153_013387_006209_014179_128725,
  1_011064_000001_000001_000003_000003_000019_000045_000117_000135_000067_000601_000369_003369_005505_002049_024099_022515_096575,
  1_011077_000001_000001_000001_000003_000003_000045_000029_000255_000327_000077_001103_004067_002875_006487_005903_026625_019631,
  1_011078_000001_000003_000005_000001_000031_000063_000115_000007_000255_000855_000913_001779_007001_014387_026765_051987_003191,
  1_011105_000001_000001_000003_000011_000015_000043_000071_000247_000303_000231_000445_003963_003699_011851_018941_043465_063431,
  1_011106_000001_000001_000003_000005_000031_000033_000093_000127_000267_000399_000653_001997_005005_014535_004813_064065_002159,
  1_011126_000001_000003_000007_000013_000031_000039_000061_000155_000141_000515_001217_000161_004309_003697_022445_043599_043329,
  1_011129_000001_000003_000003_000003_000007_000051_000103_000147_000511_000971_000195_003731_006629_012125_012053_034951_060059,
  1_011135_000001_000001_000005_000011_000021_000049_000099_000031_000055_000309_001805_002253_007095_015265_028445_054813_048615,
  1_011151_000001_000003_000001_000015_000009_000041_000061_000125_000065_000143_001567_003259_006757_000653_031601_063127_052179,
  1_011159_000001_000001_000005_000003_000029_000005_000019_000197_000153_000447_000007_001713_000469_006043_001259_063641_029171,
  1_011165_000001_000003_000003_000007_000003_000041_000095_000245_000445_000015_000607_000565_002361_002673_021077_020153_006199,
  1_011176_000001_000001_000005_000001_000005_000059_000093_000127_000485_000663_000683_000635_001599_016377_031819_006539_027789,
  1_011179_000001_000003_000001_000003_000031_000003_000011_000215_000441_001005_001815_003945_005109_005539_023935_062671_090731,
  1_011182_000001_000003_000003_000001_000013_000047_000019_000229_000191_000427_001141_002321_007105_001587_026347_063265_023377,
  1_011189_000001_000001_000005_000015_000031_000055_000061_000093_000089_000945_001203_003631_004457_015097_032019_041747_046009,
  1_011204_000001_000001_000005_000013_000005_000033_000069_000059_000093_000247_000503_000421_001923_009855_009825_014257_098663,
  1_011216_000001_000003_000001_000013_000027_000021_000091_000039_000131_000571_001527_002715_002061_000627_019705_047165_084345,
  1_011232_000001_000001_000001_000007_000003_000003_000007_000251_000225_000959_001017_002423_006163_001549_007473_003193_104259,
  1_011235_000001_000003_000003_000001_000005_000005_000115_000221_000505_000649_001525_002459_000167_001899_023939_029253_122835,
  1_011242_000001_000003_000001_000005_000015_000009_000123_000221_000133_000043_000031_001211_004737_005001_020065_006369_093865,
  1_011250_000001_000001_000005_000011_000011_000005_000023_000029_000333_000133_001469_001895_005879_015599_002131_025005_096271,
  1_011264_000001_000001_000003_000011_000025_000011_000019_000057_000397_000645_001233_002433_006371_010577_015489_060709_003957,
  1_011273_000001_000003_000001_000001_000019_000003_000033_000131_000429_000835_001363_002213_003185_014385_008831_043159_032975,
  1_011282_000001_000001_000005_000005_000023_000011_000127_000139_000213_000259_000897_001913_005737_001287_026617_004885_030193,
  1_011288_000001_000003_000005_000013_000003_000027_000099_000031_000011_000027_001003_002473_007055_012923_004269_041433_090637,
  1_011291_000001_000003_000001_000007_000017_000025_000095_000151_000199_000237_000207_001879_002943_009845_003765_053533_111191,
  1_011293_000001_000003_000001_000009_000019_000027_000005_000249_000085_000185_001883_001401_002041_012721_020593_030993_002601,
  1_011318_000001_000003_000003_000009_000023_000001_000015_000133_000387_000779_000707_002723_004485_000989_027125_037295_125319,
  1_011321_000001_000001_000007_000003_000009_000041_000081_000151_000349_000941_000357_003817_007123_010079_027519_000107_102281,
  1_011329_000001_000001_000001_000001_000013_000005_000111_000167_000073_000085_001185_001213_000333_000153_013101_038087_039389,
  1_011336_000001_000003_000003_000015_000011_000041_000099_000231_000377_000539_001335_001059_005373_009611_027927_029801_085749,
  1_011339_000001_000003_000001_000009_000019_000037_000125_000027_000015_000699_001867_002711_001589_001675_032007_061339_096919,
  1_011342_000001_000003_000003_000003_000003_000027_000021_000159_000249_000783_001517_002923_002609_001207_013705_057371_043603,
  1_011356_000001_000001_000005_000015_000017_000055_000077_000001_000401_000897_000987_000345_005283_005827_017755_044371_013253,
  1_011383_000001_000003_000001_000007_000003_000003_000099_000237_000487_000405_000771_003503_001199_004779_026893_045821_046383,
  1_011389_000001_000001_000007_000003_000009_000047_000081_000027_000459_000989_001891_003997_004081_004075_015079_065081_125185,
  1_011405_000001_000003_000005_000009_000025_000023_000071_000251_000251_000197_000353_003553_002165_002953_003733_052369_100641,
  1_011411_000001_000001_000001_000005_000025_000043_000063_000187_000495_000345_001547_002293_007327_007797_014001_061865_040329,
  1_011423_000001_000001_000005_000015_000025_000037_000067_000023_000315_000801_000071_001235_007293_007207_030929_009417_094735,
  1_011424_000001_000001_000001_000003_000023_000029_000087_000171_000337_000457_001597_003933_004151_001237_019563_056997_081497,
  1_011430_000001_000003_000003_000011_000003_000033_000079_000239_000277_000611_000205_002283_007459_000425_021999_026491_058681,
  1_011444_000001_000001_000007_000001_000005_000037_000053_000093_000205_000097_000779_003623_007777_000521_021915_046539_128811,
  1_011447_000001_000001_000005_000007_000019_000007_000039_000183_000299_000193_001351_003867_005709_011655_001231_015555_128023,
  1_011459_000001_000003_000007_000011_000031_000013_000113_000057_000197_000841_000921_002087_002195_008279_008353_001955_022121,
  1_011465_000001_000003_000003_000011_000021_000055_000061_000105_000357_000747_000363_003511_002547_016283_025747_056041_033695,
  1_011473_000001_000003_000003_000013_000027_000013_000005_000027_000093_000691_001869_002331_003131_014411_002355_037195_129273,
  1_011479_000001_000003_000003_000007_000027_000009_000011_000165_000435_000811_000215_001617_000347_004289_029373_015749_091445,
  1_011501_000001_000001_000007_000013_000029_000003_000095_000053_000457_000633_000959_003705_007461_009307_021963_051599_006751,
  1_011510_000001_000001_000001_000015_000029_000025_000095_000001_000125_000061_000683_002067_006485_009095_005571_061281_070865,
  1_011514_000001_000001_000007_000007_000001_000035_000119_000107_000247_000991_000237_001865_003961_012583_011417_014913_090897,
  1_011522_000001_000003_000007_000015_000011_000051_000073_000193_000289_000381_001767_003803_003197_003797_015059_019393_098947,
  1_011527_000001_000001_000005_000003_000013_000007_000091_000223_000347_000059_001721_001501_006391_004141_014495_047283_047237,
  1_011533_000001_000003_000007_000011_000017_000039_000043_000247_000035_000423_001859_003199_005343_007061_008609_006819_088575,
  1_011536_000001_000001_000005_000013_000031_000027_000057_000019_000499_001007_001965_000795_001231_012755_024631_053343_082305,
  1_011548_000001_000001_000001_000009_000013_000023_000127_000161_000245_000467_002025_002545_003085_013035_027087_014461_035971,
  1_011551_000001_000003_000005_000001_000007_000003_000099_000159_000075_000341_001755_002337_005981_005055_019445_030043_061427,
  1_011552_000001_000001_000001_000007_000013_000033_000041_000073_000267_000021_000961_003509_006839_013215_008471_046735_093071,
  1_011555_000001_000003_000007_000007_000003_000025_000081_000239_000357_000445_001483_000389_003891_005131_021357_034757_111063,
  1_011572_000001_000003_000007_000001_000001_000037_000119_000121_000195_000935_001711_002049_007001_007117_009957_007309_102293,
  1_011587_000001_000001_000007_000011_000001_000049_000107_000095_000149_000329_000289_001121_007217_015091_019071_013801_000013,
  1_011601_000001_000001_000001_000013_000017_000017_000007_000105_000081_001017_001867_001567_005133_007325_019797_016301_040471,
  1_011613_000001_000003_000005_000005_000027_000045_000117_000135_000499_000053_000973_000121_000053_008771_011893_035827_057691,
  1_011614_000001_000001_000001_000001_000007_000023_000011_000163_000017_000871_000129_002959_005583_012253_001419_028367_032539,
  1_011618_000001_000001_000003_000005_000023_000031_000127_000033_000115_000799_000331_001873_001729_001383_023601_051145_072027,
  1_011624_000001_000001_000001_000009_000015_000049_000105_000163_000051_000539_000451_003983_006509_001073_030757_013971_051371,
  1_011630_000001_000001_000007_000001_000001_000057_000071_000135_000005_000171_000983_000951_000777_009257_003607_003239_076237,
  1_011663_000001_000001_000007_000007_000021_000017_000049_000175_000009_000807_000289_002777_007309_014911_028349_043871_096019,
  1_011682_000001_000003_000001_000013_000005_000007_000083_000215_000297_000319_000347_000633_007285_008293_018811_031065_114077,
  1_011684_000001_000003_000001_000011_000003_000029_000091_000231_000161_000601_000355_002719_002941_006065_021849_058051_046515,
  1_011702_000001_000001_000003_000009_000025_000041_000111_000135_000071_000755_000029_000131_001339_005053_015713_014557_106777,
  1_011705_000001_000001_000007_000013_000021_000059_000013_000045_000503_000071_001611_004021_002359_011653_007261_014537_033031,
  1_011713_000001_000001_000001_000011_000005_000031_000001_000181_000037_000527_001345_001979_004899_003289_025181_049959_044609,
  1_011731_000001_000003_000003_000013_000021_000025_000033_000105_000057_000637_000841_001595_003881_005053_009441_058717_127255,
  1_011734_000001_000003_000005_000007_000023_000057_000009_000117_000281_000769_001573_002857_001139_006413_014001_021097_055215,
  1_011740_000001_000001_000007_000007_000003_000005_000075_000149_000269_000353_000437_000061_002451_011987_017243_005649_105107,
  1_011747_000001_000001_000003_000003_000025_000061_000053_000021_000113_000057_001415_002825_000011_014977_006159_004181_096765,
  1_011754_000001_000001_000007_000005_000015_000025_000121_000159_000071_000773_000601_000147_006507_016171_016607_032017_077845,
  1_011761_000001_000003_000001_000001_000027_000019_000059_000109_000347_000991_000165_000683_006147_000493_022017_019069_052857,
  1_011762_000001_000001_000005_000005_000021_000001_000093_000115_000407_000015_000421_001305_003495_014287_031831_065347_035339,
  1_011787_000001_000003_000005_000011_000029_000035_000087_000027_000453_000769_001991_002757_002607_009225_000293_049441_018185,
  1_011792_000001_000001_000005_000003_000023_000041_000067_000195_000499_000903_000197_001121_004691_009277_029225_034597_037395,
  1_011814_000001_000001_000007_000007_000021_000007_000065_000245_000241_000909_001063_002271_001979_010287_001747_061523_072969,
  1_011823_000001_000003_000001_000013_000023_000025_000003_000089_000385_000481_001463_003431_006907_001129_003519_035789_082585,
  1_011825_000001_000003_000005_000003_000031_000017_000011_000209_000077_000991_000885_003341_006895_003429_021611_038555_035475,
  1_011837_000001_000001_000003_000001_000009_000061_000027_000219_000433_000787_000281_001155_002915_004449_030881_034461_015357,
  1_011838_000001_000001_000003_000015_000027_000055_000051_000101_000117_000799_001475_004013_005145_014991_027847_049537_057339,
  1_011846_000001_000003_000007_000013_000013_000009_000013_000167_000283_000883_001501_002635_001463_003353_014961_030349_062043,
  1_011855_000001_000001_000007_000003_000003_000047_000119_000037_000389_000655_000701_002471_005749_006645_000845_027065_082299,
  1_011864_000001_000001_000007_000015_000027_000005_000095_000195_000227_000991_001137_003715_004901_009459_001917_043857_126505,
  1_011876_000001_000003_000007_000005_000029_000035_000045_000165_000361_000257_000641_001265_006533_011333_026081_012621_066909,
  1_011885_000001_000001_000001_000011_000019_000055_000073_000137_000029_000355_000725_001161_006717_002035_019769_043531_072577,
  1_011904_000001_000003_000007_000005_000019_000003_000099_000017_000387_000621_000137_000117_006567_007667_014979_017981_068319,
  1_011909_000001_000001_000005_000005_000007_000053_000031_000033_000245_000371_000691_002763_000095_016369_007853_029839_034957,
  1_011913_000001_000001_000003_000001_000009_000001_000083_000177_000017_000141_001739_001791_003849_003093_022271_053755_007817]

def dirRows17_0_14 : List Nat := [
  1_011916_000001_000003_000003_000001_000003_000051_000071_000069_000439_000987_000807_003353_004747_016031_029591_061091_095675,
  1_011940_000001_000003_000005_000001_000017_000047_000051_000211_000007_000005_001751_001735_001647_013389_013861_049427_013577,
  1_011943_000001_000003_000007_000005_000011_000023_000017_000055_000011_000061_000809_000927_006533_001509_029261_021555_055075,
  1_011972_000001_000003_000001_000001_000015_000051_000037_000047_000183_000117_000597_003225_001435_013359_019127_017339_017345,
  1_011981_000001_000001_000005_000003_000005_000011_000033_000179_000295_000129_000029_000713_001561_000027_021087_050305_039253,
  1_011990_000001_000001_000005_000007_000017_000025_000105_000241_000041_000915_001223_002625_000617_010983_010749_002137_101831,
  1_011993_000001_000003_000005_000007_000015_000015_000085_000023_000193_000625_001803_002903_001935_000523_008377_012165_105851,
  1_012000_000001_000003_000003_000007_000003_000035_000005_000107_000191_000855_000405_001659_005523_005011_006401_045187_031345,
  1_012005_000001_000003_000003_000001_000009_000021_000103_000075_000501_000669_000547_003685_000411_002663_014743_013869_124389,
  1_012015_000001_000003_000005_000013_000015_000037_000039_000079_000019_000165_001685_001367_005951_012303_013423_051083_119933,
  1_012020_000001_000001_000003_000001_000007_000025_000001_000221_000415_000591_000859_001457_001789_002269_015947_031913_086397,
  1_012038_000001_000003_000007_000015_000011_000049_000015_000171_000045_000925_000407_001719_004505_005695_017397_028849_000077,
  1_012042_000001_000001_000003_000011_000021_000033_000091_000115_000263_000141_000753_003335_007695_001981_006029_022629_002467,
  1_012056_000001_000003_000005_000003_000025_000005_000021_000067_000429_000323_000223_002395_000761_014817_012387_037905_019551,
  1_012065_000001_000003_000001_000015_000031_000043_000035_000255_000073_000533_001093_000965_000557_000607_006913_035283_012261,
  1_012066_000001_000003_000001_000015_000025_000013_000039_000083_000077_000269_001205_001577_004095_006669_008643_048807_098227,
  1_012072_000001_000003_000003_000007_000031_000057_000025_000177_000441_000973_001255_000675_005579_004899_027925_052555_070845,
  1_012080_000001_000003_000001_000005_000013_000047_000015_000075_000387_000461_001909_000841_000007_009567_000913_041411_012565,
  1_012083_000001_000001_000005_000007_000005_000021_000017_000189_000319_000645_000403_002723_006747_015471_026533_012709_049417,
  1_012090_000001_000001_000005_000007_000007_000041_000099_000179_000137_000435_001061_003987_004583_004101_023781_054263_036695,
  1_012092_000001_000003_000001_000011_000019_000037_000125_000177_000111_000921_001003_001433_001399_003991_028193_040471_097041,
  1_012103_000001_000001_000007_000001_000005_000033_000007_000139_000127_000413_001171_002237_000265_010145_018793_028957_025037,
  1_012109_000001_000003_000001_000001_000025_000037_000013_000017_000471_000195_001645_003165_005635_008433_028507_000453_107709,
  1_012112_000001_000003_000003_000011_000001_000055_000119_000097_000243_000371_000095_000097_007833_000777_012177_001861_056323,
  1_012117_000001_000001_000007_000005_000007_000029_000059_000219_000405_000411_000275_000111_004899_010367_024331_057295_047065,
  1_012121_000001_000001_000003_000003_000019_000023_000091_000111_000221_000195_001013_003001_003227_006359_030383_049699_049157,
  1_012137_000001_000001_000005_000007_000001_000021_000125_000023_000177_000291_000249_000861_001899_014101_005079_005211_014373,
  1_012143_000001_000001_000007_000011_000011_000059_000033_000041_000291_000919_000253_000609_001657_014633_015189_022245_099815,
  1_012145_000001_000003_000005_000003_000023_000049_000071_000137_000393_000343_001845_000343_005853_006639_017435_062143_076041,
  1_012148_000001_000001_000005_000003_000009_000027_000055_000193_000025_000965_001453_002739_003785_012497_029607_011111_025145,
  1_012168_000001_000001_000001_000001_000029_000011_000111_000073_000491_000629_000405_002779_005313_000589_001459_047555_067945,
  1_012174_000001_000003_000001_000007_000013_000021_000099_000075_000079_000963_000207_001725_006875_008359_010573_045219_130463,
  1_012188_000001_000003_000007_000013_000001_000017_000105_000227_000487_000891_001053_001333_007651_005415_018661_022085_082055,
  1_012191_000001_000001_000003_000003_000031_000027_000091_000093_000383_000331_000965_003035_004931_013265_009729_028985_118227,
  1_012192_000001_000003_000001_000001_000011_000009_000059_000191_000253_000909_000301_003811_000255_014937_028627_054509_095993,
  1_012201_000001_000003_000003_000005_000011_000005_000105_000077_000323_000713_000637_001857_002697_012473_012261_002933_101287,
  1_012224_000001_000003_000003_000011_000009_000063_000019_000019_000213_000859_001479_002849_001067_005749_013511_014933_011125,
  1_012230_000001_000001_000005_000009_000019_000019_000013_000049_000237_000511_000533_000543_000575_008095_027335_018847_018173,
  1_012239_000001_000003_000005_000005_000009_000053_000047_000157_000035_000827_000637_002327_000787_005269_005145_010135_111273,
  1_012242_000001_000003_000003_000007_000027_000041_000069_000173_000053_000655_000809_000481_006999_003101_020781_002481_094957,
  1_012251_000001_000001_000005_000011_000017_000023_000095_000201_000363_000613_000863_001365_001131_015417_020705_008283_055235,
  1_012258_000001_000001_000005_000013_000003_000015_000037_000219_000291_000595_001665_001861_001953_015385_020569_046085_015163,
  1_012264_000001_000003_000003_000011_000023_000043_000125_000133_000085_000045_000819_000243_007325_008723_001499_058139_120353,
  1_012310_000001_000001_000001_000011_000021_000049_000091_000145_000175_000619_001817_003533_008155_007521_030361_045431_130175,
  1_012319_000001_000001_000003_000001_000011_000059_000057_000051_000037_000903_001221_003813_008043_014165_031503_007905_061515,
  1_012323_000001_000001_000001_000001_000015_000009_000115_000175_000285_000839_000097_003119_000719_015283_022947_025417_040665,
  1_012325_000001_000003_000001_000007_000005_000049_000127_000111_000373_000747_000393_002351_004577_015227_023149_016901_080253,
  1_012332_000001_000001_000005_000003_000015_000005_000095_000197_000251_000275_000831_001389_003907_012343_011599_024369_065361,
  1_012343_000001_000003_000007_000005_000025_000037_000011_000075_000417_000789_000745_000811_002189_015381_004785_041657_002897,
  1_012344_000001_000003_000001_000013_000029_000055_000055_000033_000279_000383_001645_000975_004683_001357_001149_030271_090527,
  1_012352_000001_000003_000005_000003_000005_000003_000079_000061_000371_000225_000141_000369_001037_012249_029431_037253_009899,
  1_012370_000001_000001_000003_000013_000013_000007_000127_000147_000507_000119_001085_001949_006289_010179_010107_055989_074395,
  1_012388_000001_000003_000001_000007_000021_000035_000053_000209_000103_000365_000683_000553_004977_014371_024037_011453_045369,
  1_012395_000001_000001_000005_000011_000027_000039_000041_000145_000437_000055_000893_002375_004977_005451_021225_046815_001423,
  1_012403_000001_000003_000005_000001_000023_000053_000113_000075_000209_000323_001975_003809_001829_014625_003821_053773_129173,
  1_012409_000001_000001_000005_000003_000007_000051_000097_000073_000289_000481_000339_001375_003101_004395_013933_033267_068115,
  1_012410_000001_000003_000005_000001_000005_000045_000083_000057_000003_000667_000109_003979_006447_008603_020147_049291_018023,
  1_012415_000001_000003_000007_000001_000011_000007_000045_000233_000065_000745_001009_002979_005965_010681_003499_023077_087479,
  1_012419_000001_000003_000003_000003_000013_000025_000025_000189_000197_000083_001429_002857_002877_008577_024811_033049_046009,
  1_012426_000001_000001_000001_000007_000011_000047_000047_000255_000089_000625_000449_003747_002035_003509_004901_002961_014073,
  1_012439_000001_000001_000001_000013_000009_000055_000035_000047_000389_000573_000847_001037_001345_005487_007575_057435_077303,
  1_012445_000001_000001_000005_000011_000025_000051_000113_000109_000079_000339_000095_002049_005881_013209_020041_026419_110319,
  1_012459_000001_000001_000007_000001_000027_000015_000093_000145_000253_000917_001211_002221_001087_014209_032097_020083_067841,
  1_012464_000001_000001_000003_000015_000013_000019_000067_000107_000075_000919_002047_003675_006231_001243_014335_035939_017281,
  1_012474_000001_000003_000007_000005_000027_000047_000053_000239_000475_000231_001645_000825_004039_015985_010853_032951_034985,
  1_012484_000001_000001_000007_000005_000015_000061_000107_000093_000051_000221_000717_002859_007885_009571_011841_045143_033723,
  1_012491_000001_000001_000007_000007_000009_000025_000063_000025_000047_000055_002041_003965_000215_014857_031669_054775_042157,
  1_012501_000001_000003_000005_000001_000005_000045_000123_000109_000471_000599_000479_000475_003499_011963_023709_018851_066861,
  1_012505_000001_000003_000003_000003_000005_000029_000071_000081_000315_000329_001471_003995_000623_005871_011171_015645_097251,
  1_012508_000001_000001_000007_000011_000015_000015_000101_000173_000445_000871_000765_001121_001937_013055_007309_054175_085559,
  1_012511_000001_000003_000005_000007_000007_000013_000043_000237_000361_000981_000019_003113_004681_003313_019147_035193_087281,
  1_012521_000001_000003_000005_000003_000027_000013_000037_000051_000233_000573_001599_002807_007149_012083_028927_007797_130879,
  1_012522_000001_000001_000001_000013_000031_000063_000127_000089_000209_000717_001075_003887_001427_000087_018565_039973_055025,
  1_012530_000001_000003_000001_000005_000015_000011_000121_000247_000273_000613_001857_002059_007399_013951_009025_039523_068121,
  1_012544_000001_000003_000007_000013_000031_000009_000061_000143_000375_000433_000471_001315_005299_001167_010099_011445_051693,
  1_012547_000001_000001_000007_000009_000025_000031_000125_000005_000013_000595_000621_003551_007959_010643_014345_037683_118377,
  1_012561_000001_000001_000005_000011_000001_000033_000045_000031_000447_000229_000893_003777_004101_002505_004855_014057_020133,
  1_012571_000001_000001_000001_000001_000007_000023_000089_000053_000483_000873_000521_002115_001461_011241_001003_028749_068227,
  1_012580_000001_000003_000005_000005_000003_000017_000023_000219_000281_000975_000895_004043_006505_005991_027401_038791_089239,
  1_012597_000001_000001_000001_000007_000029_000041_000063_000151_000195_000495_000469_000305_007437_001107_031147_030755_116551,
  1_012607_000001_000003_000007_000003_000013_000025_000033_000193_000023_000135_000003_000513_004169_015355_002255_032167_068691,
  1_012609_000001_000003_000003_000011_000029_000019_000125_000177_000083_000361_000393_000663_001859_001333_017507_010661_072387,
  1_012610_000001_000001_000005_000011_000023_000013_000061_000033_000149_000145_000995_000649_007587_006743_025225_054997_010193,
  1_012616_000001_000001_000007_000013_000029_000051_000107_000079_000467_000881_001227_001083_003277_002559_026819_057311_048095,
  1_012621_000001_000003_000001_000001_000001_000019_000023_000025_000239_000703_000119_002525_008079_005433_008989_042517_116755,
  1_012624_000001_000001_000007_000011_000031_000009_000009_000113_000381_000363_000447_003751_007523_015995_003853_042069_081455,
  1_012639_000001_000001_000005_000009_000029_000041_000103_000179_000477_000527_001593_003003_001095_006823_006911_044987_032445,
  1_012645_000001_000001_000007_000015_000005_000031_000055_000181_000149_000127_001745_002753_000801_000285_020199_033707_118397,
  1_012652_000001_000003_000007_000007_000011_000029_000089_000215_000351_000303_001519_002593_002045_014699_001657_040799_039641,
  1_012655_000001_000001_000007_000013_000003_000035_000073_000111_000015_000803_001819_003453_003611_008337_014239_014875_083983,
  1_012660_000001_000001_000005_000015_000015_000049_000027_000101_000149_000003_000717_002229_007397_006579_010965_035997_028823,
  1_012667_000001_000001_000005_000007_000003_000017_000049_000245_000343_000657_000015_000749_006413_010811_002909_047309_034613,
  1_012686_000001_000003_000005_000015_000013_000035_000067_000099_000481_000379_002003_003367_003065_005845_007799_043931_015263,
  1_012688_000001_000001_000005_000013_000021_000049_000081_000077_000395_000919_001931_000661_000123_009965_010487_055131_001567,
  1_012697_000001_000003_000005_000011_000023_000039_000041_000121_000159_000473_000191_001983_006411_010503_010523_040601_064153,
  1_012700_000001_000001_000005_000007_000009_000037_000073_000207_000497_000789_001671_000325_001697_011281_031185_004961_124431,
  1_012707_000001_000001_000005_000015_000007_000051_000071_000091_000449_000707_000621_002427_000627_001747_012779_017569_098289,
  1_012710_000001_000001_000005_000005_000031_000003_000089_000163_000077_000647_001747_002965_001669_003311_017651_008111_030739,
  1_012719_000001_000001_000003_000011_000015_000031_000077_000173_000405_000913_000459_002955_006153_013391_020439_064433_012371,
  1_012739_000001_000001_000003_000011_000013_000055_000029_000037_000379_000689_000407_001373_000397_005027_015497_025687_048193]

def dirRows17_0_15 : List Nat := [
  1_012742_000001_000003_000003_000015_000013_000007_000081_000207_000395_000901_000779_001683_002491_003807_031979_032403_081113,
  1_012746_000001_000003_000003_000013_000029_000031_000025_000081_000459_000991_000793_003285_002775_016199_011423_052597_086041,
  1_012754_000001_000003_000003_000013_000017_000017_000101_000183_000019_000735_000671_001097_002461_009863_025985_031915_073047,
  1_012765_000001_000003_000003_000003_000003_000011_000071_000063_000429_000899_000351_001275_003907_014241_019135_014875_043325,
  1_012772_000001_000001_000007_000011_000011_000061_000015_000213_000411_000013_001409_001741_005257_008729_028351_006381_077501,
  1_012784_000001_000001_000007_000007_000029_000027_000051_000217_000411_000261_000599_003027_007871_009133_032423_044275_034701,
  1_012789_000001_000003_000007_000007_000001_000001_000127_000209_000151_000845_001421_003115_007775_010133_006163_041165_091187,
  1_012800_000001_000003_000001_000009_000001_000035_000075_000003_000081_000477_000131_001383_001377_006857_003863_012583_007855,
  1_012805_000001_000003_000001_000003_000003_000011_000001_000167_000347_000317_000557_003763_007175_013341_000759_023275_078039,
  1_012809_000001_000003_000005_000011_000019_000053_000085_000139_000067_000757_000487_000919_006001_016031_024959_028013_065771,
  1_012815_000001_000001_000001_000001_000023_000009_000083_000055_000249_000305_001305_000109_005559_005129_030973_019889_006691,
  1_012827_000001_000001_000001_000003_000021_000019_000085_000089_000213_000847_000861_001651_006613_006001_008157_002555_098673,
  1_012830_000001_000001_000001_000015_000025_000015_000125_000133_000177_000295_000549_001763_002811_004381_001079_007813_087909,
  1_012833_000001_000001_000001_000005_000005_000017_000025_000225_000353_000997_001565_002225_007265_016227_028209_009011_097193,
  1_012840_000001_000003_000007_000015_000013_000013_000035_000239_000331_000965_001547_001627_006409_007745_030899_036915_059293,
  1_012851_000001_000001_000001_000013_000027_000045_000023_000179_000193_000801_000381_003783_003551_011855_011041_049911_062101,
  1_012868_000001_000001_000007_000003_000003_000031_000061_000005_000421_000939_001637_000217_000389_001797_032141_028817_006997,
  1_012871_000001_000003_000003_000005_000021_000031_000083_000065_000421_000577_001137_002561_002943_004171_002803_023325_092315,
  1_012886_000001_000001_000003_000003_000027_000033_000075_000081_000477_000003_001903_000773_005551_010069_007285_058103_098311,
  1_012899_000001_000003_000007_000015_000001_000017_000095_000209_000065_000747_001633_000581_007395_001393_021795_015735_129757,
  1_012923_000001_000003_000005_000003_000017_000003_000009_000131_000051_000693_001571_001865_008137_000915_013345_035137_059005,
  1_012926_000001_000001_000003_000007_000023_000027_000061_000163_000449_000087_000717_001075_004309_004887_011741_024549_096729,
  1_012932_000001_000003_000007_000013_000021_000005_000003_000097_000191_000999_001193_001215_005907_010491_002281_006455_068625,
  1_012935_000001_000001_000005_000007_000009_000009_000101_000005_000375_000137_001473_001265_005307_000259_020699_025367_129393,
  1_012939_000001_000003_000007_000007_000021_000001_000077_000065_000023_000139_000945_000491_001069_000253_012335_026861_129467,
  1_012942_000001_000001_000003_000009_000015_000033_000085_000225_000045_000311_000281_001601_007325_012265_002591_051955_130681,
  1_012953_000001_000001_000001_000003_000027_000033_000017_000089_000495_000091_000527_003347_007883_009481_028731_054729_015265,
  1_012959_000001_000001_000003_000003_000009_000047_000115_000161_000299_000493_001857_003597_007175_015603_011523_033837_057557,
  1_012960_000001_000003_000007_000003_000015_000047_000127_000195_000391_000869_000099_000429_007125_010413_005063_061845_071843,
  1_013002_000001_000003_000003_000001_000007_000031_000027_000069_000007_000083_000315_002749_005693_013377_028091_013065_111029,
  1_013004_000001_000001_000003_000015_000015_000045_000125_000229_000459_000611_001167_003375_003587_000081_009275_045327_039749,
  1_013016_000001_000003_000007_000011_000009_000003_000043_000161_000221_000209_000051_001475_003577_013973_015285_035553_083935,
  1_013021_000001_000001_000007_000009_000015_000055_000025_000119_000039_000537_000317_001331_002161_001791_019221_063459_124595,
  1_013035_000001_000001_000001_000011_000009_000007_000113_000187_000295_000067_001795_000113_000119_009127_032119_007719_067591,
  1_013038_000001_000003_000007_000013_000001_000053_000017_000019_000331_000711_000359_002945_005847_007237_023617_017411_002203,
  1_013052_000001_000003_000003_000007_000021_000063_000115_000159_000225_000161_001255_002381_007411_000095_001625_030493_056685,
  1_013058_000001_000001_000005_000009_000013_000057_000005_000107_000195_000271_000677_002081_006027_011091_014171_019007_102119,
  1_013069_000001_000003_000003_000003_000019_000013_000031_000155_000209_000089_000955_000523_000615_005319_016079_009289_049135,
  1_013082_000001_000003_000001_000013_000001_000031_000069_000143_000329_000813_000635_000891_002967_005563_019643_035813_014345,
  1_013093_000001_000001_000005_000005_000017_000047_000097_000049_000123_000997_000015_003685_003925_004973_011195_017115_063709,
  1_013094_000001_000001_000007_000013_000013_000017_000099_000149_000309_000281_000329_000905_006487_004495_031831_024413_026431,
  1_013100_000001_000001_000005_000005_000005_000047_000113_000115_000061_000157_000955_002323_004445_000229_024049_014753_015189,
  1_013115_000001_000003_000007_000015_000025_000021_000013_000137_000377_000045_000629_001339_008037_005073_024741_048589_028953,
  1_013125_000001_000003_000003_000009_000003_000041_000007_000101_000333_000059_001213_001871_003993_011261_004403_042785_058753,
  1_013132_000001_000003_000001_000007_000005_000033_000087_000073_000317_000575_001459_000905_001033_014179_019595_030269_103853,
  1_013143_000001_000001_000001_000001_000019_000049_000063_000181_000227_000401_000695_001811_002383_003835_014379_030685_114731,
  1_013144_000001_000001_000005_000015_000009_000041_000035_000091_000357_000659_000155_003725_006509_000405_025449_037719_006013,
  1_013153_000001_000001_000007_000003_000011_000059_000033_000151_000291_000393_000741_003961_002787_000993_010361_011737_042047,
  1_013160_000001_000003_000007_000003_000015_000015_000055_000059_000419_000203_000055_000801_002719_015487_013213_058473_050315,
  1_013165_000001_000003_000007_000013_000017_000021_000113_000111_000159_000163_000711_001135_001133_015519_030515_055777_025025,
  1_013173_000001_000001_000003_000005_000013_000025_000023_000003_000093_000873_000559_001815_003381_005311_014365_034349_017333,
  1_013174_000001_000003_000005_000007_000015_000043_000085_000033_000023_000903_001247_003279_001393_012059_019251_019389_005097,
  1_013187_000001_000003_000001_000011_000021_000059_000003_000153_000403_000095_001939_002679_000419_009035_031219_002897_015727,
  1_013190_000001_000003_000005_000001_000011_000021_000035_000169_000453_000015_000791_003931_001021_016321_006033_010639_016173,
  1_013204_000001_000003_000001_000011_000007_000057_000039_000061_000381_000465_000451_002863_000575_005597_031041_008625_082373,
  1_013218_000001_000001_000003_000005_000013_000005_000063_000001_000075_000245_001305_000285_003367_010107_005853_035275_128255,
  1_013247_000001_000001_000001_000003_000001_000057_000021_000091_000139_000669_000765_001867_002153_010347_026119_035517_004725,
  1_013250_000001_000003_000005_000001_000021_000041_000059_000247_000473_001015_000975_000485_002161_011941_010341_035245_055587,
  1_013262_000001_000001_000005_000009_000007_000059_000033_000149_000097_000619_000393_003613_006037_010895_019461_015975_047919,
  1_013267_000001_000003_000003_000015_000007_000017_000095_000013_000147_000361_000915_002585_004483_003159_012255_044685_116163,
  1_013274_000001_000003_000001_000015_000027_000031_000075_000031_000423_000233_001453_002815_003633_006531_025721_029649_080645,
  1_013304_000001_000003_000003_000003_000019_000007_000073_000033_000163_000495_001483_002277_006455_006523_009331_021869_052175,
  1_013309_000001_000003_000005_000013_000005_000001_000063_000035_000335_000189_000713_002997_003277_010049_004681_016753_017107,
  1_013315_000001_000003_000005_000009_000003_000055_000029_000171_000395_000585_000671_001875_004449_012895_005455_011023_106189,
  1_013317_000001_000003_000005_000003_000025_000053_000033_000169_000109_000285_000787_000861_005549_005171_015293_002977_014559,
  1_013324_000001_000003_000007_000001_000021_000025_000097_000115_000001_000999_001033_003471_000129_016093_000495_016859_034615,
  1_013332_000001_000003_000005_000009_000013_000005_000109_000041_000057_000957_000231_003771_002917_015649_008869_014857_064943,
  1_013342_000001_000001_000007_000007_000021_000041_000101_000059_000167_000441_000997_002951_007891_016325_012669_053829_100705,
  1_013346_000001_000001_000007_000009_000019_000059_000023_000141_000193_000237_001067_001823_003351_003239_003135_009275_037069,
  1_013355_000001_000003_000003_000009_000003_000017_000095_000073_000019_000231_000779_003065_002245_002967_024971_062589_016729,
  1_013358_000001_000003_000003_000013_000025_000019_000117_000147_000443_000123_000157_002037_000327_014715_005693_054641_033325,
  1_013360_000001_000003_000001_000009_000021_000021_000021_000125_000049_000787_000767_002831_000511_002461_031537_027155_044053,
  1_013369_000001_000003_000007_000009_000031_000019_000125_000067_000119_000465_000287_001869_003979_015723_021069_008581_066939,
  1_013372_000001_000001_000001_000011_000007_000037_000123_000237_000353_000499_000113_003829_000217_004751_007385_020343_083699,
  1_013398_000001_000003_000007_000013_000009_000003_000053_000027_000487_000087_000035_002645_003481_014409_027875_031695_078489,
  1_013404_000001_000003_000003_000013_000009_000043_000067_000051_000153_000083_000591_001991_001787_011973_007273_034801_047199,
  1_013407_000001_000003_000007_000001_000015_000053_000071_000011_000205_000853_002011_000581_001281_007819_023083_033731_074951,
  1_013414_000001_000001_000005_000005_000017_000063_000109_000219_000225_000997_001251_003287_001441_013489_022723_045191_050249,
  1_013426_000001_000001_000005_000003_000013_000001_000043_000053_000293_000685_001369_001515_007479_003233_020007_065235_102467,
  1_013432_000001_000003_000005_000007_000029_000045_000063_000045_000219_000445_002047_000317_007553_000325_001465_000949_035163,
  1_013466_000001_000001_000003_000009_000007_000031_000073_000211_000501_000233_001495_000701_005857_010763_009743_010289_023801,
  1_013481_000001_000003_000007_000003_000023_000047_000099_000061_000179_000833_001425_001275_004467_004367_005567_023513_068677,
  1_013490_000001_000001_000005_000005_000027_000033_000119_000229_000329_000051_001025_003167_003405_004039_004135_006655_043771,
  1_013496_000001_000003_000007_000015_000005_000049_000091_000055_000425_000015_002003_001571_003539_010375_029645_005889_051887,
  1_013504_000001_000001_000007_000003_000013_000055_000085_000091_000181_000723_001941_000075_004443_011507_007027_014189_050685,
  1_013516_000001_000003_000005_000005_000029_000049_000013_000003_000097_000165_000041_003039_003325_002161_000775_038501_042381,
  1_013527_000001_000001_000005_000011_000009_000057_000047_000109_000009_000585_000375_001839_000937_006877_029847_060163_103081,
  1_013533_000001_000001_000003_000013_000005_000047_000011_000195_000253_000235_000275_002313_000163_014683_005681_013381_084553,
  1_013537_000001_000003_000003_000015_000015_000001_000093_000157_000437_000557_000307_001179_006857_003101_016723_050579_069603,
  1_013552_000001_000001_000005_000009_000011_000029_000023_000219_000337_000689_001155_002007_006853_006749_020127_013199_048433,
  1_013561_000001_000001_000001_000013_000001_000061_000073_000213_000335_000539_000903_002719_000775_002775_029109_033367_003281,
  1_013567_000001_000003_000001_000005_000015_000031_000065_000231_000439_000623_001871_002299_005365_010333_009147_002781_063813,
  1_013582_000001_000001_000003_000001_000001_000025_000023_000229_000173_000279_000181_001299_002893_015475_012473_046097_123387,
  1_013587_000001_000001_000007_000013_000007_000043_000017_000187_000467_000113_001293_002013_006091_014621_022195_024079_045379,
  1_013589_000001_000003_000001_000007_000001_000007_000119_000159_000377_000011_000705_002853_003767_013739_023375_025563_073987,
  1_013593_000001_000001_000003_000015_000021_000013_000111_000119_000401_001005_000777_001699_002431_015139_027887_028415_071519,
  1_013596_000001_000001_000007_000009_000001_000049_000019_000171_000297_000077_001343_001249_005769_013889_021401_024915_017641,
  1_013615_000001_000001_000007_000011_000031_000045_000051_000231_000123_000817_000013_000791_006235_002787_000475_001717_005071,
  1_013617_000001_000003_000003_000013_000005_000009_000021_000129_000253_000731_000785_002275_007343_007841_005477_008973_101033,
  1_013623_000001_000001_000007_000013_000023_000001_000119_000221_000293_000709_002031_003019_001529_002007_010823_043193_082661]

def dirRows17_0_16 : List Nat := [
  1_013641_000001_000003_000001_000011_000029_000029_000087_000079_000415_000679_001899_003453_007355_008627_028225_041857_106645,
  1_013647_000001_000001_000005_000015_000009_000013_000021_000241_000491_000927_000999_002131_003501_011063_028595_054691_021297,
  1_013650_000001_000001_000001_000003_000005_000041_000085_000089_000483_000309_000791_000825_003043_002715_016573_006551_077875,
  1_013659_000001_000003_000001_000001_000025_000021_000107_000123_000079_001019_000821_001251_004943_001429_017843_037013_053285,
  1_013671_000001_000001_000005_000003_000007_000005_000035_000123_000445_000315_000627_002543_001261_013737_015991_036591_018309,
  1_013677_000001_000003_000003_000005_000025_000043_000065_000249_000309_001023_000737_001933_004735_007725_012063_053023_126677,
  1_013678_000001_000003_000001_000009_000013_000037_000077_000061_000179_000275_000277_001431_002869_014563_000665_060553_007661,
  1_013680_000001_000003_000005_000003_000029_000001_000127_000073_000363_000311_001591_003863_006481_004725_008287_061311_039011,
  1_013685_000001_000003_000001_000007_000013_000023_000115_000215_000385_000563_001033_002343_005023_011013_012131_026997_048645,
  1_013689_000001_000001_000005_000013_000003_000059_000041_000155_000263_000507_001175_002967_007929_008237_011841_015365_051881,
  1_013701_000001_000001_000003_000011_000019_000035_000089_000115_000121_000315_001697_002121_001867_006865_023639_026525_044687,
  1_013706_000001_000003_000005_000015_000009_000005_000125_000183_000149_000447_000309_001743_006089_000369_016153_063799_057657,
  1_013720_000001_000001_000001_000007_000007_000039_000089_000139_000457_000741_001613_002883_005057_012495_018669_055469_097941,
  1_013729_000001_000001_000005_000007_000029_000039_000097_000009_000481_000667_001353_003387_002813_016205_008353_022121_092965,
  1_013735_000001_000003_000007_000009_000011_000055_000079_000159_000349_000717_000829_003157_001457_006199_005861_002553_020387,
  1_013736_000001_000001_000001_000011_000003_000051_000113_000053_000287_000109_001717_002405_007207_004473_011145_002549_000591,
  1_013756_000001_000001_000003_000013_000003_000061_000031_000141_000217_000487_000299_002755_003389_010053_001105_021129_074203,
  1_013759_000001_000001_000001_000003_000011_000055_000007_000113_000413_000449_000787_003279_005123_016025_015005_012175_006795,
  1_013761_000001_000003_000001_000001_000025_000023_000107_000191_000003_000003_000049_001083_003275_010385_007989_053739_025505,
  1_013771_000001_000001_000005_000013_000007_000017_000059_000013_000471_000147_001627_002119_003555_015555_010333_049363_080959,
  1_013782_000001_000001_000001_000015_000023_000033_000061_000191_000207_000939_000045_002781_000071_009661_028433_013089_076419,
  1_013786_000001_000003_000003_000007_000029_000047_000111_000019_000315_000381_000851_001303_002627_006255_030369_037723_012949,
  1_013798_000001_000001_000001_000013_000031_000043_000003_000193_000005_000099_000769_002523_001949_000129_009693_060535_067059,
  1_013810_000001_000001_000003_000015_000005_000033_000073_000149_000253_000985_000863_001551_004369_005911_008269_035463_117055,
  1_013819_000001_000003_000001_000005_000027_000057_000003_000105_000253_000731_000119_003287_000613_004627_022003_056027_123005,
  1_013826_000001_000001_000003_000003_000027_000047_000067_000147_000495_000865_001233_003707_002511_002951_007367_015625_086417,
  1_013831_000001_000001_000007_000001_000007_000007_000013_000255_000457_000529_000953_001481_005565_012495_004723_041615_121829,
  1_013837_000001_000003_000005_000011_000001_000051_000091_000153_000323_000609_001353_002995_004035_013835_028619_046217_004967,
  1_013846_000001_000001_000005_000007_000025_000059_000081_000101_000185_000709_001249_002285_006579_008655_017563_009707_063845,
  1_013856_000001_000003_000003_000009_000031_000025_000017_000019_000111_000627_001187_002621_006529_009457_025027_018069_047559,
  1_013862_000001_000003_000007_000015_000007_000015_000103_000201_000391_001023_000817_000535_002713_001317_013469_056043_070847,
  1_013866_000001_000001_000003_000007_000017_000057_000035_000099_000439_000367_000027_002695_003519_008337_014047_058489_000069,
  1_013885_000001_000001_000001_000003_000017_000023_000071_000189_000057_000039_000715_001779_003081_014657_021895_059203_031005,
  1_013891_000001_000001_000007_000013_000001_000047_000069_000159_000353_000517_000271_000973_005077_015707_011095_019671_003389,
  1_013893_000001_000001_000007_000013_000025_000055_000115_000021_000043_000939_001697_000101_004751_001993_002389_028353_045251,
  1_013905_000001_000003_000001_000015_000011_000057_000017_000049_000121_000419_000909_000121_005047_004235_013051_021529_042097,
  1_013908_000001_000001_000001_000003_000019_000037_000031_000233_000251_000175_000929_001527_007527_003605_017075_061053_056235,
  1_013912_000001_000001_000001_000003_000009_000005_000117_000131_000251_000475_001695_001381_002445_005921_014921_000937_080791,
  1_013917_000001_000001_000003_000009_000011_000005_000031_000215_000037_000567_001537_002183_003291_001601_014025_048807_007243,
  1_013918_000001_000003_000001_000009_000007_000013_000081_000249_000321_000473_001419_003977_007037_014191_010865_056131_043225,
  1_013946_000001_000001_000001_000013_000015_000023_000031_000069_000449_000491_001461_000729_007955_004003_016817_037273_072025,
  1_013948_000001_000001_000005_000013_000007_000041_000093_000169_000347_001013_000301_002813_001455_013187_010769_060807_046333,
  1_013964_000001_000001_000005_000003_000023_000015_000001_000161_000029_000035_000415_000235_000093_014543_029585_029657_036489,
  1_013970_000001_000003_000001_000003_000031_000063_000039_000235_000153_000549_000043_000147_002317_003537_025561_058287_058725,
  1_013975_000001_000001_000003_000005_000005_000011_000059_000097_000349_000307_000501_001701_004243_013717_017419_023387_029533,
  1_013979_000001_000003_000001_000007_000007_000019_000033_000243_000067_000353_002023_003111_007173_010979_028117_040175_045337,
  1_013997_000001_000001_000001_000005_000015_000059_000055_000135_000107_000543_001743_002695_003293_000111_032629_008249_052273,
  1_014000_000001_000003_000005_000013_000015_000057_000039_000079_000005_000451_000571_001445_001393_002125_031713_059655_020897,
  1_014006_000001_000001_000003_000011_000029_000061_000001_000037_000173_000513_001779_002649_003289_004679_002039_047587_028973,
  1_014020_000001_000001_000005_000005_000015_000019_000017_000143_000387_000359_000275_000625_007383_015537_010311_040005_020729,
  1_014023_000001_000001_000003_000009_000007_000023_000071_000179_000085_000447_000345_003459_002857_008331_005489_062207_064933,
  1_014024_000001_000001_000001_000001_000011_000061_000047_000131_000213_000611_000701_000713_001269_009563_025223_050697_088679,
  1_014029_000001_000001_000005_000015_000021_000005_000077_000059_000455_000243_000459_002809_000013_009325_032047_003939_048389,
  1_014035_000001_000003_000007_000001_000021_000053_000111_000225_000407_000119_000713_003635_001539_015321_029827_036069_074483,
  1_014044_000001_000001_000005_000013_000007_000045_000075_000043_000191_000715_000169_000759_000033_011329_001069_036103_028055,
  1_014047_000001_000003_000007_000005_000007_000013_000007_000035_000027_000391_000517_001439_005699_001067_023857_007293_066167,
  1_014058_000001_000001_000007_000011_000003_000031_000001_000083_000299_000345_000065_000669_001529_007569_028959_050561_069493,
  1_014066_000001_000003_000001_000005_000025_000025_000043_000149_000083_000225_001589_001691_007777_000773_010421_049523_023533,
  1_014075_000001_000001_000005_000011_000025_000029_000081_000011_000497_000043_000951_002551_000821_013805_012315_061299_081397,
  1_014080_000001_000003_000001_000009_000029_000023_000109_000123_000235_000255_001519_003289_007761_014575_011851_001719_051655,
  1_014095_000001_000003_000005_000015_000021_000049_000013_000043_000087_000517_000687_001457_001501_015959_031907_013771_069379,
  1_014100_000001_000001_000005_000003_000021_000011_000087_000009_000343_000317_000845_001663_007933_014063_024915_031487_017445,
  1_014114_000001_000001_000003_000013_000021_000031_000087_000099_000185_000333_000993_003899_000971_002851_023643_000195_066957,
  1_014116_000001_000001_000001_000015_000019_000047_000023_000001_000067_000057_000165_003903_000421_010561_011621_013815_010349,
  1_014123_000001_000003_000005_000011_000009_000019_000073_000017_000229_000913_000459_003809_002667_009775_003693_052945_090837,
  1_014134_000001_000001_000005_000015_000003_000025_000109_000131_000507_000637_001615_000859_006785_014891_024801_039095_079557,
  1_014143_000001_000001_000005_000007_000001_000051_000071_000251_000019_000799_000835_001119_002349_015083_016509_055621_123501,
  1_014151_000001_000003_000005_000009_000013_000039_000127_000001_000233_000037_000735_003307_005163_004529_005961_012893_103641,
  1_014160_000001_000001_000007_000005_000023_000015_000049_000123_000511_000201_002025_000289_003847_015755_024279_052543_042017,
  1_014163_000001_000001_000005_000003_000009_000061_000019_000037_000003_000361_001065_002971_002517_001259_027359_003823_060181,
  1_014179_000001_000003_000001_000007_000015_000017_000057_000249_000057_000979_000147_002407_002579_003159_008467_008433_072873,
  1_014181_000001_000001_000003_000001_000025_000007_000047_000117_000449_000321_000143_003867_000165_007961_027597_010033_002437,
  1_014193_000001_000003_000005_000013_000019_000049_000001_000083_000477_000549_000509_002911_001559_014017_010469_062171_082829,
  1_014209_000001_000003_000003_000007_000027_000021_000015_000063_000031_000045_001223_003903_005469_011983_029627_027453_032019,
  1_014210_000001_000001_000007_000007_000009_000009_000007_000077_000349_000467_000061_003465_006921_015761_015179_038649_002469,
  1_014224_000001_000003_000001_000013_000009_000059_000055_000067_000271_000617_000643_004071_007963_008153_005121_043917_026219,
  1_014245_000001_000001_000003_000007_000029_000021_000063_000103_000327_000623_000931_001511_003125_000229_028949_061315_072667,
  1_014249_000001_000003_000007_000001_000019_000037_000049_000063_000403_000885_000161_000121_001447_009227_015019_050049_026939,
  1_014255_000001_000003_000003_000003_000023_000057_000095_000079_000485_000173_000093_000835_007161_011247_003485_005759_036393,
  1_014267_000001_000003_000007_000013_000023_000033_000005_000097_000235_000531_000313_002925_002223_000847_018591_015477_003129,
  1_014270_000001_000001_000003_000013_000025_000025_000101_000183_000477_000947_001251_002631_007987_013417_023759_055305_123817,
  1_014277_000001_000001_000005_000009_000027_000063_000049_000137_000179_000861_000033_002375_003827_006485_019689_007867_124429,
  1_014305_000001_000003_000007_000003_000015_000043_000063_000103_000045_000947_001837_000833_007055_007487_019669_012045_078377,
  1_014308_000001_000003_000005_000003_000029_000035_000057_000019_000471_000985_001147_000741_005403_010057_025375_050889_082719,
  1_014312_000001_000003_000003_000001_000017_000019_000111_000013_000121_000821_001831_004043_000123_009529_001511_010917_105961,
  1_014325_000001_000001_000003_000011_000001_000043_000023_000075_000345_000009_001379_002157_005887_001197_014849_017103_091925,
  1_014332_000001_000001_000003_000003_000019_000011_000001_000179_000343_001023_001801_000915_000255_000519_005787_032913_043471,
  1_014345_000001_000003_000005_000005_000003_000003_000003_000211_000461_000055_000851_003165_002903_015077_008537_002037_109057,
  1_014354_000001_000001_000007_000015_000007_000007_000043_000249_000027_000511_001369_000735_006093_012575_026675_021745_117053,
  1_014372_000001_000001_000005_000007_000021_000053_000045_000083_000415_000645_000325_004027_005181_008485_001917_055623_045203,
  1_014387_000001_000001_000003_000015_000007_000001_000121_000221_000387_000403_001877_001671_002113_002379_005667_039867_008079,
  1_014390_000001_000001_000001_000007_000005_000029_000035_000077_000197_000661_001859_002539_004045_013497_000305_044987_031215,
  1_014402_000001_000001_000005_000005_000013_000037_000013_000085_000287_000347_000579_002283_007911_005463_021141_009035_105067,
  1_014408_000001_000001_000001_000009_000017_000017_000063_000097_000057_000629_001917_001133_000779_012365_017127_052549_018755,
  1_014413_000001_000001_000007_000011_000007_000017_000065_000137_000485_000841_000653_002921_004935_016273_023333_007399_043129,
  1_014431_000001_000003_000001_000011_000031_000055_000093_000225_000319_000035_000947_001909_007733_008303_020739_055713_006633,
  1_014438_000001_000001_000001_000003_000011_000025_000001_000165_000305_000275_000607_003845_005203_001989_013803_000597_039751,
  1_014447_000001_000001_000005_000011_000031_000043_000083_000237_000453_000059_000457_000741_000411_015895_018891_030133_066767,
  1_014455_000001_000003_000005_000011_000003_000023_000065_000081_000299_000527_001057_002731_003839_006023_028887_064929_041405,
  1_014461_000001_000003_000001_000001_000003_000005_000011_000169_000123_000957_001495_001717_004079_013239_028339_033677_030591]

def dirRows17_0_17 : List Nat := [
  1_014466_000001_000001_000007_000015_000003_000001_000037_000245_000169_000273_002039_000415_006555_013131_011181_062179_036885,
  1_014480_000001_000001_000003_000011_000001_000055_000019_000019_000425_000113_001367_002101_005581_000985_002475_053983_068999,
  1_014490_000001_000001_000005_000009_000005_000033_000101_000193_000303_000579_001265_002791_000479_012083_017609_031801_113089,
  1_014492_000001_000001_000003_000003_000017_000061_000059_000249_000081_000821_000001_000431_005327_008675_023469_015349_067711,
  1_014508_000001_000001_000007_000009_000031_000051_000089_000019_000469_000843_000561_000559_004823_007803_031699_044537_056835,
  1_014513_000001_000003_000007_000009_000011_000057_000027_000043_000469_000655_000433_003081_006719_006651_030823_061503_110711,
  1_014516_000001_000003_000005_000011_000009_000053_000025_000147_000061_000533_001369_000879_007935_013829_026655_017327_052983,
  1_014519_000001_000003_000007_000011_000015_000027_000097_000175_000435_000053_000075_000807_000549_005277_001831_019421_055669,
  1_014525_000001_000001_000007_000015_000023_000005_000099_000133_000485_000587_000065_002585_007667_002783_019437_052769_001587,
  1_014534_000001_000001_000007_000007_000013_000039_000111_000165_000489_000355_001963_000333_002993_005233_009173_018951_093737,
  1_014537_000001_000001_000005_000007_000001_000029_000067_000135_000427_000091_000053_003109_003745_009529_017567_042361_084577,
  1_014543_000001_000003_000005_000001_000031_000035_000059_000181_000087_000345_001975_000781_000603_016365_019453_009933_112739,
  1_014545_000001_000003_000003_000001_000031_000041_000127_000035_000263_000403_001811_000383_001523_008477_005973_041569_099309,
  1_014552_000001_000003_000007_000007_000005_000025_000011_000201_000231_000679_000519_002481_007415_012397_021265_049419_013903,
  1_014562_000001_000001_000007_000005_000001_000011_000063_000221_000327_000509_000419_000871_007891_011835_011099_010669_043853,
  1_014571_000001_000001_000005_000011_000019_000011_000037_000105_000265_000513_001013_000707_006083_014571_017573_007645_005363,
  1_014574_000001_000001_000001_000013_000019_000019_000067_000093_000113_000509_001013_004037_001939_007015_024487_057183_123463,
  1_014582_000001_000001_000001_000001_000021_000017_000095_000025_000261_001005_000685_000691_004467_014723_024043_032287_019651,
  1_014611_000001_000003_000001_000015_000015_000015_000057_000191_000027_000719_000229_001977_000241_009021_021335_030967_081207,
  1_014614_000001_000003_000001_000009_000023_000061_000103_000067_000361_000925_000811_001007_005707_011479_005907_003897_065141,
  1_014620_000001_000003_000005_000009_000017_000061_000011_000015_000351_000715_000939_002141_004857_008397_009693_026845_120007,
  1_014633_000001_000003_000001_000005_000019_000055_000099_000019_000291_000309_000287_001969_004341_007579_030909_037277_054927,
  1_014641_000001_000003_000007_000003_000019_000029_000043_000163_000367_000753_001733_001463_007927_010671_016817_041229_113887,
  1_014648_000001_000003_000007_000001_000011_000051_000039_000207_000283_000073_001423_002473_007593_003581_030179_006369_112217,
  1_014671_000001_000001_000003_000015_000015_000025_000043_000005_000271_000611_000959_000537_000303_003659_018073_008147_081531,
  1_014674_000001_000003_000007_000001_000027_000055_000077_000011_000367_000209_001967_003409_000935_005309_018857_046225_008367,
  1_014689_000001_000001_000005_000011_000011_000063_000075_000073_000043_000869_002021_003285_000269_009113_032699_002091_017327,
  1_014690_000001_000001_000005_000011_000009_000025_000031_000245_000109_000805_001645_003607_000817_009571_012767_065441_129977,
  1_014692_000001_000003_000007_000005_000011_000061_000067_000223_000433_000387_000935_001615_007915_006133_024087_055323_100619,
  1_014699_000001_000001_000001_000015_000025_000061_000007_000039_000311_000353_000183_000033_002591_004951_031377_009081_009707,
  1_014710_000001_000001_000003_000003_000001_000009_000065_000229_000185_000047_001255_001365_002231_006843_026927_027195_060651,
  1_014719_000001_000001_000007_000005_000007_000025_000091_000133_000159_000737_001767_003117_007321_006159_003361_027793_033473,
  1_014730_000001_000003_000007_000003_000011_000007_000005_000125_000369_000951_001277_000065_007703_001817_011773_025657_067045,
  1_014732_000001_000001_000003_000009_000021_000027_000021_000041_000131_000605_000001_000119_001553_001361_031973_043135_119321,
  1_014743_000001_000003_000007_000001_000025_000063_000055_000173_000323_000403_001401_001367_003455_015335_013045_020759_008309,
  1_014744_000001_000001_000003_000005_000003_000061_000059_000007_000039_000439_000721_002829_003035_002293_032015_028509_104831,
  1_014750_000001_000003_000005_000001_000029_000035_000071_000087_000351_000917_001661_000547_004501_007107_005493_017833_130729,
  1_014759_000001_000001_000005_000005_000007_000005_000069_000057_000319_000595_001749_003789_001437_006327_024089_007387_125109,
  1_014763_000001_000003_000005_000009_000015_000053_000095_000059_000217_000037_001561_000401_005259_004361_001049_003437_030559,
  1_014768_000001_000003_000007_000013_000015_000015_000107_000167_000475_000157_001565_002219_001891_001433_011829_043433_048111,
  1_014773_000001_000001_000001_000003_000011_000041_000025_000211_000243_000355_001831_002093_002747_002523_009885_009503_120089,
  1_014777_000001_000003_000007_000005_000011_000003_000001_000231_000243_000541_000341_000887_003567_014759_026763_035705_029417,
  1_014786_000001_000001_000007_000013_000017_000035_000117_000177_000081_000361_001425_002437_006821_001061_015019_019135_106007,
  1_014795_000001_000003_000003_000011_000019_000005_000039_000023_000367_000009_000879_003583_002527_014375_028359_027393_055041,
  1_014800_000001_000001_000007_000011_000009_000041_000063_000125_000033_000337_000587_003939_002635_004559_001007_038991_035651,
  1_014812_000001_000001_000003_000001_000019_000011_000083_000013_000227_000649_000415_001661_003285_000055_003683_022319_002127,
  1_014816_000001_000003_000007_000013_000019_000049_000113_000129_000083_000005_000019_001095_006561_011049_003805_011355_084265,
  1_014836_000001_000003_000001_000009_000019_000041_000111_000193_000429_000319_000067_001717_001819_012959_031449_021035_113161,
  1_014840_000001_000001_000005_000011_000019_000019_000115_000237_000145_000681_001525_002215_007915_015529_007533_045981_085461,
  1_014856_000001_000001_000001_000001_000025_000003_000073_000207_000015_000069_000043_001643_007707_012505_027101_040735_006091,
  1_014859_000001_000001_000005_000011_000021_000061_000119_000007_000037_000147_001379_003165_006555_003867_024027_045161_093015,
  1_014870_000001_000001_000003_000009_000009_000025_000051_000125_000511_000209_000075_002849_002299_002901_025157_013079_067733,
  1_014873_000001_000003_000007_000009_000031_000049_000099_000021_000089_000001_001391_001741_002733_007283_012087_009287_039713,
  1_014879_000001_000001_000005_000005_000001_000005_000089_000109_000499_000343_000431_000401_002023_005541_016615_040059_119195,
  1_014880_000001_000003_000005_000015_000027_000027_000009_000159_000395_000031_000865_002793_000055_010961_023123_063731_054385,
  1_014889_000001_000003_000007_000001_000011_000047_000123_000239_000399_000383_001497_004075_004659_002911_002101_008295_115717,
  1_014892_000001_000001_000003_000001_000011_000063_000125_000171_000065_000015_000349_000753_002981_006713_006219_014093_078797,
  1_014895_000001_000001_000001_000013_000009_000015_000001_000113_000221_000867_001907_000103_001411_000027_022743_000377_116907,
  1_014900_000001_000003_000001_000005_000027_000005_000027_000245_000221_000575_002009_001561_004263_011843_028331_012865_010483,
  1_014903_000001_000003_000007_000009_000001_000051_000119_000241_000439_000913_001191_002343_002055_010247_018283_040175_063321,
  1_014910_000001_000001_000003_000015_000021_000059_000045_000151_000485_000293_000981_003523_007689_002789_005003_062383_126221,
  1_014912_000001_000001_000001_000001_000013_000015_000039_000201_000405_000513_001721_002077_005995_002433_020421_012695_020393,
  1_014942_000001_000003_000005_000015_000011_000035_000113_000133_000187_000583_000577_000291_007563_012959_009383_044255_081763,
  1_014948_000001_000003_000007_000015_000009_000055_000057_000227_000189_000595_001311_001131_001323_011347_012777_050963_013827,
  1_014957_000001_000003_000005_000003_000011_000049_000077_000157_000107_000959_000761_001457_007121_003027_009269_026291_125261,
  1_014963_000001_000001_000005_000009_000023_000053_000125_000211_000303_000433_001103_000041_002643_005325_011885_023825_080415,
  1_014975_000001_000001_000007_000001_000029_000025_000051_000107_000209_000165_000707_001855_007429_001583_005941_047509_090105,
  1_014985_000001_000001_000003_000003_000001_000015_000121_000165_000181_000259_001949_003049_003545_003093_005967_049207_037129,
  1_014993_000001_000001_000005_000013_000009_000059_000093_000087_000057_000343_000389_001995_004001_011495_012909_013491_061759,
  1_015003_000001_000003_000001_000005_000011_000027_000027_000133_000459_000733_001845_001795_004613_003397_012313_052839_129583,
  1_015010_000001_000003_000005_000003_000019_000001_000007_000145_000255_000337_001649_001473_004113_004425_012233_055477_069157,
  1_015022_000001_000001_000003_000001_000025_000027_000093_000059_000415_000437_000025_001565_000319_008981_002453_053579_045033,
  1_015039_000001_000003_000007_000001_000027_000049_000047_000233_000341_000101_002017_002827_008085_000237_006363_061139_088903,
  1_015041_000001_000001_000001_000005_000023_000047_000065_000251_000423_000957_001751_003541_005405_001335_022703_012587_060201,
  1_015047_000001_000001_000003_000003_000005_000051_000085_000195_000423_000519_001797_003821_005915_012257_005377_062733_041197,
  1_015048_000001_000003_000007_000015_000003_000047_000097_000001_000005_000175_001449_001609_006873_012017_005579_002665_058389,
  1_015056_000001_000003_000003_000015_000019_000037_000035_000029_000079_000767_000021_001279_001997_011611_014381_035607_127701,
  1_015066_000001_000003_000007_000007_000007_000043_000047_000033_000069_000155_000703_001373_001589_006997_008627_050647_016989,
  1_015068_000001_000003_000001_000005_000013_000033_000069_000133_000399_000361_001633_000321_002077_008857_013419_023227_040003,
  1_015075_000001_000001_000001_000015_000015_000009_000045_000181_000427_001005_000341_001697_006423_005727_007163_010401_038957,
  1_015077_000001_000001_000007_000001_000017_000005_000017_000095_000279_000171_000825_002459_005243_010683_001849_032809_008995,
  1_015082_000001_000003_000005_000015_000027_000047_000103_000069_000069_000255_000961_002173_005297_005987_005863_014311_117569,
  1_015096_000001_000001_000001_000011_000021_000027_000061_000239_000183_001013_001955_003171_004183_000965_014885_049605_087851,
  1_015102_000001_000001_000007_000009_000009_000053_000099_000211_000267_000803_001545_004011_007613_013889_028277_006817_026515,
  1_015116_000001_000001_000003_000009_000001_000019_000033_000227_000461_000679_000499_001069_000837_012129_020779_012937_104367,
  1_015122_000001_000003_000003_000015_000007_000003_000029_000245_000179_001015_001651_003753_004185_015357_017379_052835_051953,
  1_015127_000001_000003_000003_000003_000003_000025_000095_000239_000263_000427_001749_000183_005251_000361_032549_024331_030789,
  1_015133_000001_000001_000007_000001_000005_000003_000079_000009_000403_000195_001433_000385_008105_007893_016415_023253_127837,
  1_015137_000001_000003_000007_000003_000023_000045_000115_000027_000473_000241_000361_001787_004247_013451_005627_032923_029375,
  1_015138_000001_000003_000007_000001_000005_000055_000043_000037_000481_000899_000051_002459_005005_012365_019261_032797_045843,
  1_015149_000001_000003_000007_000005_000009_000041_000083_000163_000241_000899_000567_000231_004897_015175_010329_006625_095927,
  1_015152_000001_000003_000001_000001_000007_000051_000061_000055_000253_000315_001893_002635_004061_000257_014147_036639_024893,
  1_015155_000001_000001_000005_000001_000013_000063_000115_000119_000205_000309_000277_002191_000341_004715_013111_058043_051241,
  1_015158_000001_000003_000001_000015_000017_000023_000089_000121_000205_000015_000295_000667_000421_014071_027719_001335_009887,
  1_015187_000001_000003_000005_000005_000017_000049_000005_000093_000251_000613_001029_000945_001547_010479_020183_026787_120441,
  1_015189_000001_000003_000003_000015_000017_000011_000063_000097_000499_000313_000881_002233_004287_005141_013841_040725_049285,
  1_015190_000001_000003_000003_000011_000019_000033_000105_000203_000325_000337_000353_001923_007157_008623_023881_004513_071495,
  1_015196_000001_000001_000005_000001_000003_000015_000119_000043_000085_000869_001597_002433_000845_005065_012813_064849_058491,
  1_015199_000001_000003_000007_000007_000025_000063_000119_000093_000303_000665_000571_001795_005853_013527_012715_036483_057723,
  1_015205_000001_000003_000007_000013_000019_000043_000055_000085_000189_000627_001457_003185_003491_001913_013399_030681_069015]

def dirRows17_0_18 : List Nat := [
  1_015212_000001_000003_000005_000009_000005_000041_000051_000065_000147_000425_000569_001317_001557_007631_017243_037847_051161,
  1_015236_000001_000001_000003_000007_000029_000039_000061_000127_000489_000089_000749_002073_000195_014367_013533_027403_016365,
  1_015243_000001_000003_000007_000015_000013_000035_000045_000157_000373_000415_000725_000779_003559_007489_011369_036501_060761,
  1_015246_000001_000003_000001_000003_000013_000045_000025_000215_000385_000709_000499_003861_000761_015597_003335_037013_013173,
  1_015260_000001_000001_000007_000001_000013_000049_000089_000135_000175_001015_000067_000957_004893_009843_013027_014709_059721,
  1_015267_000001_000003_000003_000011_000019_000037_000109_000143_000135_000535_001543_003991_000189_006739_028087_018845_041819,
  1_015274_000001_000001_000007_000005_000001_000007_000011_000005_000211_000251_001593_002527_003539_010471_025595_060119_089213,
  1_015279_000001_000001_000005_000007_000013_000051_000121_000167_000299_000403_000977_000521_000279_015521_015901_000935_014065,
  1_015281_000001_000001_000007_000013_000007_000021_000027_000205_000377_000801_001365_001567_006651_000139_014229_030827_050429,
  1_015282_000001_000001_000001_000001_000017_000011_000075_000087_000217_000413_001923_001765_002037_014061_012433_030671_024883,
  1_015284_000001_000001_000005_000013_000017_000051_000091_000241_000095_000505_000349_002689_001117_004435_001713_044501_125619,
  1_015291_000001_000001_000003_000015_000011_000021_000025_000059_000511_000353_000799_000091_004517_016005_017061_021841_046311,
  1_015293_000001_000001_000001_000005_000019_000053_000109_000177_000213_000373_000761_000453_005753_000069_003503_049411_111105,
  1_015302_000001_000003_000001_000005_000021_000027_000103_000167_000109_000055_001849_003999_007801_004185_009789_007515_124983,
  1_015319_000001_000003_000007_000007_000025_000009_000065_000127_000141_000169_001079_003377_000691_005119_006629_003517_028963,
  1_015329_000001_000001_000003_000011_000015_000061_000127_000035_000087_000891_001459_000483_006763_016173_005633_006939_063411,
  1_015336_000001_000003_000005_000003_000007_000063_000111_000085_000415_000273_001705_004045_005551_002377_029025_016831_090203,
  1_015347_000001_000003_000005_000013_000007_000023_000103_000227_000477_000985_001059_001489_007233_001917_010409_038759_086761,
  1_015353_000001_000003_000005_000007_000031_000033_000075_000041_000355_000577_000225_000005_000897_015653_027415_000083_014911,
  1_015361_000001_000003_000005_000005_000023_000013_000005_000043_000165_000053_000149_002005_004545_000477_017885_021343_035751,
  1_015371_000001_000003_000003_000003_000025_000051_000033_000203_000291_000835_000241_003255_003709_003573_009859_033027_122801,
  1_015397_000001_000003_000005_000007_000013_000007_000003_000141_000455_000067_002003_003411_004717_000157_029491_014429_044849,
  1_015404_000001_000001_000001_000011_000003_000033_000101_000093_000219_000371_001191_001521_001663_008485_024815_038283_120867,
  1_015407_000001_000001_000003_000009_000025_000061_000071_000173_000069_000181_001525_002129_002979_000019_013489_000627_072619,
  1_015421_000001_000003_000001_000007_000025_000033_000039_000247_000221_000007_000683_001837_008037_009125_004259_063049_063021,
  1_015433_000001_000003_000003_000009_000017_000015_000009_000189_000357_000707_000521_000711_008189_012945_029675_011851_126813,
  1_015441_000001_000003_000001_000001_000023_000003_000057_000133_000245_000301_000957_000239_003139_007949_027133_018229_093015,
  1_015442_000001_000001_000003_000001_000029_000023_000035_000087_000231_000257_001997_000271_003019_003409_010613_042245_111309,
  1_015463_000001_000001_000003_000003_000001_000021_000017_000037_000393_000943_000791_003101_006715_011907_025369_009061_075381,
  1_015472_000001_000001_000007_000007_000017_000031_000025_000007_000183_000819_001265_003343_006845_002039_003779_041861_038309,
  1_015478_000001_000001_000001_000005_000017_000025_000001_000041_000173_000995_000863_003515_001779_002159_028223_064661_040697,
  1_015488_000001_000001_000003_000015_000029_000049_000081_000241_000511_000817_001301_003593_006759_007483_008859_030339_106137,
  1_015493_000001_000003_000001_000011_000017_000061_000095_000231_000003_000693_000037_001091_003111_011941_017475_008073_062373,
  1_015498_000001_000001_000001_000003_000007_000025_000093_000007_000291_000957_000859_002519_000241_010963_010403_000933_050599,
  1_015511_000001_000001_000007_000001_000007_000033_000121_000091_000369_000333_000229_004073_006063_006491_031711_065061_107843,
  1_015521_000001_000001_000005_000015_000017_000001_000117_000195_000445_000547_000867_002893_004835_006513_029091_060367_033409,
  1_015534_000001_000003_000003_000007_000015_000005_000125_000131_000165_000127_000207_000853_005927_003605_017083_044481_111333,
  1_015539_000001_000001_000001_000009_000003_000043_000075_000191_000319_000889_001513_003301_001535_004693_010367_012491_043175,
  1_015541_000001_000003_000005_000005_000029_000019_000075_000221_000393_000977_001373_001571_007377_001763_018073_011381_101241,
  1_015560_000001_000003_000001_000015_000003_000015_000073_000091_000165_000213_001077_001267_002411_015807_003979_012731_086597,
  1_015563_000001_000001_000003_000007_000003_000021_000005_000135_000095_000337_001853_001675_002449_012535_018505_060127_076949,
  1_015574_000001_000001_000007_000003_000015_000011_000063_000127_000329_000169_001569_000675_004801_005859_003243_025811_077841,
  1_015578_000001_000001_000001_000009_000019_000013_000073_000119_000105_000537_000951_001033_005303_005775_000815_019277_057607,
  1_015584_000001_000003_000005_000005_000023_000021_000091_000231_000117_001007_001603_000841_002595_011223_017171_025963_017049,
  1_015593_000001_000001_000005_000011_000015_000043_000007_000229_000055_000129_000599_000993_000563_015677_016703_036253_017847,
  1_015604_000001_000003_000001_000009_000025_000003_000109_000021_000087_000721_001927_003219_003395_003267_009117_013591_089267,
  1_015614_000001_000001_000001_000015_000011_000017_000047_000049_000125_000925_000333_000945_002411_010907_012021_047857_084303,
  1_015619_000001_000001_000001_000001_000023_000011_000099_000215_000105_000417_000823_001289_000421_012285_017711_035389_001935,
  1_015622_000001_000001_000001_000015_000027_000007_000023_000141_000007_000929_000147_000681_005473_004173_028645_042053_083573,
  1_015633_000001_000001_000001_000011_000005_000061_000071_000065_000287_000697_001183_003257_007251_014011_021349_042445_004701,
  1_015639_000001_000003_000005_000009_000005_000023_000045_000217_000369_000189_001495_000107_000425_010467_004909_064293_017885,
  1_015646_000001_000001_000003_000011_000021_000045_000075_000065_000057_000893_000783_003429_000409_013617_000483_062489_002919,
  1_015673_000001_000001_000007_000003_000005_000061_000051_000255_000501_000839_000367_001165_007055_008139_023891_018807_020739,
  1_015674_000001_000001_000003_000007_000023_000015_000097_000139_000323_000463_000921_001529_006655_008697_023577_056761_062023,
  1_015684_000001_000001_000005_000011_000013_000011_000057_000225_000277_000713_001427_000095_001135_007721_030731_032625_107891,
  1_015691_000001_000001_000005_000007_000023_000035_000039_000091_000291_000609_000919_003325_006843_007659_005603_037471_041495,
  1_015694_000001_000001_000001_000001_000025_000011_000117_000015_000389_000589_001345_000423_006531_009903_020243_009523_022991,
  1_015696_000001_000003_000005_000015_000029_000007_000057_000113_000387_000883_001141_003295_002973_004129_016973_033429_109997,
  1_015701_000001_000003_000005_000003_000025_000001_000073_000207_000353_000203_001479_000985_006373_003079_028403_063675_021787,
  1_015705_000001_000003_000001_000005_000031_000039_000107_000197_000359_000045_000203_000559_004721_006579_011305_012957_010061,
  1_015715_000001_000003_000007_000015_000009_000003_000055_000153_000373_000981_000575_000827_004757_015743_014295_043875_017847,
  1_015729_000001_000003_000005_000001_000017_000001_000093_000087_000207_000997_001695_003643_006973_009507_029309_058531_006849,
  1_015730_000001_000003_000001_000011_000003_000039_000017_000241_000083_000931_000039_003839_006437_005159_028869_061859_096873,
  1_015741_000001_000001_000005_000013_000029_000043_000071_000159_000261_000563_000695_001205_002273_008077_012569_017187_054369,
  1_015745_000001_000003_000007_000005_000011_000057_000017_000031_000311_001001_001419_003899_006679_015531_028877_028221_105413,
  1_015748_000001_000003_000003_000013_000023_000029_000127_000019_000345_001003_001571_002219_003199_009903_018701_031865_108879,
  1_015757_000001_000003_000007_000013_000023_000051_000095_000043_000035_000439_000025_000323_002365_012407_027525_057795_074495,
  1_015765_000001_000001_000001_000001_000017_000043_000057_000185_000439_000929_000069_000813_006205_003139_003853_056967_019073,
  1_015766_000001_000003_000007_000001_000027_000005_000043_000211_000395_000113_001675_001505_006171_005169_009991_021641_027101,
  1_015775_000001_000003_000003_000001_000017_000041_000059_000131_000131_000339_000955_001145_005301_004585_020441_043227_023123,
  1_015776_000001_000001_000007_000009_000009_000055_000061_000031_000071_000229_000963_003247_004677_009595_021715_036391_086997,
  1_015779_000001_000001_000007_000005_000009_000017_000055_000179_000027_000229_000079_001335_005887_001003_022085_034377_051367,
  1_015786_000001_000001_000001_000005_000011_000045_000015_000219_000411_000027_001003_001553_000303_013571_013985_006801_052407,
  1_015788_000001_000003_000003_000007_000007_000055_000111_000255_000453_000409_001863_001449_004103_008725_026923_005017_043657,
  1_015813_000001_000001_000001_000015_000023_000003_000095_000057_000029_000727_001111_003309_001089_000471_016099_011517_051563,
  1_015814_000001_000003_000001_000015_000017_000057_000083_000163_000251_000987_001159_002079_003463_013109_007443_008665_123397,
  1_015842_000001_000001_000007_000001_000027_000013_000035_000209_000471_000843_001029_001383_005413_002085_013431_026557_047033,
  1_015851_000001_000003_000001_000001_000021_000021_000083_000135_000303_000027_001407_001751_000331_009207_031891_059287_120687,
  1_015862_000001_000001_000001_000009_000011_000035_000103_000157_000001_000855_000175_003203_004381_003113_027589_004567_031897,
  1_015875_000001_000001_000003_000005_000021_000005_000123_000161_000301_000101_000909_000947_006893_015459_029139_049377_094901,
  1_015878_000001_000003_000007_000007_000021_000027_000005_000069_000427_000409_001389_003737_000847_002775_000603_001001_087651,
  1_015889_000001_000001_000003_000005_000001_000057_000109_000089_000099_000593_000581_003527_001557_004971_027523_026909_035787,
  1_015896_000001_000001_000007_000003_000031_000019_000083_000065_000239_000919_000015_002289_004117_009127_006033_049667_089343,
  1_015901_000001_000003_000007_000007_000009_000031_000087_000117_000195_000681_001711_001753_002221_010053_001985_006273_021801,
  1_015908_000001_000003_000001_000007_000021_000061_000053_000231_000309_000115_001729_003883_006085_004825_031455_050097_059779,
  1_015911_000001_000001_000001_000009_000029_000025_000045_000091_000145_000927_000147_000371_002603_012537_017267_059895_128009,
  1_015915_000001_000001_000001_000001_000015_000041_000063_000043_000167_000215_000015_003387_001811_012391_025721_006961_013701,
  1_015938_000001_000001_000007_000001_000027_000063_000025_000085_000337_000799_000087_002237_004085_014529_011493_060149_086399,
  1_015944_000001_000003_000001_000011_000001_000041_000103_000145_000279_000805_001201_000823_005411_004227_025999_014373_036295,
  1_015950_000001_000001_000007_000003_000027_000051_000083_000105_000155_000657_001879_003869_002559_002939_019785_047167_034503,
  1_015955_000001_000003_000001_000005_000003_000031_000047_000241_000257_000015_000983_004095_003745_003901_001639_005421_081585,
  1_015974_000001_000003_000003_000005_000031_000013_000127_000125_000175_000577_001103_003573_006229_013969_006267_019067_003933,
  1_015978_000001_000001_000007_000001_000031_000017_000015_000015_000411_000553_001929_003731_001955_011749_021991_039189_124427,
  1_015980_000001_000003_000005_000005_000019_000063_000093_000201_000491_000599_001093_000767_003411_013087_023569_042981_035757,
  1_015983_000001_000001_000001_000015_000027_000007_000051_000101_000429_000939_000111_000781_002055_014227_017821_042097_032485,
  1_015991_000001_000003_000007_000013_000011_000021_000003_000161_000353_000389_000285_002633_006245_007089_021907_040765_088869,
  1_016004_000001_000001_000005_000009_000007_000027_000101_000203_000243_000897_001375_001619_005275_012935_022103_038005_065603,
  1_016011_000001_000001_000005_000009_000013_000025_000015_000021_000447_000007_000947_001613_005055_000129_018057_058551_006603,
  1_016016_000001_000003_000007_000015_000017_000041_000011_000055_000103_000339_000349_001813_007423_011837_020641_051951_061615,
  1_016019_000001_000003_000003_000015_000021_000059_000113_000003_000123_000689_000465_003039_004109_003241_030317_065053_117845]

def dirRows17_0_19 : List Nat := [
  1_016025_000001_000003_000003_000001_000031_000033_000073_000155_000245_000401_000473_000051_001387_000489_010573_055401_106733,
  1_016041_000001_000003_000003_000001_000031_000037_000015_000139_000127_000201_000229_001753_007287_009045_018321_063485_026399,
  1_016064_000001_000003_000005_000005_000005_000023_000093_000003_000125_000715_001827_000419_001213_009031_025139_020771_041345,
  1_016067_000001_000003_000005_000015_000023_000015_000013_000145_000105_000477_001131_002699_001929_010447_009655_026791_080101,
  1_016074_000001_000001_000001_000013_000001_000035_000075_000073_000269_000851_000737_001909_006805_011359_028991_052435_083767,
  1_016082_000001_000001_000007_000005_000011_000031_000031_000091_000111_000161_001865_002545_000133_012215_008957_020671_092975,
  1_016103_000001_000001_000007_000005_000025_000053_000055_000121_000053_000457_000831_002493_000339_010955_030783_009095_097921,
  1_016109_000001_000001_000005_000003_000025_000033_000081_000051_000211_000737_001865_004039_006931_008473_022459_024885_096355,
  1_016122_000001_000003_000007_000013_000023_000005_000101_000171_000065_000793_000443_000411_007629_014791_028633_009055_123763,
  1_016149_000001_000003_000003_000001_000011_000007_000099_000079_000461_000481_001689_003777_002125_004783_013061_019537_068109,
  1_016170_000001_000001_000003_000011_000031_000053_000109_000007_000049_000925_001017_002371_001537_013557_000075_040677_049181,
  1_016175_000001_000003_000003_000003_000009_000001_000095_000113_000189_000389_000377_000393_006523_003183_006461_030201_066549,
  1_016178_000001_000001_000007_000015_000013_000019_000041_000171_000475_000157_000949_003245_005581_002783_025263_053023_011155,
  1_016189_000001_000003_000005_000007_000029_000063_000061_000065_000315_000595_000905_000899_005059_004243_027287_014023_064213,
  1_016202_000001_000003_000001_000003_000015_000037_000109_000161_000009_000867_001023_002513_004593_007747_001505_004801_127091,
  1_016204_000001_000003_000001_000007_000011_000059_000075_000129_000469_000695_000063_002757_006357_008675_006193_023439_066445,
  1_016222_000001_000001_000003_000013_000017_000009_000047_000091_000161_000265_000139_000129_006707_009659_008917_054757_077835,
  1_016231_000001_000001_000003_000013_000019_000037_000113_000255_000099_000913_001445_000487_000337_001001_016395_037141_066595,
  1_016238_000001_000001_000001_000015_000003_000063_000069_000043_000185_000293_001137_002061_002377_008741_026817_005833_007807,
  1_016262_000001_000001_000001_000005_000003_000029_000039_000033_000263_000355_000597_000539_005055_013075_008977_019829_088171,
  1_016265_000001_000003_000007_000009_000017_000049_000125_000101_000447_000597_001337_000559_002807_007925_012421_017427_034815,
  1_016276_000001_000003_000001_000009_000011_000057_000031_000163_000503_000925_000911_003721_002515_008429_025749_055209_090105,
  1_016285_000001_000003_000005_000003_000021_000057_000119_000233_000319_000745_000563_003057_002683_007063_011513_049157_064561,
  1_016313_000001_000001_000003_000009_000015_000021_000093_000099_000227_000479_000965_000051_006941_009887_032409_023171_098387,
  1_016314_000001_000003_000005_000005_000019_000001_000047_000049_000233_000931_000971_002369_002827_001291_018653_000725_019791,
  1_016321_000001_000001_000005_000015_000003_000007_000071_000251_000341_000861_001203_000793_007627_010929_010717_010677_049743,
  1_016327_000001_000003_000001_000007_000003_000043_000009_000187_000247_000621_001069_002875_001525_004221_018813_035807_117609,
  1_016333_000001_000003_000003_000003_000029_000039_000083_000201_000205_000337_000231_000547_002893_002483_006197_026869_018921,
  1_016334_000001_000001_000007_000003_000023_000029_000033_000137_000491_000691_000979_000065_005711_011685_005137_037993_037075,
  1_016364_000001_000003_000003_000001_000011_000003_000099_000119_000203_000901_001887_000879_007547_004613_031233_013279_105089,
  1_016369_000001_000001_000001_000013_000025_000023_000111_000167_000313_000141_000127_001223_005711_004101_010977_034695_128303,
  1_016370_000001_000001_000007_000015_000005_000003_000089_000151_000289_000769_000539_002883_008121_015403_022345_063765_117015,
  1_016375_000001_000001_000001_000013_000015_000009_000071_000095_000037_000705_001575_003735_007445_002027_027523_053321_106085,
  1_016376_000001_000003_000005_000007_000005_000029_000007_000025_000181_000491_001173_001947_003321_009233_017265_026999_097783,
  1_016379_000001_000001_000003_000015_000001_000063_000111_000113_000279_000123_000345_001529_002725_008643_008551_030073_026689,
  1_016393_000001_000003_000007_000007_000005_000055_000117_000211_000293_000851_001491_003265_004009_014949_010297_016219_069983,
  1_016402_000001_000001_000003_000011_000023_000045_000035_000091_000097_000191_000417_003545_001733_003955_010763_010229_075027,
  1_016408_000001_000001_000003_000013_000003_000061_000069_000205_000379_000627_000295_003979_000085_011305_002493_035583_003133,
  1_016418_000001_000003_000005_000009_000005_000063_000067_000201_000351_000367_001009_000739_005409_008715_028939_031511_034599,
  1_016438_000001_000001_000001_000005_000003_000025_000021_000025_000477_000301_000623_000157_000563_009457_024515_030135_107165,
  1_016441_000001_000001_000003_000015_000005_000041_000049_000171_000469_000427_000857_002165_001437_002151_024061_063243_105331,
  1_016447_000001_000003_000005_000011_000021_000025_000059_000167_000029_000653_001503_002223_003889_004605_028381_036075_074907,
  1_016450_000001_000003_000007_000007_000017_000055_000073_000127_000033_000319_001565_002761_006473_002187_019939_056687_112137,
  1_016455_000001_000001_000001_000009_000007_000053_000105_000003_000299_000015_001009_000607_006885_012875_020719_016841_070471,
  1_016459_000001_000003_000005_000009_000007_000033_000023_000163_000279_000739_001541_003017_002309_011827_003875_044337_082063,
  1_016483_000001_000001_000001_000005_000019_000053_000109_000193_000331_000339_000477_004093_005177_013527_025731_064137_081411,
  1_016490_000001_000003_000007_000013_000015_000063_000101_000145_000127_000013_001431_003581_004993_014287_012125_060217_102563,
  1_016492_000001_000003_000001_000007_000017_000027_000127_000081_000223_000763_000761_002061_001031_012251_014141_023587_124813,
  1_016495_000001_000003_000005_000013_000027_000021_000009_000249_000285_000875_000065_004075_006749_013417_003079_029343_087075,
  1_016523_000001_000003_000005_000013_000001_000031_000061_000021_000169_000145_001681_001229_005059_013555_021373_035597_070669,
  1_016528_000001_000003_000007_000015_000023_000031_000043_000237_000139_000009_001905_003197_000801_014205_013323_018717_088523,
  1_016543_000001_000001_000001_000011_000001_000007_000021_000083_000015_000459_000537_004029_006973_004019_000001_035147_016329,
  1_016553_000001_000003_000007_000015_000023_000011_000017_000101_000235_000683_000913_003529_004363_013899_003603_027741_074143,
  1_016562_000001_000001_000007_000007_000003_000003_000091_000107_000499_000723_000315_002805_005909_011041_018281_054981_076041,
  1_016564_000001_000003_000007_000009_000015_000007_000093_000171_000275_000647_000655_003565_002199_014795_021945_009373_122299,
  1_016576_000001_000001_000001_000005_000027_000053_000073_000027_000431_000707_000053_001281_000049_013199_001973_018935_114821,
  1_016588_000001_000001_000003_000003_000025_000001_000017_000159_000217_000413_001393_002119_005611_007659_006003_019927_022287,
  1_016612_000001_000001_000007_000015_000029_000059_000077_000009_000205_000795_000627_002167_002477_006841_017663_034871_079823,
  1_016630_000001_000003_000005_000009_000013_000035_000079_000237_000011_000335_000789_002291_000013_000853_020373_039049_000407,
  1_016654_000001_000001_000005_000007_000013_000027_000021_000173_000137_000659_000123_002677_002153_014879_026737_056291_047613,
  1_016656_000001_000003_000005_000015_000023_000047_000015_000109_000311_000597_000261_002407_008139_003215_028169_060731_079937,
  1_016668_000001_000003_000003_000005_000011_000061_000071_000029_000189_000741_001171_000397_002669_010627_020037_051703_006697,
  1_016672_000001_000003_000003_000003_000009_000041_000125_000001_000381_000399_000349_003265_006337_008113_014869_005305_083409,
  1_016675_000001_000001_000003_000013_000005_000019_000033_000225_000045_000055_001809_001037_005443_015719_009963_000363_015145,
  1_016678_000001_000003_000007_000001_000031_000025_000103_000029_000207_000169_000305_000913_007501_015323_010575_013477_065245,
  1_016681_000001_000003_000003_000015_000013_000023_000069_000255_000333_000157_000279_001989_003439_012955_013649_052431_090009,
  1_016689_000001_000003_000007_000005_000023_000061_000111_000121_000079_000469_000089_001545_003405_012393_002035_015989_084855,
  1_016699_000001_000001_000007_000005_000017_000021_000127_000151_000283_000521_000005_003023_005365_011633_021177_042207_048925,
  1_016719_000001_000003_000007_000005_000021_000021_000061_000017_000415_000879_001485_003727_000935_009899_023241_000651_103701,
  1_016734_000001_000003_000005_000015_000031_000047_000019_000245_000249_000467_000253_001575_000337_000863_019353_013153_125453,
  1_016737_000001_000001_000007_000015_000009_000041_000039_000063_000139_000875_001011_001961_001627_007461_028961_047195_016239,
  1_016750_000001_000003_000003_000007_000027_000055_000051_000245_000231_000619_000043_000091_002125_002685_023661_010189_043085,
  1_016752_000001_000001_000007_000009_000027_000055_000035_000139_000187_000143_001545_002685_003173_012065_021607_042619_105279,
  1_016757_000001_000001_000005_000003_000029_000063_000015_000197_000049_000995_000389_001959_002441_011509_031753_040539_026989,
  1_016761_000001_000003_000007_000015_000019_000037_000017_000037_000305_000469_000945_002335_001493_013843_019905_049031_107893,
  1_016773_000001_000003_000001_000011_000003_000035_000113_000181_000223_000027_000485_002435_003423_011321_001687_045755_018017,
  1_016774_000001_000003_000003_000013_000017_000047_000109_000145_000287_000769_001373_003423_001251_014357_003209_028363_097987,
  1_016801_000001_000001_000003_000013_000007_000025_000093_000011_000023_000331_000517_001705_001957_000291_000763_010411_120367,
  1_016802_000001_000003_000007_000015_000025_000009_000001_000033_000083_000061_000097_000509_005387_008701_014243_031883_007375,
  1_016822_000001_000003_000001_000005_000019_000011_000059_000095_000265_000205_000533_001857_000693_012469_024445_019449_130623,
  1_016831_000001_000001_000007_000007_000001_000005_000015_000159_000333_000361_000391_001889_002645_015115_030709_060515_013315,
  1_016840_000001_000003_000005_000015_000025_000061_000069_000213_000183_000575_001573_003147_001753_002387_023063_012853_108507,
  1_016854_000001_000001_000001_000015_000017_000031_000011_000177_000411_000023_000469_003985_002159_002273_014175_020425_107741,
  1_016858_000001_000001_000003_000009_000005_000035_000055_000225_000263_000641_001393_001277_000595_002671_007039_064999_114387,
  1_016863_000001_000001_000003_000003_000011_000023_000001_000161_000077_000755_001325_001773_004291_013119_029677_027295_081713,
  1_016867_000001_000001_000005_000013_000031_000045_000115_000141_000449_000171_001413_002411_007937_010859_019453_064403_045169,
  1_016876_000001_000003_000005_000007_000001_000027_000117_000157_000099_000119_001281_002633_005117_016009_019545_007421_030807,
  1_016891_000001_000001_000003_000013_000019_000011_000061_000239_000331_000731_001723_001773_002623_015255_017197_063793_100433,
  1_016894_000001_000003_000007_000011_000011_000007_000119_000033_000195_000521_000811_002599_003113_005497_016751_002541_021813,
  1_016898_000001_000001_000001_000015_000023_000047_000025_000073_000429_000213_000557_001613_007055_007211_002225_001345_058033,
  1_016907_000001_000001_000001_000013_000015_000039_000069_000071_000011_000543_000267_002803_004853_009819_000603_004629_078343,
  1_016915_000001_000001_000007_000001_000015_000055_000047_000223_000063_000679_001135_003225_003845_012031_006761_020337_029021,
  1_016917_000001_000001_000003_000003_000003_000051_000127_000103_000043_000379_000169_002549_007775_002553_027415_030671_034043,
  1_016922_000001_000001_000003_000011_000001_000031_000089_000113_000475_000857_000499_003901_005343_008819_004503_058757_060513,
  1_016924_000001_000003_000005_000011_000027_000049_000097_000217_000091_000971_001835_003447_002021_003747_020533_013659_084007,
  1_016933_000001_000001_000005_000001_000031_000039_000049_000021_000135_000983_000579_003509_003611_015101_029781_049941_014353,
  1_016938_000001_000001_000001_000009_000007_000017_000055_000233_000295_000161_000823_003823_004771_013531_024197_042629_060269,
  1_016952_000001_000001_000003_000015_000023_000005_000101_000167_000055_000297_001733_003819_007041_009915_027803_060359_010249,
  1_016960_000001_000001_000007_000009_000025_000047_000067_000253_000303_000313_001389_003785_002729_011471_027267_042783_111595,
  1_016963_000001_000001_000005_000013_000025_000063_000017_000195_000457_000793_001553_001673_006799_012171_009003_022195_090229]

def dirRows17_0_20 : List Nat := [
  1_016969_000001_000001_000003_000015_000011_000043_000043_000221_000423_000985_000873_000599_001753_004875_007149_034625_008941,
  1_016978_000001_000003_000005_000011_000001_000007_000109_000163_000309_000477_001291_003019_001933_014055_015005_001141_066867,
  1_017014_000001_000003_000003_000015_000021_000035_000095_000131_000413_001009_000147_002165_006333_008313_020873_018377_023579,
  1_017020_000001_000003_000001_000005_000021_000049_000029_000187_000067_000419_000253_002345_003179_012331_023127_008799_102493,
  1_017034_000001_000001_000007_000005_000029_000059_000013_000189_000377_000595_001893_000527_007993_014867_024671_014585_038645,
  1_017036_000001_000003_000005_000013_000003_000011_000099_000069_000253_000833_001961_002719_003953_008143_021277_016257_026929,
  1_017042_000001_000003_000007_000003_000003_000019_000019_000057_000393_000187_000945_002107_000669_014785_013895_026907_092439,
  1_017047_000001_000003_000005_000015_000011_000005_000073_000167_000099_000887_001213_002019_003781_014345_030249_016215_001893,
  1_017051_000001_000001_000005_000001_000017_000011_000069_000145_000097_000393_001587_002513_001011_006933_007945_041387_034361,
  1_017054_000001_000001_000005_000001_000005_000059_000057_000001_000501_000855_001485_000977_004981_007631_031853_030737_103023,
  1_017063_000001_000003_000001_000005_000003_000027_000055_000171_000317_000641_001875_002523_001631_004971_018743_025119_118913,
  1_017069_000001_000001_000003_000015_000007_000039_000073_000209_000125_000029_001031_001569_001793_005461_000985_059441_092997,
  1_017075_000001_000003_000005_000011_000027_000023_000057_000013_000065_000555_001309_001149_005125_011573_003835_057913_078699,
  1_017077_000001_000003_000007_000005_000029_000007_000051_000131_000443_000623_001491_001067_006647_006277_025799_054843_090869,
  1_017089_000001_000001_000001_000011_000007_000033_000067_000113_000319_000665_000011_001225_003137_016269_020101_040263_031091,
  1_017090_000001_000003_000005_000015_000007_000005_000101_000153_000165_000173_000097_001651_006633_006071_029079_035641_077305,
  1_017107_000001_000003_000007_000013_000009_000045_000103_000055_000121_001021_001841_000315_008127_006547_001093_007181_039575,
  1_017126_000001_000003_000003_000011_000015_000017_000027_000055_000341_000443_000377_000681_003635_001091_016719_049403_085507,
  1_017135_000001_000003_000005_000005_000029_000053_000051_000213_000273_000475_000981_000549_000539_014989_004037_023911_045997,
  1_017150_000001_000003_000005_000003_000027_000037_000073_000115_000331_000911_000991_004049_006299_003919_010231_031507_098651,
  1_017162_000001_000001_000005_000013_000021_000013_000001_000175_000137_000837_001067_002845_000307_004399_015671_001309_107409,
  1_017169_000001_000001_000003_000001_000005_000047_000111_000075_000193_000389_000157_003731_006237_005053_009933_028413_032939,
  1_017172_000001_000001_000007_000005_000029_000001_000051_000085_000267_000935_001021_003135_003135_009263_032597_006779_071473,
  1_017175_000001_000003_000005_000009_000021_000059_000027_000099_000155_000507_001911_003501_004307_006755_017127_029815_001577,
  1_017176_000001_000001_000005_000001_000015_000063_000045_000105_000125_000299_000689_003935_007229_005007_025003_030453_027819,
  1_017191_000001_000001_000007_000015_000019_000009_000067_000151_000045_000985_002015_000833_005435_015383_025881_046735_056717,
  1_017209_000001_000001_000005_000015_000027_000059_000119_000163_000293_000063_001251_001309_000485_004937_027207_047481_114357,
  1_017218_000001_000003_000005_000013_000023_000011_000111_000087_000329_000467_001657_003309_003421_012013_023163_014105_088761,
  1_017220_000001_000001_000005_000011_000017_000063_000009_000061_000299_000585_000341_003375_003213_015953_011455_005333_066889,
  1_017227_000001_000003_000005_000005_000005_000035_000057_000235_000137_000543_000077_002811_000857_012793_010791_055711_093353,
  1_017229_000001_000003_000007_000003_000023_000037_000019_000081_000321_000023_001625_002359_003569_004685_007385_032677_018073,
  1_017238_000001_000003_000003_000007_000021_000035_000081_000229_000207_000547_001397_002709_007159_001265_016823_009921_029159,
  1_017251_000001_000003_000007_000013_000027_000013_000107_000241_000395_000317_000307_003927_001153_015915_025179_025173_021503,
  1_017257_000001_000003_000001_000005_000001_000051_000025_000135_000381_000229_001491_002009_003331_016165_008169_065161_009335,
  1_017258_000001_000001_000005_000005_000017_000015_000057_000221_000183_000225_001649_003701_000299_012349_004691_064479_082237,
  1_017272_000001_000003_000007_000007_000031_000039_000065_000183_000149_000067_001697_003933_003709_015501_012583_060117_088691,
  1_017277_000001_000001_000005_000015_000017_000049_000117_000233_000161_000891_000789_001347_004887_010713_010613_004389_042619,
  1_017308_000001_000003_000005_000009_000013_000003_000083_000069_000381_000777_000743_002843_007233_003285_008931_048667_120777,
  1_017311_000001_000003_000001_000003_000011_000007_000055_000107_000165_000533_001897_003385_001069_012805_030125_042729_123977,
  1_017321_000001_000001_000001_000005_000013_000017_000103_000237_000077_000537_001843_002817_007467_013647_015259_003525_018313,
  1_017329_000001_000001_000007_000007_000013_000059_000029_000197_000309_000917_001173_002605_004313_012007_025611_060409_104931,
  1_017342_000001_000003_000003_000003_000027_000057_000007_000207_000491_000467_001973_003075_008043_003977_014517_013179_047111,
  1_017344_000001_000001_000007_000005_000031_000033_000125_000235_000079_000847_001893_003875_007513_001435_024959_046813_082053,
  1_017350_000001_000003_000007_000005_000003_000053_000103_000001_000215_000071_000787_000223_001399_006793_011281_039201_122119,
  1_017356_000001_000003_000003_000003_000003_000057_000007_000151_000319_000463_000685_002917_004037_014929_011971_041827_057449,
  1_017371_000001_000001_000007_000003_000005_000011_000015_000139_000379_000563_000135_000065_005633_007535_001451_018289_062457,
  1_017374_000001_000001_000001_000015_000011_000023_000037_000057_000205_000107_000995_000151_003279_002015_028927_040731_095551,
  1_017392_000001_000003_000005_000009_000015_000043_000095_000217_000203_000215_000203_002207_008189_000465_002175_029285_025375,
  1_017402_000001_000003_000003_000005_000019_000059_000051_000123_000285_000721_001335_001777_001645_015811_016539_014637_123323,
  1_017410_000001_000003_000005_000005_000011_000035_000023_000023_000259_000789_000567_001921_004743_006635_006965_043025_043175,
  1_017421_000001_000003_000007_000003_000007_000027_000077_000121_000285_000065_000647_000591_002553_007163_012057_043675_024227,
  1_017424_000001_000001_000005_000009_000003_000025_000017_000085_000235_000715_001913_002391_003719_011029_018359_006323_004703,
  1_017427_000001_000001_000001_000003_000025_000031_000037_000031_000089_000311_001797_003409_006785_009627_029721_058591_111429,
  1_017434_000001_000003_000001_000005_000009_000037_000047_000045_000419_000115_001009_001359_000065_001161_015673_016075_063895,
  1_017449_000001_000001_000003_000005_000025_000047_000027_000087_000441_000547_001801_003589_003773_012215_014509_012669_099983,
  1_017452_000001_000001_000001_000003_000019_000033_000051_000091_000447_000577_000491_000539_003177_007033_021633_051737_047089,
  1_017463_000001_000001_000003_000015_000023_000053_000093_000113_000143_000973_000999_002355_001489_003451_029821_023769_074633,
  1_017470_000001_000003_000007_000011_000027_000001_000035_000109_000111_000051_000425_003203_002585_011255_020939_000281_092133,
  1_017477_000001_000001_000001_000011_000013_000037_000013_000149_000421_000655_000079_003093_006429_001145_027663_052861_081431,
  1_017482_000001_000001_000005_000013_000019_000023_000105_000039_000097_000239_000469_001047_004727_012009_008055_045557_124219,
  1_017490_000001_000001_000001_000007_000007_000007_000005_000053_000269_000391_001893_002263_002109_011531_012109_031437_020445,
  1_017496_000001_000001_000003_000011_000009_000035_000069_000209_000093_000455_001117_003297_002597_015035_017943_019955_000829,
  1_017508_000001_000001_000005_000007_000023_000023_000101_000071_000339_000553_001653_002997_001191_003121_004575_049979_017353,
  1_017511_000001_000003_000003_000013_000013_000009_000051_000181_000033_000185_000111_000589_003117_010105_028811_031529_079657,
  1_017536_000001_000001_000005_000003_000009_000057_000103_000065_000211_000473_000519_003815_004087_002767_010213_037829_009523,
  1_017563_000001_000001_000005_000007_000007_000031_000081_000161_000311_000617_001689_003133_000057_014595_022783_018475_085811,
  1_017570_000001_000003_000005_000005_000021_000051_000099_000249_000007_000525_000885_003981_002851_000529_000947_029885_122901,
  1_017581_000001_000003_000001_000005_000001_000023_000085_000091_000309_000747_000183_001347_002399_015777_016205_015687_117333,
  1_017590_000001_000003_000007_000003_000029_000021_000099_000137_000297_000229_001063_002747_006415_007791_004775_062863_050849,
  1_017608_000001_000003_000001_000003_000011_000003_000053_000153_000103_000911_001595_001899_001049_011643_021105_061587_092399,
  1_017616_000001_000001_000005_000015_000029_000055_000099_000101_000181_000453_001917_002081_004687_004335_002817_011861_103167,
  1_017621_000001_000003_000007_000015_000011_000007_000009_000003_000477_000281_001141_000453_004993_007843_006169_049785_053827,
  1_017628_000001_000003_000007_000011_000025_000061_000077_000159_000083_000095_001223_000085_006309_016145_018729_000133_014193,
  1_017644_000001_000003_000003_000001_000007_000027_000097_000183_000263_000059_000915_003857_003349_008123_011251_055163_125703,
  1_017649_000001_000003_000005_000005_000017_000033_000057_000055_000503_000811_000953_000349_001949_009127_031015_014475_116769,
  1_017652_000001_000003_000001_000001_000003_000053_000059_000131_000421_000971_000089_003047_003513_013599_004569_054525_054779,
  1_017679_000001_000001_000003_000011_000009_000045_000095_000123_000197_000257_001073_001461_000005_012701_012559_034989_071631,
  1_017691_000001_000003_000003_000007_000001_000027_000055_000191_000447_000561_001975_002665_001341_008969_018519_047389_070847,
  1_017693_000001_000001_000005_000005_000003_000031_000015_000165_000095_000423_000233_002309_007777_003503_020105_003085_092349,
  1_017697_000001_000003_000001_000013_000023_000061_000007_000055_000157_000001_000083_000515_002169_014397_018149_056855_117265,
  1_017698_000001_000003_000003_000003_000003_000059_000069_000095_000127_000241_000065_003145_000491_013809_017529_020223_096579,
  1_017700_000001_000001_000001_000005_000013_000043_000117_000163_000305_000955_002007_003337_000807_016019_005721_005479_090937,
  1_017704_000001_000003_000003_000001_000019_000009_000127_000005_000113_000491_001873_002127_007949_005207_032531_000775_131065,
  1_017707_000001_000001_000007_000003_000001_000003_000091_000187_000037_000873_001039_004075_005645_000243_015127_045615_003813,
  1_017715_000001_000001_000003_000011_000003_000037_000067_000059_000439_000763_000213_001099_001659_012783_030297_060713_043497,
  1_017718_000001_000003_000003_000013_000023_000049_000047_000191_000245_000985_000487_003165_007803_002437_019073_030605_119641,
  1_017721_000001_000003_000007_000007_000019_000043_000007_000253_000093_000099_000145_000219_000699_002433_003009_000565_099671,
  1_017722_000001_000001_000003_000013_000007_000005_000009_000023_000219_000155_000925_003427_006631_016353_004115_020831_049525,
  1_017727_000001_000001_000007_000011_000015_000045_000041_000035_000301_000273_000241_004031_005441_008281_009341_008499_073841,
  1_017729_000001_000003_000007_000013_000009_000019_000079_000003_000163_000197_000509_002301_006971_011525_008805_033805_111595,
  1_017747_000001_000003_000003_000001_000015_000045_000069_000253_000155_000639_001045_000749_003619_014871_018063_049763_066687,
  1_017754_000001_000003_000003_000003_000029_000005_000041_000171_000265_000677_001719_002623_001721_012243_018741_039595_092873,
  1_017756_000001_000003_000005_000007_000027_000023_000069_000061_000453_000399_001857_003901_006565_015595_001083_015065_091249,
  1_017760_000001_000001_000005_000007_000001_000027_000009_000145_000095_000983_000685_002079_005117_005037_022695_053135_043569,
  1_017765_000001_000001_000003_000005_000005_000007_000069_000059_000331_000409_000179_000333_001293_003863_009473_012537_055605,
  1_017778_000001_000003_000005_000001_000001_000019_000001_000049_000317_000769_000091_002073_001765_001197_015029_052553_057361,
  1_017784_000001_000001_000005_000001_000023_000013_000011_000069_000345_000877_000041_000817_000617_014415_008337_053973_050007,
  1_017794_000001_000001_000007_000003_000019_000027_000069_000103_000115_000893_000219_002891_002813_009933_026401_063323_030909,
  1_017805_000001_000001_000005_000005_000027_000015_000119_000003_000011_000783_000541_002431_002395_003921_015471_034657_100295,
  1_017806_000001_000001_000007_000011_000015_000025_000039_000191_000345_001001_001773_000715_001627_015957_030085_034097_058747]

def dirRows17_0_21 : List Nat := [
  1_017817_000001_000001_000001_000005_000017_000043_000065_000081_000487_000387_001359_000145_002231_006693_015857_059539_079615,
  1_017824_000001_000001_000003_000005_000015_000019_000017_000233_000247_000611_000587_002587_002321_002835_001477_041991_088143,
  1_017839_000001_000003_000003_000015_000027_000015_000053_000061_000359_000989_000283_003569_005551_011849_020995_034065_069407,
  1_017842_000001_000003_000003_000011_000013_000031_000041_000087_000379_000047_001289_003143_004213_008643_017065_010707_062773,
  1_017844_000001_000003_000007_000001_000009_000061_000059_000121_000453_000663_000027_000793_004501_007713_000285_013279_011633,
  1_017851_000001_000001_000007_000005_000029_000051_000057_000015_000233_000743_000879_002317_003399_015741_000605_057529_087427,
  1_017862_000001_000001_000001_000001_000019_000059_000051_000119_000273_000403_001649_003877_003561_010931_021139_002599_077957,
  1_017868_000001_000003_000001_000003_000005_000001_000079_000131_000251_000585_000359_002073_007041_013611_022937_024645_072827,
  1_017871_000001_000003_000007_000009_000019_000039_000093_000137_000359_000565_001123_001301_004111_013683_001361_025147_038315,
  1_017873_000001_000001_000005_000013_000027_000031_000011_000243_000111_000243_001615_001649_002999_015873_019161_057485_035819,
  1_017896_000001_000003_000003_000005_000025_000057_000061_000207_000219_000969_000303_001165_006753_013473_010789_052883_045205,
  1_017904_000001_000001_000007_000011_000009_000053_000055_000175_000399_000981_000255_002499_000373_013131_026803_048017_025599,
  1_017909_000001_000001_000003_000003_000011_000023_000073_000025_000083_000039_001813_000747_003287_000795_011917_055509_105057,
  1_017920_000001_000003_000007_000015_000029_000059_000047_000171_000219_000875_000071_000123_008131_015595_012471_062439_000131,
  1_017923_000001_000003_000005_000013_000009_000027_000119_000233_000323_000943_000375_003647_000185_001639_000431_027225_130175,
  1_017947_000001_000003_000007_000003_000007_000017_000031_000155_000089_000835_001015_002019_003973_007087_016899_029591_040797,
  1_017950_000001_000003_000003_000001_000003_000011_000083_000231_000209_000537_001227_001519_001059_014027_018591_034031_125755,
  1_017956_000001_000003_000003_000001_000007_000039_000019_000099_000169_000961_000385_001621_007373_007459_008979_023643_017101,
  1_017959_000001_000001_000003_000011_000011_000023_000061_000037_000359_000981_000209_002555_002673_006501_012731_010735_097321,
  1_017966_000001_000001_000003_000013_000015_000061_000115_000119_000099_000755_001933_000345_003133_012071_026657_007133_018553,
  1_017971_000001_000003_000001_000005_000017_000007_000029_000119_000445_000911_000089_000019_006137_008037_019527_022467_029253,
  1_017973_000001_000001_000003_000011_000031_000021_000119_000021_000249_000371_000343_004037_007539_014473_023829_046415_060911,
  1_017992_000001_000001_000007_000009_000021_000053_000029_000149_000467_000893_000479_000359_001007_013955_009667_010245_074761,
  1_018006_000001_000003_000001_000007_000007_000045_000007_000077_000289_000271_001329_000261_005675_008275_007443_057945_117825,
  1_018009_000001_000001_000001_000003_000021_000057_000117_000077_000287_000119_001073_000915_002521_000455_007433_056953_084433,
  1_018010_000001_000001_000001_000009_000027_000047_000001_000189_000303_000375_000215_003117_004541_012877_015523_032317_104213,
  1_018022_000001_000001_000003_000001_000013_000039_000037_000249_000371_000159_001073_001351_004703_002715_017463_003945_051523,
  1_018039_000001_000003_000005_000005_000029_000015_000079_000025_000061_000995_001081_003377_000345_013773_004205_020589_083591,
  1_018046_000001_000001_000003_000001_000009_000001_000041_000039_000389_000509_000561_003273_001911_015271_022655_034713_002045,
  1_018069_000001_000003_000001_000015_000017_000001_000055_000055_000119_000707_000843_002657_003687_011557_018331_004935_110639,
  1_018074_000001_000003_000005_000001_000023_000035_000119_000215_000471_000643_001581_001965_002627_002991_003361_006737_111657,
  1_018076_000001_000003_000005_000007_000009_000019_000033_000197_000033_000993_001795_000595_007113_014721_012647_041035_013669,
  1_018085_000001_000001_000007_000015_000031_000039_000051_000157_000373_000473_000665_003541_006695_011741_005617_017189_129851,
  1_018086_000001_000003_000003_000007_000015_000037_000033_000175_000391_000159_000717_000593_000113_009331_010685_059003_026975,
  1_018095_000001_000001_000003_000005_000013_000041_000011_000109_000009_000899_001503_000901_006237_007789_009963_014923_063665,
  1_018100_000001_000003_000007_000007_000025_000061_000003_000231_000235_000029_001049_001997_005371_009047_029595_049239_108649,
  1_018109_000001_000001_000003_000005_000027_000001_000053_000209_000315_000747_001803_000011_001815_006539_008839_018385_088681,
  1_018121_000001_000001_000005_000013_000025_000055_000117_000197_000013_000689_000751_001203_002277_001763_023453_054459_118023,
  1_018127_000001_000003_000003_000011_000021_000001_000051_000101_000429_000723_000273_003021_001491_009923_006629_063741_098813,
  1_018129_000001_000001_000001_000015_000017_000025_000111_000251_000043_000403_000465_000017_000787_006045_032185_022921_115851,
  1_018132_000001_000001_000005_000011_000011_000013_000013_000093_000489_000941_001391_000383_007735_001921_016199_053099_025181,
  1_018141_000001_000003_000003_000007_000015_000001_000003_000159_000507_000867_001589_002111_003839_008989_012589_037657_097055,
  1_018146_000001_000003_000003_000013_000025_000023_000007_000095_000489_001001_000105_002737_005013_014465_025383_057551_077425,
  1_018151_000001_000003_000005_000003_000003_000007_000081_000015_000255_000297_001183_000655_000741_003081_002141_034493_103707,
  1_018157_000001_000001_000007_000009_000027_000057_000049_000121_000021_000239_000829_002001_000613_009569_004419_020007_059109,
  1_018160_000001_000003_000007_000001_000003_000021_000109_000255_000045_000333_000915_001245_005893_000765_028289_053927_015335,
  1_018183_000001_000003_000003_000007_000005_000035_000033_000079_000111_000509_000347_003915_002017_006461_011847_017807_048601,
  1_018204_000001_000003_000005_000001_000013_000063_000087_000065_000507_000277_000339_003637_006289_000719_009383_038887_055061,
  1_018218_000001_000001_000005_000015_000017_000005_000059_000107_000355_001021_001849_001807_007679_000305_031533_001221_098165,
  1_018226_000001_000001_000001_000013_000019_000007_000037_000063_000267_000399_001451_002149_001003_013635_018693_000215_015887,
  1_018238_000001_000001_000003_000007_000011_000063_000081_000251_000253_000963_000635_001697_006393_009775_024189_009099_106277,
  1_018245_000001_000003_000003_000013_000017_000047_000063_000047_000279_000879_000271_001655_001897_010743_002607_016695_032779,
  1_018249_000001_000003_000005_000015_000003_000001_000121_000181_000303_000973_000019_003327_003827_002197_031857_022835_122611,
  1_018260_000001_000001_000005_000013_000025_000041_000105_000197_000195_000085_001515_002735_007539_007557_024297_038721_046895,
  1_018267_000001_000001_000001_000001_000015_000063_000033_000007_000043_000971_000781_001461_004483_002113_032459_037653_068017,
  1_018270_000001_000003_000003_000009_000007_000001_000065_000183_000171_000695_000191_003675_006749_006823_003577_045031_081597,
  1_018273_000001_000003_000003_000003_000009_000061_000013_000159_000295_000329_000943_003293_000079_014497_021461_004667_096435,
  1_018274_000001_000001_000007_000009_000029_000037_000117_000215_000295_000591_001139_003093_007469_007995_013581_048075_005943,
  1_018276_000001_000003_000001_000009_000011_000011_000117_000255_000419_000551_001445_001987_001169_014227_031095_036041_063739,
  1_018283_000001_000001_000007_000015_000017_000025_000081_000027_000087_000463_001871_000551_007449_012231_028645_032663_043037,
  1_018307_000001_000003_000005_000011_000003_000049_000109_000123_000397_000113_001269_002433_004463_001257_002127_006677_096009,
  1_018314_000001_000001_000001_000011_000027_000019_000083_000123_000297_000867_000941_003929_003483_004641_032505_048999_066169,
  1_018321_000001_000001_000005_000011_000005_000021_000011_000255_000369_000859_000657_000587_005245_012973_022403_047935_121375,
  1_018334_000001_000003_000001_000013_000017_000043_000083_000051_000339_000967_000499_001485_005203_010053_031707_031443_075033,
  1_018355_000001_000001_000005_000013_000011_000005_000121_000121_000073_000101_001751_003805_001333_014043_026957_027557_110899,
  1_018364_000001_000003_000007_000011_000009_000007_000125_000237_000437_000177_000841_000175_005509_009157_003129_054119_109315,
  1_018372_000001_000003_000007_000015_000001_000059_000087_000121_000043_000475_001589_001267_001501_001585_031705_033959_027247,
  1_018390_000001_000001_000005_000003_000027_000063_000117_000205_000169_000701_001081_002835_008049_011875_004143_017663_090043,
  1_018399_000001_000003_000001_000009_000023_000027_000031_000141_000411_000145_001177_003681_003403_006943_010729_047219_102713,
  1_018415_000001_000001_000007_000011_000005_000049_000033_000027_000121_000865_000471_001871_006945_010051_004493_007121_065551,
  1_018420_000001_000001_000005_000001_000017_000027_000053_000013_000031_000403_001319_001381_001371_011693_018805_054683_030137,
  1_018434_000001_000001_000007_000011_000009_000021_000071_000155_000079_000145_000943_003891_000641_003163_028493_014729_083391,
  1_018443_000001_000003_000003_000013_000003_000053_000021_000189_000245_000803_001625_004005_001163_016033_005549_014301_115859,
  1_018446_000001_000003_000001_000005_000017_000059_000061_000031_000293_000677_001753_001803_001671_014619_022361_061453_078203,
  1_018460_000001_000003_000003_000001_000005_000051_000099_000231_000175_000097_001335_000689_001913_006157_022757_052395_118347,
  1_018467_000001_000003_000003_000007_000025_000011_000113_000019_000289_000507_001143_003437_007965_012551_027603_008423_046713,
  1_018482_000001_000001_000003_000009_000013_000001_000073_000009_000425_000407_000363_002915_004269_002903_009251_017733_080321,
  1_018484_000001_000001_000003_000011_000031_000047_000037_000211_000433_000237_001069_001891_006175_009305_030385_002497_094775,
  1_018501_000001_000001_000003_000001_000023_000005_000113_000103_000427_000587_001863_001863_000679_002575_013059_016163_042289,
  1_018506_000001_000001_000005_000003_000007_000017_000045_000033_000209_000609_001897_000095_005123_002239_005483_060715_126497,
  1_018516_000001_000001_000005_000011_000001_000055_000067_000223_000041_000967_000337_002511_007879_001157_017635_064081_000421,
  1_018519_000001_000003_000003_000009_000027_000033_000087_000097_000231_000895_001337_000829_000047_008481_014059_057209_109159,
  1_018547_000001_000003_000007_000001_000025_000005_000041_000161_000393_000523_001623_003761_001933_008319_017309_046717_097299,
  1_018569_000001_000001_000001_000011_000005_000055_000019_000191_000041_000791_001611_000059_002633_013873_025859_042879_054807,
  1_018575_000001_000003_000001_000011_000011_000033_000005_000013_000199_000411_000895_000759_002735_016225_031469_024081_031857,
  1_018589_000001_000001_000007_000013_000027_000057_000021_000191_000389_000977_001013_003493_006401_015957_023181_052461_041853,
  1_018590_000001_000003_000007_000005_000023_000019_000117_000117_000427_000923_001347_003099_000247_008879_005309_053277_100625,
  1_018605_000001_000001_000005_000013_000011_000023_000069_000037_000119_000329_001935_002851_005127_006907_024651_011135_118287,
  1_018611_000001_000001_000003_000015_000023_000001_000069_000107_000253_000771_001697_004035_003219_015011_006995_019255_039909,
  1_018625_000001_000003_000001_000001_000005_000021_000035_000173_000407_000603_000027_003589_002879_002755_017679_006145_095989,
  1_018652_000001_000001_000005_000013_000031_000023_000061_000139_000341_000593_001673_004031_004809_001107_022657_029073_053401,
  1_018665_000001_000003_000001_000015_000013_000037_000039_000061_000443_000417_001125_001529_001943_007317_002985_050285_107069,
  1_018673_000001_000001_000003_000009_000005_000051_000087_000091_000031_000491_001455_001685_002579_006023_010989_064635_130147,
  1_018674_000001_000003_000005_000005_000031_000023_000015_000163_000357_000161_001597_001571_005039_013213_032221_004405_088079,
  1_018683_000001_000001_000001_000015_000013_000043_000007_000109_000243_000389_000683_002671_008003_004187_006507_011171_116727,
  1_018688_000001_000003_000007_000001_000017_000031_000053_000005_000227_000755_001755_002939_001789_008951_016777_030203_079005,
  1_018691_000001_000003_000003_000009_000027_000005_000111_000241_000089_000333_000371_001035_005719_002433_029343_050829_025131,
  1_018698_000001_000001_000003_000013_000007_000037_000125_000069_000079_000397_001595_000123_000255_002257_010881_027085_099411,
  1_018717_000001_000001_000003_000015_000001_000035_000061_000073_000507_000775_001631_002005_004277_008421_005669_039221_019053,
  1_018733_000001_000001_000003_000007_000015_000017_000065_000157_000019_000997_000861_001249_004059_007975_000955_005833_097733]

def dirRows17_0_22 : List Nat := [
  1_018754_000001_000001_000005_000005_000021_000043_000001_000181_000001_000017_001337_003333_003761_012283_020941_000231_030457,
  1_018759_000001_000003_000003_000007_000007_000023_000105_000101_000101_000757_001407_000565_002187_001529_029385_022847_057675,
  1_018760_000001_000003_000003_000001_000011_000003_000065_000093_000201_000773_001037_001325_000673_006625_002909_063435_114311,
  1_018771_000001_000003_000005_000001_000021_000043_000087_000037_000491_000323_001093_002493_004755_007225_012037_009483_070351,
  1_018777_000001_000001_000007_000009_000023_000039_000059_000117_000103_000645_001975_001177_000055_000325_023781_064365_094915,
  1_018796_000001_000003_000007_000015_000021_000029_000109_000035_000307_000847_000777_003457_007899_000017_024065_010517_035651,
  1_018799_000001_000001_000007_000009_000025_000035_000049_000131_000377_000429_001773_002107_006305_015209_009567_017685_005599,
  1_018807_000001_000001_000003_000011_000013_000027_000047_000125_000483_000229_000921_002733_002217_002615_024135_028759_109411,
  1_018813_000001_000003_000001_000007_000019_000045_000023_000195_000445_000955_000853_002877_006889_009507_002009_018747_050545,
  1_018817_000001_000001_000001_000005_000015_000035_000075_000177_000145_000683_000309_000893_004999_000827_026563_030819_111115,
  1_018820_000001_000003_000003_000011_000005_000045_000049_000039_000093_000653_001053_002553_000863_012185_030261_016459_121061,
  1_018827_000001_000003_000007_000005_000011_000029_000057_000043_000409_000071_000067_003537_000263_013237_008825_058411_044629,
  1_018829_000001_000001_000005_000013_000001_000037_000023_000171_000013_000309_000239_002023_006233_008751_011371_005825_077355,
  1_018838_000001_000003_000001_000013_000005_000001_000047_000217_000369_000609_000453_000879_004337_004441_008785_051963_053819,
  1_018842_000001_000003_000005_000005_000023_000001_000067_000147_000027_000121_001369_000569_001519_011585_018193_030889_078055,
  1_018848_000001_000001_000001_000013_000011_000053_000033_000037_000419_000111_001649_002495_006105_012385_030865_003683_063813,
  1_018853_000001_000003_000003_000005_000017_000035_000107_000235_000471_000735_001093_001007_000567_000173_009623_039533_056455,
  1_018885_000001_000001_000007_000015_000027_000013_000123_000211_000407_000857_000801_003951_008153_004427_015333_013217_092675,
  1_018890_000001_000001_000001_000007_000011_000061_000099_000131_000121_000119_001483_001485_003521_013163_024899_056849_111943,
  1_018898_000001_000003_000003_000001_000019_000001_000029_000139_000127_000557_001913_001487_001381_000185_011195_052499_045059,
  1_018903_000001_000003_000007_000011_000005_000029_000095_000111_000235_000055_001101_002631_001219_009867_022209_003095_056793,
  1_018910_000001_000003_000007_000001_000031_000061_000037_000125_000241_000985_001079_001439_000433_002779_008463_059985_039667,
  1_018913_000001_000003_000007_000015_000005_000007_000071_000007_000435_000727_001611_000135_001421_008329_029995_064243_058285,
  1_018931_000001_000003_000003_000015_000027_000011_000121_000027_000281_000499_000267_002651_007575_009499_005051_049475_079573,
  1_018934_000001_000003_000003_000015_000029_000047_000011_000183_000235_000537_000079_002467_003751_000831_006725_052173_108645,
  1_018956_000001_000003_000005_000013_000023_000031_000023_000019_000477_000511_000727_000183_005955_007613_031979_008441_039835,
  1_018961_000001_000001_000005_000007_000017_000031_000053_000133_000387_000787_001573_000089_001975_001825_019963_027203_124923,
  1_018968_000001_000001_000001_000009_000003_000015_000125_000135_000089_000037_000517_003931_002013_002143_025413_018421_006097,
  1_018978_000001_000001_000003_000011_000023_000029_000089_000045_000053_000135_000223_003523_007921_003271_001819_040931_065471,
  1_018983_000001_000001_000001_000013_000017_000003_000121_000025_000509_000061_001009_002009_007813_008499_005807_063171_075991,
  1_018987_000001_000003_000005_000013_000015_000035_000037_000045_000161_000683_001665_000059_006297_009595_010193_046745_105411,
  1_018992_000001_000003_000001_000007_000021_000019_000085_000107_000003_000845_000673_001271_007581_015971_027085_035375_029027,
  1_018997_000001_000003_000003_000009_000005_000017_000079_000137_000123_000809_000583_003507_007559_002857_013911_057083_008595,
  1_019002_000001_000001_000007_000005_000031_000029_000077_000033_000439_000787_001223_002471_005851_015891_027925_051661_082645,
  1_019004_000001_000001_000007_000015_000019_000035_000035_000037_000197_000245_000799_003971_000277_011289_020111_013857_104571,
  1_019010_000001_000003_000005_000015_000019_000003_000065_000017_000201_001007_001665_000107_002409_001469_023265_024547_008189,
  1_019012_000001_000003_000001_000013_000029_000045_000109_000243_000043_000383_000631_000265_006671_015333_021931_030675_103077,
  1_019030_000001_000001_000005_000001_000025_000025_000077_000189_000109_000777_001485_002265_001403_002627_013843_027263_014263,
  1_019043_000001_000003_000005_000001_000013_000049_000073_000107_000225_000243_001253_003503_000735_002605_027165_045467_093001,
  1_019049_000001_000001_000005_000009_000015_000017_000001_000033_000069_000321_001375_003635_008131_006579_001225_038699_017447,
  1_019079_000001_000003_000005_000003_000025_000049_000015_000149_000483_000037_001929_001219_005841_011975_000805_031339_130971,
  1_019086_000001_000003_000003_000003_000015_000029_000003_000143_000291_000593_001769_003603_001693_000151_027701_009015_025847,
  1_019100_000001_000003_000001_000011_000005_000035_000055_000127_000137_000071_000967_002501_001023_002061_031387_044011_130121,
  1_019103_000001_000001_000007_000001_000029_000013_000093_000041_000125_000263_000521_002633_004361_012153_030647_055883_065185,
  1_019107_000001_000003_000007_000009_000023_000019_000061_000197_000139_000463_001867_003627_005185_008251_026977_048027_066301,
  1_019109_000001_000003_000003_000007_000027_000053_000025_000137_000175_000155_001843_002253_004797_004989_032613_055779_091625,
  1_019113_000001_000003_000003_000011_000001_000005_000021_000233_000295_000675_000047_002995_008075_008201_003845_023925_082559,
  1_019116_000001_000001_000003_000007_000031_000053_000093_000021_000307_000709_000009_003061_003935_011009_013411_003657_030251,
  1_019127_000001_000003_000007_000013_000013_000025_000051_000205_000391_000897_000275_000333_006831_009383_016101_014301_099101,
  1_019134_000001_000001_000005_000015_000017_000047_000119_000007_000189_000765_000753_002909_003373_002379_020331_061535_051345,
  1_019141_000001_000001_000003_000001_000027_000043_000009_000185_000009_000197_001179_000067_007689_009679_029683_029905_029393,
  1_019179_000001_000001_000005_000005_000031_000055_000069_000009_000477_000091_001705_001877_005463_015401_013449_027541_125521,
  1_019193_000001_000001_000007_000015_000015_000033_000011_000233_000069_000771_000845_002715_005293_010351_019557_015319_036857,
  1_019194_000001_000003_000007_000007_000015_000009_000123_000047_000165_000739_000361_001675_002743_008021_010241_048275_051935,
  1_019201_000001_000001_000005_000001_000009_000025_000099_000083_000487_000627_000343_003233_006697_013197_019771_038337_089139,
  1_019208_000001_000003_000007_000013_000001_000031_000015_000063_000463_000621_000935_001093_006043_014051_013665_043413_104893,
  1_019214_000001_000001_000001_000003_000027_000001_000047_000151_000127_000357_000689_003263_000141_004459_009847_000205_088493,
  1_019225_000001_000003_000007_000015_000029_000013_000041_000113_000495_000421_000195_000197_006857_010555_022861_030229_031707,
  1_019226_000001_000003_000005_000011_000011_000001_000089_000227_000425_000623_001605_001901_007933_007211_016301_003403_059651,
  1_019235_000001_000001_000003_000003_000027_000041_000037_000089_000395_000903_001641_002739_005599_011371_008683_061125_105231,
  1_019242_000001_000003_000007_000009_000001_000017_000051_000233_000507_000783_000459_001187_007281_015809_027637_006067_125877,
  1_019264_000001_000003_000001_000003_000013_000057_000005_000199_000261_000357_001255_001849_008013_010313_009375_001271_064117,
  1_019267_000001_000003_000001_000011_000009_000059_000055_000095_000401_000423_001657_000513_003565_012957_019243_053027_011323,
  1_019293_000001_000003_000007_000013_000027_000035_000121_000215_000397_000991_000191_003443_003829_006107_005381_048497_107997,
  1_019309_000001_000001_000005_000005_000019_000015_000021_000053_000165_000835_001599_003245_005609_005991_018141_028075_102809,
  1_019318_000001_000003_000005_000009_000025_000021_000071_000015_000453_000475_000915_003097_005869_000699_013883_034919_127211,
  1_019324_000001_000001_000003_000007_000021_000053_000027_000207_000373_000703_000593_000017_006991_015013_010125_034801_129245,
  1_019337_000001_000003_000003_000013_000017_000009_000089_000095_000291_000681_001415_002323_002885_011381_007703_003691_051505,
  1_019340_000001_000001_000001_000011_000015_000063_000055_000153_000373_000665_000983_003987_005997_006873_027031_065449_022021,
  1_019345_000001_000001_000005_000005_000001_000055_000119_000061_000159_000889_000225_000709_001879_002521_000069_007815_018733,
  1_019346_000001_000003_000005_000011_000023_000053_000023_000061_000071_000993_000633_001829_003465_012465_030205_040723_074499,
  1_019352_000001_000003_000003_000001_000017_000037_000019_000043_000055_000133_001171_003101_003963_005177_024791_007255_010263,
  1_019364_000001_000003_000007_000001_000021_000013_000021_000087_000237_000629_001167_003699_000597_006251_011545_034429_104393,
  1_019382_000001_000001_000007_000001_000011_000053_000105_000111_000463_000869_000549_002423_000017_000917_000879_049367_072235,
  1_019391_000001_000001_000005_000015_000017_000051_000069_000055_000309_000867_000257_000573_004821_005245_028033_061801_018253,
  1_019405_000001_000001_000005_000003_000001_000023_000103_000241_000013_000267_000021_001751_006637_012537_026741_040651_094493,
  1_019411_000001_000003_000003_000013_000025_000035_000021_000083_000337_000363_001111_001865_007889_000985_000465_040287_064469,
  1_019439_000001_000001_000007_000005_000027_000001_000099_000095_000209_000211_001445_001577_006097_013813_022463_064395_106383,
  1_019442_000001_000003_000001_000015_000001_000045_000077_000247_000273_001023_001377_001989_005787_015267_024363_042717_125617,
  1_019444_000001_000001_000001_000003_000009_000049_000079_000171_000427_000439_001725_003179_006263_012437_031353_022077_094455,
  1_019451_000001_000003_000005_000011_000011_000045_000057_000097_000409_000935_000967_002509_003431_005707_019473_015853_129059,
  1_019465_000001_000001_000007_000005_000007_000021_000105_000029_000359_000145_001691_000131_006721_010971_016173_038193_037091,
  1_019471_000001_000001_000001_000015_000015_000035_000005_000185_000455_000507_000681_003355_002091_003437_027231_028527_005383,
  1_019474_000001_000003_000005_000003_000007_000029_000033_000127_000057_000495_001069_003635_007461_009861_018757_039039_092421,
  1_019476_000001_000003_000005_000005_000011_000031_000051_000059_000413_000417_001577_002837_005229_004501_018645_037613_031325,
  1_019479_000001_000001_000005_000013_000015_000061_000017_000247_000413_000817_000907_002249_003901_011275_007469_033403_030629,
  1_019485_000001_000003_000005_000007_000031_000007_000109_000177_000277_000075_000449_003029_007135_000427_026641_043157_047671,
  1_019489_000001_000003_000007_000013_000029_000063_000021_000187_000471_000289_000835_003885_006111_008721_009841_024017_018673,
  1_019496_000001_000001_000005_000013_000025_000037_000015_000035_000227_000623_000047_000189_003443_001911_008579_050911_010895,
  1_019507_000001_000003_000001_000001_000029_000053_000089_000101_000251_000203_000821_002485_000633_007943_027563_058735_072057,
  1_019513_000001_000003_000007_000009_000023_000061_000121_000199_000019_000165_000131_001373_000637_007307_007109_042475_126669,
  1_019514_000001_000003_000007_000013_000007_000005_000125_000173_000365_000065_000565_000751_003343_013421_006177_039095_097375,
  1_019521_000001_000001_000007_000003_000001_000059_000065_000039_000307_000793_000887_003291_003405_004497_019351_001821_067861,
  1_019524_000001_000001_000001_000003_000019_000009_000101_000183_000163_000819_000769_000049_005293_003715_004055_032403_090763,
  1_019546_000001_000003_000003_000001_000027_000031_000021_000123_000457_001021_001791_002217_006171_011445_015605_059945_019663,
  1_019552_000001_000001_000001_000009_000013_000053_000061_000201_000457_000111_001217_000377_005871_004591_016379_042817_129807,
  1_019555_000001_000003_000001_000005_000023_000037_000025_000007_000125_000651_000349_003727_001487_005103_031407_040215_016065,
  1_019557_000001_000001_000003_000011_000019_000029_000001_000193_000013_000287_000331_000985_005391_007307_028075_009939_084999,
  1_019575_000001_000001_000001_000011_000021_000037_000117_000241_000229_000957_002019_000819_000459_006185_021533_064725_024709,
  1_019579_000001_000003_000005_000013_000011_000025_000107_000245_000175_000519_000629_000537_002227_015123_010619_032611_118697]

def dirRows17_0_23 : List Nat := [
  1_019591_000001_000003_000001_000011_000005_000053_000119_000253_000489_000181_001365_003465_001323_000949_003657_002467_038545,
  1_019595_000001_000001_000003_000009_000027_000017_000109_000019_000297_000541_000089_003021_000761_005577_000907_021405_128029,
  1_019605_000001_000001_000003_000009_000031_000009_000061_000149_000267_000707_000671_002733_001247_014623_006395_042579_030845,
  1_019615_000001_000001_000007_000007_000025_000029_000063_000041_000309_000275_002019_001373_001003_013891_016571_016209_030115,
  1_019616_000001_000003_000007_000001_000005_000021_000053_000097_000475_000799_001963_001181_004187_008767_024779_010403_098349,
  1_019626_000001_000003_000003_000013_000019_000009_000125_000227_000347_000535_000353_003087_000769_009049_020145_027433_023105,
  1_019631_000001_000001_000001_000015_000007_000061_000051_000113_000403_000501_001767_002785_007151_014517_017533_024913_007121,
  1_019634_000001_000001_000001_000009_000007_000021_000027_000169_000425_000567_000031_000035_007859_000929_006545_033983_013227,
  1_019640_000001_000001_000005_000015_000011_000015_000069_000033_000127_001005_001947_000989_006333_015587_018523_053547_115613,
  1_019645_000001_000003_000005_000003_000001_000055_000007_000099_000213_000737_000363_003167_003949_003723_015777_023207_022901,
  1_019678_000001_000001_000001_000009_000009_000029_000121_000085_000467_000811_000001_003543_006259_004477_031371_027633_022995,
  1_019681_000001_000003_000005_000003_000011_000021_000095_000019_000055_000071_000803_003655_003749_005113_013611_038097_020943,
  1_019682_000001_000003_000003_000011_000019_000025_000127_000105_000447_000499_000485_000881_002649_010297_022283_018305_128919,
  1_019706_000001_000003_000007_000001_000011_000045_000021_000087_000481_000645_000815_000793_005763_003945_014379_019623_103199,
  1_019708_000001_000003_000005_000001_000003_000045_000039_000229_000359_000151_001079_003955_002107_009593_006701_002811_055215,
  1_019713_000001_000003_000007_000007_000027_000059_000069_000211_000373_000643_000977_003545_002647_010473_027919_010719_024823,
  1_019714_000001_000001_000003_000011_000007_000027_000117_000021_000059_000679_000969_003813_002701_007363_017525_031229_100665,
  1_019720_000001_000003_000003_000005_000029_000053_000113_000141_000197_000991_000081_002701_006831_007949_016569_044185_029631,
  1_019725_000001_000001_000001_000003_000001_000031_000009_000101_000347_000585_000577_002529_007461_011921_029475_034505_074911,
  1_019743_000001_000001_000001_000015_000025_000019_000095_000037_000093_000755_001891_002309_000623_013503_005811_045863_106501,
  1_019753_000001_000001_000005_000003_000015_000023_000051_000225_000087_000679_001225_004015_003971_000163_003185_012921_051267,
  1_019756_000001_000001_000005_000001_000001_000037_000105_000181_000379_000657_000571_002775_005905_008391_032069_018713_125833,
  1_019759_000001_000001_000007_000011_000011_000019_000109_000125_000371_000321_000629_002165_002861_007883_015503_037679_033057,
  1_019762_000001_000001_000003_000005_000007_000005_000021_000005_000169_000321_001145_002243_006143_002537_004429_056493_039391,
  1_019776_000001_000003_000005_000005_000031_000007_000015_000175_000441_000663_000921_003113_002261_013033_019135_028657_092225,
  1_019786_000001_000003_000001_000011_000013_000009_000025_000057_000297_000003_001561_000825_002803_011327_002699_028631_057277,
  1_019799_000001_000001_000003_000009_000015_000025_000081_000197_000345_000341_001557_001375_002509_011949_030201_006807_095199,
  1_019800_000001_000003_000005_000003_000015_000023_000091_000147_000277_000059_000495_001423_001775_012065_008401_022639_111199,
  1_019803_000001_000001_000005_000001_000001_000059_000035_000255_000229_000293_000187_002663_003967_006493_020103_036703_108939,
  1_019806_000001_000003_000007_000011_000015_000001_000023_000039_000027_000281_000011_003119_002791_001691_016521_039715_032145,
  1_019815_000001_000003_000005_000005_000009_000053_000043_000049_000107_001015_000431_003017_003317_009655_019193_045621_056861,
  1_019816_000001_000003_000001_000015_000027_000063_000127_000031_000021_000245_001503_003339_006375_005411_012369_035973_009473,
  1_019857_000001_000001_000003_000013_000031_000061_000019_000099_000025_000593_000539_001807_000673_012339_023567_022005_130341,
  1_019860_000001_000001_000005_000003_000003_000003_000013_000183_000255_000041_000641_000581_006509_001891_019195_028277_051725,
  1_019874_000001_000001_000003_000005_000003_000059_000017_000227_000009_000345_001303_001535_003089_002653_020647_063159_124677,
  1_019883_000001_000003_000001_000011_000025_000019_000117_000029_000221_000461_001285_001427_007183_003051_010839_047491_092613,
  1_019885_000001_000001_000003_000005_000027_000019_000001_000235_000051_000215_000783_002325_001191_004679_014365_035479_065083,
  1_019886_000001_000003_000003_000005_000027_000017_000079_000185_000259_000369_001399_001029_002219_010975_030487_015247_039789,
  1_019893_000001_000003_000003_000001_000013_000013_000059_000119_000249_000471_001433_001165_005345_004431_000375_064999_085577,
  1_019932_000001_000001_000001_000003_000001_000019_000013_000243_000035_000675_000321_003625_007835_006403_000651_048283_091819,
  1_019960_000001_000003_000003_000001_000027_000013_000073_000159_000145_000059_000287_002419_008115_007923_018933_036109_123879,
  1_019972_000001_000003_000001_000007_000021_000001_000083_000245_000477_000623_000391_000129_006897_003447_011109_017017_068277,
  1_019975_000001_000001_000003_000011_000013_000043_000119_000093_000099_000393_001219_000995_001881_007929_004337_033579_103211,
  1_020005_000001_000001_000007_000007_000031_000005_000039_000025_000119_000819_000409_002395_000151_012763_028265_028909_035685,
  1_020009_000001_000001_000001_000001_000003_000013_000059_000205_000019_000843_001691_000955_001859_001791_022083_037843_063615,
  1_020010_000001_000001_000001_000003_000011_000063_000041_000243_000103_000875_001337_003731_006317_012951_031743_056935_055975,
  1_020012_000001_000001_000003_000013_000019_000011_000051_000097_000469_000279_001621_003521_000853_011849_003331_027907_119081,
  1_020023_000001_000001_000005_000001_000023_000055_000009_000141_000449_000041_000167_002441_006783_002785_003547_035379_074973,
  1_020024_000001_000001_000005_000003_000015_000055_000013_000075_000107_000153_001841_003991_003229_006523_018541_021571_031539,
  1_020030_000001_000003_000001_000001_000027_000037_000035_000201_000401_000867_001861_001783_006255_014001_029543_025843_039719,
  1_020038_000001_000001_000007_000015_000003_000043_000113_000173_000297_000457_001369_004053_005033_005513_027387_014725_079937,
  1_020041_000001_000001_000005_000013_000005_000027_000109_000093_000187_000833_001551_002899_001681_006979_001289_003507_066499,
  1_020055_000001_000001_000003_000011_000011_000047_000121_000029_000129_000807_002037_001527_006083_014803_010669_046047_070241,
  1_020059_000001_000003_000001_000009_000029_000003_000019_000191_000461_000527_001389_003359_000081_006773_012185_049207_019091,
  1_020061_000001_000003_000007_000007_000005_000047_000033_000027_000445_000001_000149_000343_004827_000091_029233_037775_089321,
  1_020080_000001_000003_000005_000001_000013_000055_000107_000099_000259_000591_000983_003863_001231_003457_029645_010709_016543,
  1_020086_000001_000003_000007_000009_000029_000005_000009_000165_000337_000187_000219_000097_006511_000193_023947_036329_035317,
  1_020089_000001_000003_000007_000001_000031_000025_000005_000175_000409_001021_001873_000289_007143_015341_031501_025707_106453,
  1_020095_000001_000003_000007_000007_000027_000001_000015_000221_000341_000987_001739_001183_008139_011081_029721_042991_072805,
  1_020111_000001_000001_000001_000009_000011_000001_000013_000017_000501_000543_001485_000987_001861_008527_001621_030461_023057,
  1_020116_000001_000003_000007_000007_000009_000041_000001_000253_000071_001009_000427_003347_006987_003303_030535_033345_126459,
  1_020130_000001_000001_000001_000007_000011_000011_000015_000011_000305_000559_001805_001111_000377_001495_013471_034831_123125,
  1_020136_000001_000001_000005_000007_000009_000037_000027_000045_000061_000705_000263_003181_007077_005227_028121_042865_003809,
  1_020147_000001_000001_000005_000001_000023_000025_000029_000199_000259_000959_000661_000043_006157_001547_001497_024077_129939,
  1_020153_000001_000003_000005_000003_000013_000049_000033_000019_000367_000891_001777_003119_005673_008383_014487_001763_063495,
  1_020156_000001_000001_000001_000013_000009_000057_000035_000181_000007_000225_000449_003843_006257_004983_031307_016559_027633,
  1_020167_000001_000003_000001_000011_000007_000033_000055_000081_000041_000061_001711_003273_007629_011283_009103_024105_107547,
  1_020173_000001_000003_000005_000005_000013_000017_000013_000051_000235_000869_001543_001249_007749_014773_021751_053497_108709,
  1_020182_000001_000001_000003_000009_000003_000063_000089_000043_000023_000479_000115_003917_007943_007323_005659_064507_046941,
  1_020185_000001_000001_000003_000001_000025_000063_000025_000169_000459_000633_001785_001059_005113_004799_029281_024561_017017,
  1_020202_000001_000001_000003_000003_000015_000003_000011_000173_000493_000005_001575_000653_007391_007453_008297_028653_006213,
  1_020209_000001_000001_000007_000005_000029_000005_000001_000057_000075_000479_000787_003417_003349_000111_017787_041141_097597,
  1_020229_000001_000003_000007_000001_000011_000007_000107_000159_000435_000159_001401_000803_007065_005923_004005_037271_113791,
  1_020233_000001_000001_000005_000001_000023_000055_000007_000059_000351_000801_001279_003231_004561_002857_020563_046115_079489,
  1_020236_000001_000003_000003_000015_000019_000013_000113_000033_000149_000175_001127_003815_004357_012645_004449_061355_083023,
  1_020241_000001_000001_000007_000015_000003_000017_000041_000057_000243_000319_001631_002751_007853_005977_028367_020023_056049,
  1_020242_000001_000003_000001_000007_000027_000059_000007_000013_000497_000241_001827_002861_001331_001759_006037_018967_042849,
  1_020248_000001_000003_000001_000001_000031_000043_000041_000183_000241_000219_000335_002331_000755_010589_029431_029007_066667,
  1_020278_000001_000001_000003_000001_000027_000037_000061_000117_000471_000039_000139_003821_002945_007035_023673_020167_056169,
  1_020282_000001_000003_000001_000001_000009_000029_000123_000061_000171_001015_001029_001695_001039_011883_000259_010879_097709,
  1_020299_000001_000003_000003_000005_000029_000039_000065_000193_000285_000635_000999_000717_005465_001849_004293_019775_079121,
  1_020307_000001_000001_000007_000001_000003_000003_000103_000015_000451_000307_001027_000263_006585_011651_014457_062695_038407,
  1_020313_000001_000003_000007_000011_000013_000013_000029_000083_000267_000561_002041_000013_003167_003475_014735_034455_117533,
  1_020314_000001_000003_000001_000015_000005_000001_000035_000225_000151_000637_001347_000833_007077_013145_010285_046583_014351,
  1_020320_000001_000001_000003_000015_000027_000063_000119_000159_000209_000421_001413_002727_001607_007175_006133_029051_097387,
  1_020326_000001_000001_000003_000005_000009_000029_000035_000093_000353_000903_001037_000469_005473_007193_021883_014709_089023,
  1_020332_000001_000001_000001_000011_000009_000017_000051_000155_000145_000443_001985_000423_004721_015721_009747_010303_021909,
  1_020350_000001_000003_000007_000015_000019_000049_000053_000153_000241_000739_001585_003945_004869_000011_015845_017937_069397,
  1_020360_000001_000001_000005_000007_000019_000053_000043_000211_000327_000723_001513_001569_000919_001771_011309_050787_007459,
  1_020371_000001_000001_000001_000009_000007_000029_000049_000089_000409_000685_000201_001327_002807_013101_002485_062909_102595,
  1_020373_000001_000003_000001_000013_000021_000051_000037_000231_000271_000475_000855_003703_004447_005161_017937_014471_047173,
  1_020377_000001_000001_000007_000003_000009_000007_000121_000197_000071_000147_001669_001745_006589_015029_001529_012625_121925,
  1_020390_000001_000001_000001_000003_000007_000047_000063_000061_000187_000341_000919_000307_000389_014141_012941_017917_104289,
  1_020396_000001_000003_000005_000013_000019_000043_000057_000011_000383_000311_001229_003527_003301_012473_024377_016279_092733,
  1_020404_000001_000003_000003_000005_000025_000035_000063_000023_000131_000481_000809_003627_005685_013695_014121_064751_066181,
  1_020413_000001_000003_000001_000005_000011_000043_000089_000055_000103_000219_001861_003223_005111_005879_031399_001395_087419,
  1_020434_000001_000003_000001_000011_000021_000027_000123_000205_000047_000923_000007_001635_004019_008431_028313_024275_129617,
  1_020436_000001_000001_000001_000003_000001_000011_000091_000215_000393_000999_001071_003225_004415_000759_024499_016109_033791,
  1_020440_000001_000001_000003_000013_000019_000045_000077_000103_000105_000395_000529_003631_008179_004467_030263_039379_070507,
  1_020443_000001_000003_000003_000009_000017_000045_000101_000219_000433_000971_000471_001243_006955_005941_020641_016119_129383]

def dirRows17_0_24 : List Nat := [
  1_020445_000001_000001_000007_000007_000009_000009_000091_000095_000503_000171_000129_001509_007179_005367_002219_050445_112459,
  1_020464_000001_000003_000007_000001_000017_000017_000019_000173_000229_000519_000147_001835_003797_008091_020335_033177_090197,
  1_020476_000001_000003_000003_000005_000023_000029_000107_000205_000043_000969_000799_001239_001353_005221_015175_042945_034043,
  1_020494_000001_000001_000005_000007_000031_000063_000067_000087_000189_000301_001719_003937_000965_002505_024781_025133_091675,
  1_020496_000001_000003_000001_000007_000015_000025_000011_000039_000281_000035_001149_001445_006451_012069_020959_029895_060059,
  1_020501_000001_000001_000005_000001_000001_000017_000065_000213_000359_000561_002015_001629_003521_006877_008099_062483_103903,
  1_020518_000001_000001_000007_000009_000007_000049_000001_000227_000049_000823_001141_002419_002697_013293_014143_006323_016081,
  1_020527_000001_000003_000003_000001_000009_000013_000099_000235_000343_000601_000927_000183_004545_014529_005521_055571_090675,
  1_020529_000001_000001_000005_000001_000013_000049_000095_000153_000131_000955_000283_002951_003651_007743_004285_042621_110577,
  1_020535_000001_000001_000001_000009_000019_000059_000097_000181_000067_000357_000497_000287_003523_003729_028981_059687_039463,
  1_020544_000001_000001_000003_000007_000005_000019_000107_000055_000393_000225_001953_000669_008063_006537_015983_059891_095079,
  1_020568_000001_000003_000001_000005_000029_000021_000017_000169_000447_000697_001613_003483_003139_011175_028865_012065_130241,
  1_020589_000001_000003_000005_000007_000005_000049_000035_000181_000085_000505_001537_001345_000773_003255_027405_003959_126377,
  1_020592_000001_000001_000007_000015_000009_000009_000017_000099_000409_000319_000807_001721_004023_002171_032657_051663_023253,
  1_020601_000001_000003_000005_000001_000005_000003_000037_000219_000089_000263_000397_000573_006147_009525_002521_011153_094319,
  1_020617_000001_000001_000005_000005_000011_000039_000055_000205_000209_000239_001443_002477_001941_008337_002883_054593_129859,
  1_020625_000001_000001_000001_000007_000011_000013_000127_000065_000127_000413_001553_000413_003395_009451_007517_034103_057029,
  1_020626_000001_000001_000001_000015_000005_000025_000109_000181_000399_001023_000277_003365_006209_000827_013933_027483_063835,
  1_020632_000001_000001_000003_000003_000021_000057_000095_000127_000481_000365_000197_003631_007443_004925_031277_035061_035875,
  1_020638_000001_000001_000007_000013_000003_000031_000059_000127_000441_000967_001049_001281_003553_000375_009683_045755_018889,
  1_020644_000001_000001_000001_000013_000011_000039_000049_000043_000383_000607_000157_001887_003623_013335_031949_049843_096781,
  1_020647_000001_000003_000007_000013_000019_000035_000021_000009_000299_000425_001921_003481_006849_004149_005227_056737_027559,
  1_020662_000001_000003_000007_000005_000021_000011_000079_000097_000001_000849_000819_001133_003393_005429_010621_038787_120785,
  1_020671_000001_000001_000001_000013_000021_000029_000003_000239_000399_000619_000759_002655_003691_000655_030979_015507_114791,
  1_020674_000001_000003_000005_000003_000001_000061_000079_000043_000273_000965_001759_003901_002437_001703_020205_046291_023679,
  1_020683_000001_000001_000001_000009_000019_000057_000075_000245_000377_000261_000231_003683_006745_007797_028471_056269_109969,
  1_020704_000001_000003_000001_000011_000009_000055_000053_000087_000033_000431_001805_002933_000455_012479_016235_002667_070105,
  1_020724_000001_000003_000005_000001_000029_000001_000101_000017_000377_000499_001365_000209_004819_015099_008769_037003_053003,
  1_020742_000001_000003_000005_000011_000011_000039_000109_000235_000337_000393_000035_001071_007085_007165_025143_024223_071493,
  1_020748_000001_000003_000001_000005_000013_000049_000009_000205_000305_000943_000799_002405_000319_010755_009785_032023_048015,
  1_020765_000001_000003_000001_000009_000029_000035_000123_000101_000073_000747_001257_000407_005871_004271_014837_052727_013339,
  1_020776_000001_000003_000003_000009_000031_000007_000113_000027_000089_000123_001117_000531_005531_007897_011209_035267_123457,
  1_020789_000001_000001_000001_000001_000029_000019_000093_000011_000061_000743_000267_000013_006561_007667_020537_012675_010481,
  1_020796_000001_000001_000005_000013_000027_000047_000103_000171_000349_000139_001709_000961_000783_007147_005569_053395_080797,
  1_020802_000001_000003_000001_000009_000021_000049_000041_000175_000507_000861_001157_001033_006795_005795_000603_012485_075263,
  1_020807_000001_000001_000005_000007_000023_000003_000021_000165_000123_000951_000785_002065_008001_007009_022981_010011_009807,
  1_020814_000001_000003_000007_000015_000001_000053_000049_000197_000231_000351_000141_003465_007907_010695_030913_026753_071079,
  1_020821_000001_000003_000005_000003_000029_000045_000023_000131_000065_000507_000075_000275_007287_000187_001093_052657_031533,
  1_020832_000001_000003_000005_000009_000009_000007_000113_000125_000441_000075_000663_004081_003147_001469_028375_035747_122965,
  1_020835_000001_000001_000007_000003_000003_000057_000005_000017_000183_000237_000965_003709_004161_009513_000217_058835_078789,
  1_020847_000001_000001_000003_000001_000007_000025_000013_000029_000173_000319_001723_000057_002401_010405_015541_052915_093747,
  1_020859_000001_000001_000007_000005_000001_000031_000011_000061_000341_000097_001199_002585_005909_003707_031507_051233_002389,
  1_020871_000001_000001_000005_000015_000015_000021_000127_000155_000229_000203_001303_003215_001965_009481_031909_052307_112207,
  1_020883_000001_000003_000001_000013_000009_000045_000091_000039_000113_000587_000895_000637_002475_001695_009347_053255_075797,
  1_020886_000001_000003_000005_000013_000017_000011_000035_000083_000069_000255_000741_003927_000153_011001_029145_037107_051873,
  1_020892_000001_000001_000007_000005_000005_000037_000035_000219_000153_001005_000973_002555_000893_005931_023857_034631_074561,
  1_020906_000001_000003_000001_000011_000021_000063_000113_000029_000115_000307_000957_000407_000879_004819_002865_001773_116825,
  1_020908_000001_000003_000007_000003_000019_000055_000087_000021_000139_000571_000311_002295_002729_006371_011845_030223_019247,
  1_020957_000001_000003_000007_000005_000023_000009_000059_000025_000357_000863_000435_002509_005599_014039_025731_041645_000255,
  1_020962_000001_000003_000007_000013_000009_000003_000063_000115_000503_000489_001585_000813_005419_000691_023973_018677_059979,
  1_020968_000001_000001_000001_000001_000013_000003_000055_000023_000185_000731_000459_001497_000433_016243_029995_020777_059513,
  1_020979_000001_000001_000007_000003_000027_000055_000077_000057_000349_000005_000617_000385_006225_007025_023335_000877_021973,
  1_020991_000001_000003_000003_000005_000003_000037_000105_000197_000153_000639_001643_001093_000801_004605_004551_046081_007739,
  1_020998_000001_000001_000005_000011_000029_000023_000005_000091_000039_000489_002029_000887_004451_011463_005641_056299_034027,
  1_021007_000001_000001_000007_000003_000017_000011_000025_000161_000317_000701_000155_001989_007549_011529_009945_018395_061251,
  1_021010_000001_000001_000007_000013_000023_000055_000113_000091_000017_000149_001893_002793_008185_000081_029487_047925_051837,
  1_021026_000001_000003_000007_000007_000009_000029_000103_000161_000215_000129_000113_001987_000919_009639_020715_006541_015041,
  1_021037_000001_000001_000005_000009_000019_000019_000127_000043_000263_000997_001687_003801_004249_006309_025889_001787_122771,
  1_021038_000001_000003_000005_000013_000017_000003_000091_000183_000349_000467_000333_003299_003085_012135_016801_031471_037227,
  1_021045_000001_000001_000005_000003_000007_000053_000011_000221_000407_000545_000237_003631_001791_003729_019737_000921_057303,
  1_021057_000001_000003_000007_000015_000003_000027_000071_000045_000219_000009_001135_002267_006841_008637_030317_009397_115425,
  1_021082_000001_000001_000003_000005_000029_000059_000121_000225_000419_000813_001725_003969_003451_008457_031803_057659_033263,
  1_021093_000001_000003_000003_000003_000017_000003_000065_000249_000423_000293_001333_003947_001477_004005_030445_028171_095823,
  1_021094_000001_000003_000003_000011_000029_000045_000067_000089_000075_000095_000555_001823_002795_011929_001995_030013_116241,
  1_021105_000001_000003_000003_000003_000023_000035_000087_000221_000385_000275_000803_000387_007765_015637_027953_020913_025279,
  1_021117_000001_000003_000007_000015_000015_000043_000021_000179_000393_000095_001913_001715_004467_015093_013613_050775_037133,
  1_021121_000001_000001_000007_000007_000031_000027_000049_000071_000323_000123_000597_002395_004449_007249_020197_019789_092685,
  1_021124_000001_000001_000005_000013_000031_000037_000089_000225_000357_000201_001887_003915_002165_010809_021623_034375_110905,
  1_021136_000001_000001_000005_000007_000011_000053_000037_000055_000061_000679_001465_001587_002215_016237_014985_050507_128637,
  1_021139_000001_000001_000007_000001_000015_000053_000115_000021_000279_000555_000043_002429_007251_002141_004813_047047_119551,
  1_021142_000001_000001_000005_000013_000011_000041_000059_000245_000337_000117_001125_004007_000947_010591_017795_048535_072171,
  1_021145_000001_000001_000005_000015_000027_000041_000071_000043_000505_000539_000975_001567_000795_004433_011689_053051_098819,
  1_021167_000001_000001_000007_000009_000001_000057_000057_000137_000323_000311_000759_003027_003713_000013_024133_021451_001153,
  1_021170_000001_000001_000005_000015_000031_000049_000023_000123_000271_000549_001995_000005_006065_003797_001085_050137_019741,
  1_021175_000001_000003_000003_000013_000005_000015_000021_000117_000487_000043_001759_002899_004239_009729_016711_031559_034553,
  1_021179_000001_000001_000005_000013_000005_000023_000083_000049_000147_000267_000923_001377_001687_001793_030383_019537_066989,
  1_021182_000001_000001_000001_000013_000009_000041_000105_000241_000499_000891_000885_003349_004703_005609_011999_058025_069089,
  1_021193_000001_000001_000007_000009_000021_000011_000121_000069_000115_000895_000091_003745_000041_012787_026181_031399_030463,
  1_021194_000001_000001_000007_000013_000011_000003_000023_000173_000005_000907_000045_003465_002807_003731_014347_027973_008567,
  1_021207_000001_000003_000007_000005_000027_000047_000043_000025_000499_000057_000649_000705_006223_004213_004549_023213_013657,
  1_021217_000001_000001_000007_000011_000021_000035_000005_000079_000295_000359_001993_000099_007917_014917_002131_045527_031451,
  1_021224_000001_000001_000005_000015_000001_000039_000085_000093_000065_000991_000389_000585_004835_011671_010913_041787_084953,
  1_021244_000001_000001_000001_000005_000027_000005_000001_000015_000011_000083_001191_003945_004697_007703_006929_006057_088721,
  1_021247_000001_000001_000003_000007_000027_000039_000071_000181_000191_000997_000419_001671_007771_015305_018677_045033_064745,
  1_021252_000001_000003_000007_000003_000015_000041_000033_000239_000093_000307_000153_002701_001549_005011_006913_019257_055829,
  1_021264_000001_000003_000003_000011_000021_000047_000069_000223_000365_000877_000431_001629_004803_011591_013973_056359_011897,
  1_021273_000001_000003_000007_000007_000001_000059_000063_000129_000251_000873_000603_002707_002847_008739_031343_063291_005607,
  1_021289_000001_000003_000005_000005_000019_000013_000079_000235_000151_000571_000953_002191_005973_004751_011119_014439_097755,
  1_021290_000001_000001_000005_000001_000027_000003_000105_000139_000013_000821_000221_002025_007303_001891_028193_045537_092703,
  1_021295_000001_000003_000007_000009_000013_000063_000027_000149_000051_000121_000587_003695_004115_003955_022493_034903_051669,
  1_021297_000001_000001_000005_000007_000019_000005_000089_000087_000269_000585_000421_003827_000315_014739_000109_043009_094969,
  1_021309_000001_000001_000005_000015_000009_000053_000125_000083_000159_000917_001583_000585_006839_014957_020007_060467_096309,
  1_021318_000001_000003_000005_000001_000023_000049_000109_000091_000017_000731_001083_003153_001825_014293_025639_044599_047541,
  1_021322_000001_000001_000003_000007_000021_000051_000045_000025_000367_000925_000799_001673_006977_007155_000829_025899_104615,
  1_021324_000001_000003_000003_000013_000013_000049_000095_000239_000195_000353_001967_001419_000929_000503_011717_009485_062885,
  1_021329_000001_000001_000001_000015_000003_000041_000109_000091_000327_000789_001429_001159_002801_004845_019663_047737_011029,
  1_021332_000001_000003_000005_000001_000021_000063_000057_000107_000229_000771_001911_000647_006989_012615_023191_064941_097595,
  1_021336_000001_000001_000001_000015_000005_000013_000015_000109_000459_000447_001625_001269_007629_007929_004405_012143_040481,
  1_021342_000001_000003_000003_000001_000023_000003_000095_000229_000363_000379_001149_001615_005125_003645_027535_058791_038091,
  1_021351_000001_000001_000001_000001_000009_000045_000119_000085_000151_000171_001123_000041_006517_008067_017845_023301_095383]

def dirRows17_0_25 : List Nat := [
  1_021355_000001_000003_000001_000015_000017_000031_000103_000071_000035_001019_001687_001175_006119_014075_026601_028873_036617,
  1_021363_000001_000003_000003_000009_000013_000039_000007_000017_000207_000219_000637_003025_001709_004031_000563_014865_129389,
  1_021372_000001_000003_000007_000001_000021_000011_000121_000085_000111_000641_001163_003173_005189_013261_019471_039635_076545,
  1_021382_000001_000003_000007_000015_000003_000045_000003_000037_000121_000967_001861_003257_003699_006881_011905_008413_059397,
  1_021388_000001_000003_000003_000013_000025_000053_000085_000181_000001_000979_002045_000297_001739_008139_017897_035251_007193,
  1_021394_000001_000001_000001_000003_000005_000049_000077_000115_000377_000209_001415_003747_000485_000803_002507_027729_052201,
  1_021403_000001_000003_000001_000005_000031_000055_000085_000171_000135_000893_001423_003693_006155_005321_008297_039183_088377,
  1_021409_000001_000003_000003_000015_000001_000035_000073_000239_000181_000101_000509_002449_004955_013049_027631_016871_040151,
  1_021416_000001_000001_000007_000013_000027_000007_000109_000071_000437_000835_000563_001355_003681_007431_032743_059693_125055,
  1_021421_000001_000001_000007_000005_000019_000023_000029_000147_000291_000507_001943_002069_003309_011569_001031_049345_086735,
  1_021424_000001_000001_000003_000013_000017_000045_000091_000167_000019_000137_000527_000961_004435_002277_006863_057917_129407,
  1_021444_000001_000003_000005_000007_000011_000031_000079_000207_000043_000871_001121_002929_006899_004099_029533_045333_033299,
  1_021453_000001_000001_000007_000005_000005_000049_000013_000095_000475_000091_000337_003531_003157_001331_032655_046169_003549,
  1_021466_000001_000003_000001_000005_000005_000009_000073_000177_000123_000251_000717_000541_007083_006907_001417_031203_009755,
  1_021471_000001_000003_000001_000011_000021_000011_000091_000155_000447_000165_001525_002073_005103_000193_002677_043673_070579,
  1_021495_000001_000003_000007_000001_000007_000027_000115_000247_000211_000779_001999_000209_003215_000111_025567_034641_130873,
  1_021499_000001_000001_000005_000009_000025_000007_000015_000019_000217_000831_001577_002051_003533_002337_007675_002845_069135,
  1_021504_000001_000003_000005_000015_000029_000011_000091_000059_000221_000383_001235_001261_002967_014989_011455_006459_058047,
  1_021507_000001_000003_000005_000001_000003_000035_000005_000127_000099_000981_000493_003001_005651_003125_027789_057389_115631,
  1_021521_000001_000003_000005_000005_000029_000063_000123_000161_000247_000177_001653_002665_003903_011129_020961_049429_044075,
  1_021527_000001_000003_000001_000001_000013_000009_000057_000167_000291_000765_001929_000397_005503_005601_006957_062003_104631,
  1_021555_000001_000001_000007_000015_000009_000043_000057_000085_000157_000361_001931_002183_008045_014939_002169_025733_029095,
  1_021558_000001_000001_000003_000015_000013_000035_000047_000123_000013_000667_001373_004069_006259_013453_013439_025349_099437,
  1_021562_000001_000003_000007_000001_000031_000015_000069_000045_000355_000919_000415_000793_003987_008785_004905_008177_123989,
  1_021570_000001_000003_000007_000013_000029_000027_000069_000057_000385_000185_000171_002499_003983_013437_023585_021501_088079,
  1_021576_000001_000001_000005_000011_000027_000003_000077_000099_000221_000997_001653_001963_002251_015505_026347_051933_100679,
  1_021579_000001_000001_000001_000007_000019_000039_000049_000069_000193_000235_000959_002823_002573_008001_004389_013217_060975,
  1_021581_000001_000001_000007_000005_000001_000003_000003_000189_000199_000293_001225_001913_007271_002255_000661_023293_082069,
  1_021587_000001_000001_000005_000005_000021_000031_000035_000113_000047_000479_000325_001663_007409_008975_014151_056317_079663,
  1_021590_000001_000001_000005_000009_000015_000063_000099_000135_000277_000715_000667_000387_006929_012873_012913_002599_084939,
  1_021599_000001_000001_000007_000015_000023_000039_000067_000025_000179_000313_000459_000295_001103_001737_007529_029463_104693,
  1_021605_000001_000001_000003_000013_000023_000011_000111_000067_000105_000191_001967_003497_007621_000487_018545_059521_115315,
  1_021612_000001_000001_000001_000007_000025_000045_000083_000061_000231_000569_000155_002817_006985_005289_006731_003087_089749,
  1_021618_000001_000003_000007_000001_000001_000061_000103_000049_000135_000411_000659_001735_004461_008077_012885_062791_114769,
  1_021630_000001_000001_000007_000013_000003_000053_000021_000081_000433_000563_000857_000891_000195_011669_024769_056539_047601,
  1_021639_000001_000003_000001_000013_000003_000041_000059_000101_000067_000803_001209_003267_001255_005763_005483_036339_038451,
  1_021640_000001_000003_000005_000003_000025_000051_000053_000213_000329_000011_000483_000081_002151_007623_026309_015289_085103,
  1_021643_000001_000003_000003_000013_000023_000017_000009_000161_000417_000207_000039_003615_007567_015207_020383_058885_121765,
  1_021648_000001_000003_000001_000007_000015_000059_000009_000195_000187_000583_000341_002737_003891_000331_018055_060455_113271,
  1_021669_000001_000001_000003_000003_000019_000025_000095_000037_000281_000059_001613_002733_005715_004067_005509_005851_035189,
  1_021679_000001_000003_000001_000003_000031_000043_000125_000107_000341_000109_001991_000849_007795_013607_020421_003339_078979,
  1_021681_000001_000003_000007_000013_000015_000057_000087_000151_000479_000099_000479_000447_007407_000303_016397_015699_122273,
  1_021687_000001_000001_000003_000001_000027_000061_000079_000195_000005_000839_001411_003451_004627_013715_018401_024325_044027,
  1_021688_000001_000001_000007_000015_000021_000039_000057_000207_000213_000367_000547_001203_006385_002555_031465_015675_007133,
  1_021706_000001_000001_000005_000015_000027_000003_000075_000123_000337_001019_001525_003065_001919_010779_027409_006291_086291,
  1_021713_000001_000001_000007_000011_000015_000027_000067_000145_000125_000521_000647_002957_006337_014973_024139_029107_027151,
  1_021714_000001_000001_000001_000013_000025_000057_000103_000083_000321_000111_000131_002051_005267_004723_001939_040389_004803,
  1_021716_000001_000003_000001_000007_000029_000007_000035_000133_000349_000855_000613_002563_002261_002119_013939_024727_026719,
  1_021730_000001_000003_000003_000001_000011_000061_000025_000177_000427_001005_002027_000649_007871_007803_004717_059207_057945,
  1_021732_000001_000001_000007_000001_000015_000045_000075_000133_000193_000745_000485_000197_006001_013837_000615_043629_127321,
  1_021749_000001_000003_000003_000013_000005_000007_000101_000183_000211_000283_001327_001395_008175_013359_018361_054243_003555,
  1_021756_000001_000001_000007_000013_000007_000043_000019_000041_000319_000701_000795_001407_007113_009149_031953_017075_053975,
  1_021774_000001_000003_000005_000013_000011_000019_000101_000125_000327_000075_001471_003465_002247_005107_011519_045161_071373,
  1_021779_000001_000003_000007_000013_000023_000059_000053_000057_000137_000575_000059_003829_000963_011259_025771_029223_079535,
  1_021781_000001_000003_000003_000011_000017_000031_000111_000147_000499_000441_001385_000769_006901_008349_001427_016561_007485,
  1_021786_000001_000001_000007_000009_000021_000007_000047_000083_000351_000867_000265_001329_007853_006959_011821_044947_042275,
  1_021792_000001_000001_000007_000015_000003_000017_000079_000143_000449_000577_001007_001101_003229_006861_023921_037551_117309,
  1_021810_000001_000003_000005_000011_000027_000063_000107_000015_000289_000821_001723_001945_001373_014469_030985_055987_021255,
  1_021819_000001_000003_000005_000003_000021_000039_000079_000085_000485_000733_002031_001573_006873_012225_030471_054233_026967,
  1_021829_000001_000003_000005_000007_000017_000029_000093_000251_000437_000583_000825_000551_006545_010905_027863_037037_052129,
  1_021830_000001_000003_000007_000009_000023_000001_000023_000085_000195_000319_001759_003985_002413_016205_022197_048821_094907,
  1_021844_000001_000001_000003_000007_000017_000047_000003_000195_000167_000925_000011_003431_001767_005917_013915_054565_064625,
  1_021853_000001_000003_000001_000013_000023_000043_000097_000093_000313_000773_000591_000127_006005_011497_032573_008173_092053,
  1_021867_000001_000001_000005_000009_000017_000047_000115_000237_000389_000619_000377_000561_001333_006433_009743_032673_098039,
  1_021869_000001_000003_000007_000015_000023_000017_000099_000225_000145_000191_002041_000581_000841_009377_018123_032773_066849,
  1_021882_000001_000003_000007_000015_000021_000049_000097_000041_000357_000527_002019_002083_002611_012449_020037_052503_105991,
  1_021891_000001_000001_000005_000013_000017_000053_000041_000075_000355_000207_001675_000591_005797_009217_016443_003205_081905,
  1_021898_000001_000003_000007_000011_000001_000061_000029_000207_000449_000103_001527_002327_007895_010137_025223_051607_060809,
  1_021917_000001_000003_000003_000005_000015_000057_000087_000233_000301_000989_000485_002143_007411_005475_023377_056005_059721,
  1_021934_000001_000003_000001_000015_000029_000007_000095_000141_000369_000231_000735_001103_001565_011575_000571_003257_062961,
  1_021946_000001_000001_000005_000015_000027_000019_000025_000035_000303_000555_000095_001323_006139_005079_021763_059591_103537,
  1_021948_000001_000001_000001_000013_000025_000023_000085_000151_000135_000349_001753_001061_007697_001723_005213_012581_103995,
  1_021963_000001_000003_000001_000009_000029_000051_000101_000195_000059_000809_001527_002179_000063_003681_029823_057537_121371,
  1_021966_000001_000001_000007_000011_000027_000061_000085_000213_000245_000261_001649_002423_006127_005687_004247_056061_109793,
  1_021968_000001_000003_000005_000015_000011_000033_000127_000031_000269_000857_002027_002611_001729_011783_016459_031083_030671,
  1_021973_000001_000001_000007_000009_000011_000029_000127_000177_000505_000227_001499_001309_006855_009999_021815_032987_079109,
  1_021977_000001_000003_000007_000011_000007_000021_000107_000001_000493_000459_000867_003199_007985_012957_028197_041133_105985,
  1_021980_000001_000001_000003_000015_000001_000057_000113_000097_000213_000547_001017_002961_000461_016125_010621_004243_058277,
  1_021984_000001_000001_000003_000005_000011_000057_000061_000047_000209_000961_000333_000795_004491_015115_025745_062633_066269,
  1_021994_000001_000001_000007_000003_000019_000013_000049_000167_000455_000863_000581_001407_004247_015023_002247_019981_125891,
  1_021999_000001_000001_000007_000015_000017_000055_000027_000035_000033_000349_000879_001781_001075_002475_030689_042043_029423,
  1_022018_000001_000001_000001_000011_000025_000053_000121_000117_000117_000845_000447_003927_001951_008643_024497_044833_099533,
  1_022020_000001_000001_000007_000013_000003_000059_000117_000009_000359_000453_000327_003419_005957_000097_020541_049441_005673,
  1_022029_000001_000003_000005_000005_000031_000035_000095_000107_000435_000733_000827_001361_006627_008905_002681_025473_046093,
  1_022032_000001_000003_000003_000005_000007_000023_000075_000137_000231_000915_000637_002963_004409_012799_031587_065363_069539,
  1_022041_000001_000001_000001_000007_000015_000035_000019_000233_000189_000837_000243_002525_006185_000565_008133_004265_003089,
  1_022047_000001_000001_000005_000005_000019_000059_000103_000201_000287_000449_000021_002331_000341_013145_018607_046407_002767,
  1_022048_000001_000003_000003_000015_000019_000041_000049_000179_000109_000367_001185_001045_001635_009647_016613_025357_034291,
  1_022071_000001_000003_000005_000001_000013_000011_000089_000025_000159_000637_001979_000549_003553_009163_000227_050553_046307,
  1_022075_000001_000001_000003_000001_000017_000033_000073_000239_000261_000751_001267_002643_002549_008331_025083_009715_067289,
  1_022078_000001_000001_000001_000013_000003_000049_000007_000035_000367_000293_000903_001045_000569_006017_027635_051833_032963,
  1_022083_000001_000003_000005_000003_000031_000003_000069_000137_000057_000087_000719_003977_003031_007675_024605_008757_093173,
  1_022089_000001_000003_000003_000001_000007_000045_000097_000035_000233_000069_001525_004047_002599_013679_004389_049079_121465,
  1_022097_000001_000001_000007_000013_000007_000025_000057_000211_000337_000189_001825_002451_007651_011277_027763_040671_057223,
  1_022110_000001_000001_000001_000001_000015_000059_000055_000169_000461_000907_000407_000803_003349_004727_020983_047717_051647,
  1_022113_000001_000003_000007_000001_000015_000051_000025_000119_000439_000593_001289_003959_005489_013283_031837_008441_058373,
  1_022119_000001_000003_000001_000009_000005_000001_000081_000045_000013_000537_001091_003861_006781_005679_002807_029757_040917,
  1_022120_000001_000003_000005_000003_000027_000041_000019_000235_000207_000697_000775_000837_003431_003175_010807_042775_067987,
  1_022126_000001_000003_000007_000003_000029_000033_000035_000119_000271_000609_001747_002839_003415_002275_030979_041293_099341,
  1_022133_000001_000003_000003_000003_000005_000017_000013_000169_000269_000709_001449_003169_001545_016075_008937_039705_019609]

/-- Rows with 17 initial numbers, part 0. -/
def dir17_0 : List (List Nat) := [
  dirRows17_0_0,
  dirRows17_0_1,
  dirRows17_0_2,
  dirRows17_0_3,
  dirRows17_0_4,
  dirRows17_0_5,
  dirRows17_0_6,
  dirRows17_0_7,
  dirRows17_0_8,
  dirRows17_0_9,
  dirRows17_0_10,
  dirRows17_0_11,
  dirRows17_0_12,
  dirRows17_0_13,
  dirRows17_0_14,
  dirRows17_0_15,
  dirRows17_0_16,
  dirRows17_0_17,
  dirRows17_0_18,
  dirRows17_0_19,
  dirRows17_0_20,
  dirRows17_0_21,
  dirRows17_0_22,
  dirRows17_0_23,
  dirRows17_0_24,
  dirRows17_0_25]

end SALib.Data
