/-! # Direction-number table, rows 3666 to 5713

Generated from `src/SALib/sample/directions.py` lines 3668-5715.  One row per line: a leading 1, then
every number of the row padded to six digits (so the row `(7, 1, 1, 7, 11, 19)` is
`1_000007_000001_000001_000007_000011_000019`).  Rows are grouped by the number `s` of initial numbers. -/

namespace SALib.Data

def dirRows16_0_0 : List Nat := [
  1_000022_000001_000003_000007_000011_000029_000035_000067_000129_000221_000439_001159_003501_007741_008885_011381_020707,
  1_000028_000001_000003_000005_000011_000029_000059_000023_000117_000343_000637_001825_001687_002823_011641_003311_023603,
  1_000031_000001_000001_000005_000011_000001_000035_000103_000155_000233_000575_001761_000503_004175_006105_029737_032681,
  1_000041_000001_000003_000003_000001_000005_000063_000027_000071_000245_000433_001779_002475_005479_004705_010795_034247,
  1_000094_000001_000003_000005_000007_000029_000045_000117_000005_000393_000849_000843_003131_006995_009979_028907_030115,
  1_000107_000001_000003_000005_000009_000027_000029_000069_000005_000395_000561_001531_000409_002779_008785_016405_027315,
  1_000151_000001_000003_000001_000009_000015_000029_000085_000003_000331_000019_001941_000567_006957_000747_001627_011347,
  1_000158_000001_000001_000003_000009_000027_000045_000047_000127_000133_000921_001817_002231_006333_014371_012799_009831,
  1_000167_000001_000001_000005_000015_000031_000007_000125_000013_000455_000159_000331_003629_004705_011261_003657_036307,
  1_000174_000001_000001_000005_000009_000011_000053_000051_000035_000087_000885_001975_003899_001013_007667_032385_033635,
  1_000203_000001_000001_000001_000003_000007_000045_000107_000177_000193_000765_000731_000139_005563_000623_016485_054999,
  1_000208_000001_000001_000005_000009_000017_000053_000117_000069_000385_000587_001483_000149_002769_003013_018183_010173,
  1_000214_000001_000001_000005_000011_000005_000003_000025_000153_000351_000749_000801_003077_003209_011189_025241_014115,
  1_000223_000001_000001_000007_000009_000001_000047_000041_000247_000135_000163_000899_001517_005647_010595_032531_012497,
  1_000227_000001_000003_000005_000011_000005_000061_000111_000215_000251_000279_000825_002155_003527_000173_010973_059257,
  1_000266_000001_000003_000005_000011_000025_000015_000071_000083_000135_000231_001415_003761_007513_008337_028979_043615,
  1_000268_000001_000003_000005_000013_000019_000005_000055_000165_000141_000119_001891_002255_004735_016217_026195_050527,
  1_000274_000001_000001_000007_000015_000023_000059_000059_000191_000001_000855_000453_002619_005013_014749_024335_044339,
  1_000279_000001_000001_000001_000013_000015_000041_000051_000147_000229_000495_001191_000867_001525_000581_029713_026391,
  1_000302_000001_000001_000001_000009_000029_000005_000059_000127_000105_000417_000301_002249_006335_003513_017373_052977,
  1_000310_000001_000001_000003_000007_000021_000027_000109_000143_000063_000347_001429_002889_002597_010243_009913_022687,
  1_000322_000001_000003_000005_000005_000007_000003_000125_000147_000313_000351_001163_000415_005615_005571_007089_055621,
  1_000328_000001_000003_000003_000003_000031_000043_000101_000093_000009_000671_000135_000333_002169_011169_007403_050707,
  1_000336_000001_000001_000007_000013_000015_000033_000125_000155_000227_000827_001047_002441_003007_010881_019969_063805,
  1_000370_000001_000003_000003_000005_000031_000033_000029_000249_000159_000797_001475_000841_006933_006417_025629_061865,
  1_000398_000001_000003_000003_000015_000011_000055_000011_000117_000149_000911_001589_003133_006477_006123_010471_041099,
  1_000421_000001_000003_000003_000009_000027_000037_000001_000119_000509_000969_000831_003771_002093_013621_031737_043269,
  1_000436_000001_000001_000001_000001_000009_000023_000119_000109_000487_000753_001673_002163_003349_004741_029971_003407,
  1_000440_000001_000003_000003_000007_000025_000007_000067_000009_000461_000631_000651_002271_005663_002621_003953_020975,
  1_000451_000001_000001_000005_000011_000013_000031_000029_000255_000371_000517_000845_003649_001187_010061_022887_058417,
  1_000454_000001_000003_000005_000013_000029_000001_000011_000137_000151_000249_000167_001243_000997_011023_011875_042315,
  1_000463_000001_000001_000005_000005_000005_000055_000103_000071_000255_001023_000209_001005_002147_011527_017863_006661,
  1_000465_000001_000001_000003_000003_000031_000039_000007_000151_000353_000775_001313_001257_004197_002625_009571_027269,
  1_000494_000001_000001_000001_000003_000007_000017_000003_000127_000501_000503_001879_002329_003049_010603_002111_033189,
  1_000508_000001_000003_000003_000007_000013_000059_000093_000013_000375_000483_001991_002257_003003_001699_004339_051827,
  1_000532_000001_000003_000007_000015_000027_000041_000059_000225_000405_000807_001545_002581_001173_014137_003413_039299,
  1_000555_000001_000001_000001_000003_000009_000023_000037_000123_000465_001023_001065_001455_005107_003839_020451_011461,
  1_000563_000001_000001_000001_000011_000019_000055_000091_000121_000317_000199_000215_003031_007223_011891_021463_064921,
  1_000577_000001_000003_000007_000011_000019_000005_000005_000115_000399_000219_000071_001465_000281_014451_026807_042541,
  1_000580_000001_000003_000005_000013_000003_000033_000075_000035_000019_000559_000761_000947_007479_015325_031453_020561,
  1_000584_000001_000003_000003_000013_000023_000047_000099_000073_000331_000353_000401_001737_006235_013781_005547_056443,
  1_000607_000001_000003_000003_000013_000021_000037_000041_000205_000087_000399_000051_003175_007403_012875_021129_007079,
  1_000608_000001_000003_000005_000011_000015_000047_000033_000039_000465_000871_000277_002351_000695_001953_024293_020595,
  1_000665_000001_000001_000007_000011_000013_000015_000115_000059_000469_000715_000191_001927_000905_013463_029005_046789,
  1_000675_000001_000003_000005_000009_000013_000055_000079_000017_000265_000887_000905_003985_006907_003379_020055_058569,
  1_000692_000001_000001_000007_000011_000021_000029_000023_000109_000017_000427_001623_002219_003857_003709_025033_063823,
  1_000707_000001_000003_000005_000015_000019_000027_000113_000015_000025_000063_001885_002693_005301_009385_014137_026097,
  1_000737_000001_000003_000003_000011_000017_000005_000073_000143_000079_000957_000461_001709_004909_002285_018113_008401,
  1_000750_000001_000001_000003_000007_000009_000009_000101_000127_000137_000755_001359_001965_000083_013335_027763_007941,
  1_000757_000001_000001_000001_000003_000013_000061_000095_000061_000295_000615_000555_002163_008155_014043_021465_046741,
  1_000800_000001_000001_000001_000013_000029_000019_000111_000017_000373_000153_001703_002199_007209_015845_001879_007493,
  1_000805_000001_000003_000001_000013_000021_000051_000049_000051_000255_000151_000207_001915_007629_002705_008739_007467,
  1_000809_000001_000003_000007_000005_000021_000021_000023_000193_000467_000739_000519_002315_002953_010633_009163_006007,
  1_000837_000001_000003_000001_000005_000023_000019_000023_000247_000093_000297_001089_002349_004683_013609_007615_018647,
  1_000865_000001_000001_000003_000003_000021_000039_000019_000071_000093_000001_000133_003531_007503_002819_024211_001739,
  1_000949_000001_000003_000005_000013_000009_000043_000031_000111_000493_000739_000705_002715_003613_011877_027945_046053,
  1_000950_000001_000001_000007_000013_000027_000059_000103_000129_000053_000531_001379_001441_005341_014937_005079_039881,
  1_000956_000001_000001_000003_000003_000011_000063_000091_000095_000433_000393_000715_000809_000591_004141_017417_054107,
  1_000961_000001_000003_000005_000001_000007_000025_000025_000175_000205_000803_000183_001441_001279_002753_020001_056677,
  1_001016_000001_000001_000005_000003_000013_000023_000077_000025_000133_000137_001907_001313_002463_014339_000013_057757,
  1_001030_000001_000001_000005_000009_000023_000035_000001_000119_000111_000061_000403_001815_001985_005651_010883_055943,
  1_001072_000001_000003_000001_000007_000021_000043_000115_000007_000107_000719_000759_001521_000467_008735_029785_063821,
  1_001119_000001_000001_000003_000013_000019_000017_000051_000141_000399_000569_000703_002221_002809_013355_001907_015837,
  1_001130_000001_000001_000005_000015_000015_000053_000057_000031_000481_000069_001439_004049_006727_011307_020683_063517,
  1_001135_000001_000001_000001_000003_000013_000027_000009_000255_000363_000131_001745_002489_006451_006585_012873_035405,
  1_001137_000001_000003_000005_000001_000017_000031_000113_000135_000449_000915_001017_002317_006821_005483_030707_045279,
  1_001144_000001_000003_000005_000001_000013_000047_000025_000053_000413_000545_001777_003049_007527_009689_025935_009919,
  1_001149_000001_000003_000007_000011_000017_000039_000013_000131_000295_000517_001755_002977_006267_012351_008957_017765,
  1_001180_000001_000001_000007_000005_000027_000057_000047_000021_000125_000429_001169_001717_005455_016359_029065_006671,
  1_001214_000001_000001_000005_000005_000021_000015_000079_000241_000083_000515_000859_002351_003125_007465_030475_019759,
  1_001221_000001_000003_000001_000009_000011_000005_000081_000011_000007_000221_000141_003329_003435_000323_018999_054735,
  1_001234_000001_000001_000001_000015_000007_000057_000087_000251_000063_000561_000929_001367_002511_014527_009335_038775,
  1_001239_000001_000003_000003_000009_000023_000037_000059_000105_000179_000515_000235_002445_000433_013039_027005_048829,
  1_001249_000001_000001_000001_000001_000023_000037_000103_000031_000089_000921_001687_000831_000387_010237_001241_019295,
  1_001250_000001_000003_000003_000007_000025_000023_000057_000251_000309_000579_000603_000807_007383_008579_004025_016757,
  1_001267_000001_000001_000003_000015_000023_000059_000029_000033_000467_000641_001271_002915_002549_014767_026557_043483,
  1_001273_000001_000001_000007_000013_000001_000057_000023_000129_000321_000075_000189_004087_005011_004355_025759_037153,
  1_001342_000001_000001_000005_000001_000021_000057_000025_000183_000037_000669_000259_001381_000877_010245_016643_061035,
  1_001344_000001_000001_000007_000005_000011_000011_000085_000141_000393_000957_001745_002243_001681_005583_016527_012017,
  1_001373_000001_000001_000005_000015_000023_000031_000005_000169_000287_000527_001831_002937_007533_009739_024305_002239,
  1_001378_000001_000001_000007_000001_000007_000013_000003_000243_000189_000309_000607_003659_006369_007649_024255_055373,
  1_001408_000001_000001_000001_000003_000003_000059_000103_000209_000287_000913_001223_001063_007715_006073_026697_025671,
  1_001417_000001_000003_000007_000005_000019_000019_000117_000191_000275_000637_000991_002199_002921_010553_021211_025981,
  1_001418_000001_000003_000003_000005_000029_000059_000017_000013_000127_000057_001405_003181_002237_001795_021419_043421,
  1_001448_000001_000001_000001_000015_000025_000041_000011_000117_000463_000425_000305_001441_004307_007967_017529_004043,
  1_001454_000001_000003_000005_000005_000019_000053_000069_000073_000453_000611_001583_001721_006303_010561_018527_048973,
  1_001510_000001_000001_000007_000011_000015_000061_000087_000069_000463_000771_000819_000469_008165_008897_029657_055161,
  1_001513_000001_000001_000005_000001_000015_000025_000023_000047_000287_000457_001219_000473_004127_003349_009425_041541,
  1_001522_000001_000003_000007_000005_000017_000017_000033_000161_000239_000231_000241_001297_004879_012761_020939_065261,
  1_001543_000001_000003_000003_000009_000019_000053_000095_000089_000117_000333_001815_002217_007779_008213_004667_058395,
  1_001550_000001_000003_000003_000009_000017_000007_000041_000099_000371_000797_000729_002851_002003_004463_020793_054315,
  1_001552_000001_000003_000005_000005_000023_000039_000019_000235_000163_000365_000141_000791_000455_002761_009115_053351,
  1_001588_000001_000003_000003_000003_000009_000027_000029_000139_000165_000867_002023_001333_003771_010451_009141_041177,
  1_001592_000001_000001_000003_000007_000003_000011_000125_000157_000355_000519_000187_003381_001151_001629_025247_042797,
  1_001597_000001_000003_000003_000003_000021_000025_000037_000155_000257_000311_000961_001945_001383_005679_007857_007183,
  1_001606_000001_000003_000003_000005_000029_000011_000049_000125_000171_000605_001923_002781_002555_005063_005075_043301,
  1_001610_000001_000003_000005_000009_000027_000001_000027_000149_000253_000205_001299_002901_002891_000975_007641_008115,
  1_001617_000001_000003_000005_000003_000031_000007_000049_000215_000081_000791_001485_000837_005051_001947_007521_025723,
  1_001623_000001_000003_000005_000007_000023_000025_000069_000013_000003_000859_000441_003577_001687_006559_008687_046757,
  1_001657_000001_000001_000001_000009_000001_000059_000003_000031_000251_000187_000617_002607_004635_006121_008565_008871]

def dirRows16_0_1 : List Nat := [
  1_001697_000001_000003_000003_000009_000029_000037_000127_000087_000153_000633_001691_002729_003167_003219_021237_025573,
  1_001729_000001_000001_000005_000013_000019_000063_000093_000235_000299_000621_000405_000663_006639_012265_009303_042719,
  1_001735_000001_000001_000003_000009_000025_000011_000009_000231_000101_000335_001793_001497_007069_004171_030199_000063,
  1_001769_000001_000001_000001_000001_000005_000019_000017_000217_000165_000413_000925_001409_006559_014537_022057_044331,
  1_001778_000001_000001_000003_000007_000011_000051_000045_000217_000057_000795_000951_002933_006705_000137_030525_009679,
  1_001826_000001_000001_000003_000015_000027_000047_000035_000125_000363_000619_001027_002861_003923_010459_016789_027277,
  1_001858_000001_000001_000007_000007_000013_000037_000033_000029_000385_000851_000143_000119_007345_004251_025121_031609,
  1_001870_000001_000003_000001_000001_000017_000025_000119_000007_000365_000397_000601_002087_006903_015345_014671_037889,
  1_001875_000001_000003_000001_000013_000019_000051_000041_000139_000133_000723_000025_002621_001257_007037_009527_050037,
  1_001922_000001_000001_000005_000011_000005_000059_000119_000075_000397_000545_001095_000585_003271_001049_000123_033029,
  1_001924_000001_000001_000007_000011_000009_000027_000021_000197_000177_000031_000453_002457_002733_007787_001923_024639,
  1_001933_000001_000001_000007_000013_000029_000013_000091_000091_000243_000279_000601_001699_007169_004727_007815_029099,
  1_001972_000001_000003_000007_000005_000001_000035_000027_000235_000163_000913_001479_000769_007179_001983_025977_055373,
  1_001979_000001_000003_000005_000011_000009_000033_000099_000141_000301_000109_001785_000129_001707_005181_004797_009979,
  1_001987_000001_000001_000001_000013_000003_000047_000089_000043_000293_000087_001689_003885_007747_005607_000477_031887,
  1_001994_000001_000001_000005_000001_000009_000021_000073_000037_000045_000621_001855_003691_004899_002191_013459_023543,
  1_002008_000001_000001_000001_000001_000007_000039_000061_000125_000341_000905_000213_001755_000241_013407_008791_010165,
  1_002023_000001_000001_000001_000001_000019_000031_000079_000019_000055_000875_001017_001787_004879_000533_015029_052295,
  1_002029_000001_000003_000001_000001_000009_000059_000113_000071_000113_000649_000561_000071_005253_000783_007389_019361,
  1_002053_000001_000001_000001_000011_000005_000039_000061_000225_000291_000907_000795_001099_000597_011829_015137_042865,
  1_002081_000001_000003_000001_000005_000025_000011_000071_000155_000271_000309_001981_001253_000463_001133_020833_048625,
  1_002087_000001_000003_000005_000009_000007_000041_000087_000241_000457_000899_001493_003675_003025_010607_022569_052813,
  1_002094_000001_000003_000007_000013_000007_000037_000037_000103_000281_000915_001259_004049_000559_000173_004123_063767,
  1_002111_000001_000003_000007_000015_000013_000057_000009_000051_000039_000549_001431_002887_001081_004643_016331_014221,
  1_002113_000001_000003_000005_000007_000013_000001_000101_000125_000025_000713_001423_000513_003323_009951_007163_020969,
  1_002114_000001_000001_000007_000015_000011_000025_000025_000003_000047_000531_001529_000471_006191_010051_029671_049085,
  1_002123_000001_000001_000003_000005_000023_000051_000117_000141_000055_000275_000761_001923_006267_002291_003701_026615,
  1_002190_000001_000001_000007_000009_000015_000019_000111_000065_000137_000373_001753_003591_001137_011639_028591_027265,
  1_002231_000001_000003_000001_000015_000029_000005_000067_000013_000425_000961_000453_002481_001407_003479_023303_030407,
  1_002276_000001_000001_000005_000003_000019_000039_000039_000123_000351_000077_001339_001765_003767_001907_013627_023877,
  1_002285_000001_000003_000005_000009_000023_000007_000103_000177_000221_000197_000561_002121_007231_012053_030127_029849,
  1_002297_000001_000001_000005_000007_000015_000001_000003_000123_000197_000493_000171_002425_003865_004061_031883_002491,
  1_002336_000001_000001_000003_000013_000029_000033_000099_000067_000327_000969_001793_001871_001839_013059_007605_016797,
  1_002345_000001_000003_000005_000011_000025_000053_000025_000093_000303_000623_001889_001471_001213_014459_008527_025095,
  1_002353_000001_000001_000001_000013_000015_000003_000115_000003_000289_000743_001855_000359_002375_013765_019711_040765,
  1_002363_000001_000001_000007_000011_000027_000051_000085_000163_000219_000871_000637_002011_005981_000587_017521_017333,
  1_002368_000001_000003_000005_000001_000021_000059_000049_000039_000305_000513_002017_000285_005817_013123_027765_046741,
  1_002373_000001_000003_000003_000007_000021_000039_000071_000163_000423_000845_000783_000397_007319_010677_013407_047471,
  1_002391_000001_000003_000007_000005_000021_000059_000099_000179_000473_000687_001393_000723_002245_002933_025943_007769,
  1_002402_000001_000001_000005_000009_000005_000045_000071_000189_000165_000555_000643_002289_003133_012319_022209_001533,
  1_002413_000001_000001_000003_000009_000007_000043_000001_000155_000323_000169_000339_002561_004049_004953_005289_008783,
  1_002422_000001_000003_000001_000011_000015_000005_000025_000201_000267_000891_000561_000501_000575_015147_001743_045237,
  1_002425_000001_000003_000005_000013_000025_000027_000105_000205_000165_000795_000975_000943_007413_010299_014839_054895,
  1_002461_000001_000001_000005_000001_000017_000043_000069_000103_000449_000917_000103_000945_000513_000709_011647_028065,
  1_002462_000001_000001_000003_000015_000023_000051_000023_000007_000159_000743_000177_003457_000415_001775_025353_036385,
  1_002490_000001_000003_000005_000013_000009_000063_000121_000019_000165_000449_001523_001959_006901_012281_029149_045999,
  1_002492_000001_000003_000007_000011_000017_000019_000009_000155_000373_000753_001313_002205_003571_016317_016151_015325,
  1_002510_000001_000003_000003_000007_000015_000043_000065_000183_000407_000123_001151_000375_003461_006673_012985_021005,
  1_002564_000001_000003_000007_000007_000009_000001_000087_000247_000489_000123_001677_001947_007961_013497_027919_028993,
  1_002573_000001_000003_000003_000007_000019_000021_000095_000227_000217_000133_000069_001535_000699_003521_029255_034733,
  1_002598_000001_000003_000005_000003_000007_000057_000045_000251_000407_000081_001259_002425_002217_013097_012773_014643,
  1_002627_000001_000001_000001_000011_000023_000037_000013_000229_000467_000591_001521_000469_003763_002289_014233_024053,
  1_002633_000001_000003_000005_000001_000027_000053_000105_000005_000085_000765_001973_002597_005725_001063_018145_000961,
  1_002647_000001_000003_000007_000001_000021_000047_000115_000095_000403_000003_001593_003379_007371_015553_012503_057979,
  1_002660_000001_000001_000003_000001_000001_000035_000121_000029_000379_000245_000919_002673_003503_014197_031193_008355,
  1_002664_000001_000003_000005_000011_000019_000049_000097_000007_000195_001013_001671_003415_002009_013389_004837_027453,
  1_002678_000001_000001_000005_000013_000009_000015_000115_000097_000463_000449_000303_002681_001215_012559_015685_021321,
  1_002684_000001_000003_000005_000013_000023_000005_000113_000193_000419_000301_001121_000317_005503_004683_025519_000065,
  1_002691_000001_000003_000003_000007_000015_000029_000045_000097_000323_000475_000143_001173_004033_008939_031849_003575,
  1_002759_000001_000001_000007_000007_000021_000001_000101_000143_000197_000409_000855_001753_005211_003763_011139_037309,
  1_002768_000001_000001_000003_000013_000025_000033_000055_000045_000381_000349_000991_000535_004823_003701_031629_048037,
  1_002773_000001_000003_000001_000011_000017_000051_000027_000057_000409_000551_000949_000365_008093_010831_019697_039437,
  1_002794_000001_000003_000005_000003_000031_000033_000081_000049_000091_000865_000469_002115_000377_008237_031907_038239,
  1_002813_000001_000001_000003_000007_000029_000059_000057_000017_000121_000889_001557_001797_005001_014209_021355_059739,
  1_002831_000001_000001_000005_000009_000011_000045_000089_000087_000397_000785_000525_001593_005251_012449_023579_054265,
  1_002843_000001_000003_000005_000011_000005_000031_000019_000047_000207_000331_000091_001691_005171_000053_015945_033349,
  1_002846_000001_000001_000001_000015_000011_000041_000091_000177_000505_000871_000815_003673_005631_009915_001133_037861,
  1_002849_000001_000003_000005_000005_000025_000063_000053_000231_000055_000051_000481_000303_001859_011973_028557_022045,
  1_002856_000001_000001_000005_000003_000027_000011_000037_000091_000363_000411_001131_003369_000377_006585_007353_042949,
  1_002893_000001_000003_000001_000009_000031_000063_000083_000023_000405_000941_000119_001471_002509_015507_029239_049613,
  1_002901_000001_000001_000005_000001_000011_000063_000117_000237_000407_000231_001425_000071_008005_004023_009029_059819,
  1_002924_000001_000001_000005_000007_000001_000009_000043_000087_000351_000063_001075_003381_005447_002437_024983_026905,
  1_002942_000001_000003_000007_000005_000005_000035_000033_000089_000251_000819_001735_002625_006363_006837_027603_026669,
  1_002975_000001_000003_000007_000013_000029_000063_000051_000245_000371_000791_000907_003499_003033_008443_020023_001805,
  1_002979_000001_000001_000005_000007_000013_000015_000109_000197_000451_000709_000929_003193_005727_011185_029479_001671,
  1_002985_000001_000001_000007_000013_000019_000023_000097_000009_000359_000635_000777_000039_000893_002531_013563_019295,
  1_003020_000001_000001_000005_000001_000031_000063_000055_000007_000157_000877_000991_001317_001595_002019_021435_052255,
  1_003025_000001_000001_000005_000003_000019_000037_000023_000013_000335_000431_000483_000615_002431_000505_026245_063323,
  1_003028_000001_000003_000007_000005_000005_000009_000037_000065_000303_000423_001907_002661_007213_002975_029045_016243,
  1_003051_000001_000003_000001_000005_000013_000037_000115_000217_000227_000159_000707_001387_000943_004935_005503_035171,
  1_003127_000001_000003_000007_000009_000019_000015_000087_000233_000453_000159_000169_001077_002129_000413_019773_000629,
  1_003142_000001_000001_000005_000015_000029_000039_000037_000243_000233_000365_001843_002219_001255_015287_000603_013511,
  1_003145_000001_000001_000003_000003_000031_000053_000033_000125_000497_000597_000127_001829_003905_002611_004263_040971,
  1_003156_000001_000003_000005_000009_000011_000047_000071_000215_000383_000321_001445_000135_005953_008791_022073_016537,
  1_003165_000001_000003_000003_000013_000015_000007_000007_000133_000401_000459_001117_003165_004105_011943_022431_056821,
  1_003196_000001_000001_000007_000009_000031_000039_000019_000007_000019_000401_000079_003641_006815_001489_007537_049467,
  1_003199_000001_000003_000007_000007_000017_000011_000091_000205_000251_000321_000515_003521_000311_003169_000271_034749,
  1_003217_000001_000003_000003_000007_000029_000015_000005_000153_000083_000603_001373_000997_004939_009811_000243_005375,
  1_003218_000001_000001_000003_000011_000021_000047_000025_000221_000237_000177_000535_002819_006213_007877_026795_036609,
  1_003253_000001_000003_000007_000003_000031_000001_000069_000073_000047_000653_000139_001649_007183_001293_026507_038415,
  1_003258_000001_000001_000001_000013_000017_000041_000023_000073_000115_000509_000787_003733_001871_000171_029967_039941,
  1_003260_000001_000003_000005_000001_000009_000007_000061_000023_000105_000381_001421_002887_003717_000643_026375_057991,
  1_003289_000001_000003_000003_000003_000019_000003_000101_000117_000393_000083_001255_003331_006481_008661_020855_028875,
  1_003314_000001_000003_000005_000011_000021_000013_000111_000193_000051_000899_000159_001989_007931_010511_003933_000447,
  1_003326_000001_000001_000005_000015_000023_000035_000049_000139_000397_000145_000597_001847_007077_000715_020227_042183,
  1_003331_000001_000003_000003_000003_000017_000003_000087_000233_000035_000317_000337_000237_006901_003439_020033_010307,
  1_003371_000001_000003_000005_000003_000011_000035_000013_000171_000007_000963_001443_001501_007617_000963_025453_062589,
  1_003381_000001_000001_000001_000005_000011_000009_000039_000175_000409_000411_001407_002743_004255_000989_015823_001707,
  1_003396_000001_000001_000007_000013_000027_000055_000063_000239_000355_000417_002007_002299_002921_001637_010687_060615,
  1_003441_000001_000001_000007_000009_000005_000061_000057_000073_000263_000307_002003_001763_000639_005885_014709_016985]

def dirRows16_0_2 : List Nat := [
  1_003442_000001_000001_000003_000003_000021_000055_000019_000249_000509_000533_001361_001397_002777_015523_004389_013339,
  1_003460_000001_000003_000005_000015_000009_000003_000091_000237_000451_000299_001541_004083_000879_007859_021585_014833,
  1_003477_000001_000001_000007_000003_000031_000047_000049_000231_000123_000391_001633_002567_005577_001631_027951_022913,
  1_003491_000001_000003_000007_000013_000011_000013_000001_000111_000183_000087_000839_001915_005523_003677_013065_038225,
  1_003493_000001_000001_000003_000007_000015_000015_000063_000241_000167_000345_000653_000701_004725_012911_011545_024475,
  1_003543_000001_000001_000003_000007_000025_000015_000049_000235_000331_000639_000965_001117_007147_003789_003309_020255,
  1_003549_000001_000003_000005_000007_000007_000063_000093_000241_000253_000031_000951_003723_003359_007303_000191_036427,
  1_003550_000001_000003_000007_000009_000009_000059_000005_000107_000181_000413_001269_003121_001929_011921_008931_047459,
  1_003553_000001_000003_000001_000015_000025_000027_000013_000047_000295_000111_001287_002551_004887_004145_017063_042037,
  1_003563_000001_000003_000003_000013_000017_000017_000021_000017_000491_000845_001463_001305_001375_016149_019331_025043,
  1_003568_000001_000003_000005_000001_000027_000005_000093_000139_000283_000711_001141_001743_005001_008851_019351_012275,
  1_003604_000001_000001_000001_000001_000023_000025_000051_000063_000429_000735_000201_003785_006677_016375_019681_017857,
  1_003632_000001_000003_000003_000003_000009_000063_000071_000147_000463_000465_001163_001045_006967_012537_031853_038391,
  1_003650_000001_000003_000007_000001_000005_000051_000079_000239_000389_000003_000601_003787_007635_016295_001681_063971,
  1_003662_000001_000003_000001_000003_000005_000031_000103_000089_000321_000971_000783_003685_001155_010353_002167_035423,
  1_003674_000001_000001_000005_000015_000025_000019_000093_000059_000361_000217_001141_000597_005877_015961_001593_022925,
  1_003685_000001_000003_000001_000009_000025_000059_000069_000089_000477_000089_000487_000237_005625_009579_030421_021883,
  1_003686_000001_000001_000003_000007_000001_000005_000013_000225_000009_000981_001081_001407_006855_015215_021713_062313,
  1_003700_000001_000001_000007_000015_000011_000013_000119_000109_000151_000245_001195_003741_000755_008047_015431_021001,
  1_003703_000001_000003_000007_000003_000017_000047_000107_000137_000099_000255_001597_003281_005779_013487_015061_019199,
  1_003704_000001_000001_000003_000003_000009_000039_000077_000227_000511_000839_001375_003887_000025_014763_013259_000217,
  1_003723_000001_000003_000005_000007_000017_000003_000087_000061_000439_000287_000709_004085_004251_008945_028203_024011,
  1_003743_000001_000003_000001_000001_000029_000025_000049_000101_000209_000359_000285_001593_004161_002943_023225_006381,
  1_003753_000001_000001_000003_000013_000001_000045_000087_000007_000491_000399_000905_001403_004791_007419_014355_047767,
  1_003756_000001_000001_000007_000015_000013_000025_000111_000197_000297_000301_000499_004007_002235_007681_004641_032447,
  1_003759_000001_000001_000003_000003_000027_000041_000097_000083_000405_000353_001609_000201_001503_010673_029377_020445,
  1_003762_000001_000001_000007_000003_000009_000047_000065_000191_000207_000545_000377_003011_007361_003467_014073_046769,
  1_003771_000001_000001_000007_000005_000007_000039_000009_000091_000187_000949_001829_000161_003689_004145_032675_023263,
  1_003776_000001_000001_000005_000009_000029_000009_000083_000113_000077_000673_000613_003645_006671_008583_027701_018615,
  1_003779_000001_000003_000005_000009_000029_000013_000127_000247_000285_000845_000463_000539_004441_001867_012469_016213,
  1_003839_000001_000003_000007_000015_000001_000029_000047_000157_000239_000595_000563_001103_003431_002849_028125_019969,
  1_003856_000001_000001_000001_000015_000025_000013_000001_000131_000057_000257_002021_000169_007603_010721_021675_063171,
  1_003871_000001_000003_000005_000003_000005_000019_000031_000057_000275_000381_000775_000681_001145_012237_005141_029375,
  1_003887_000001_000003_000005_000013_000027_000013_000047_000201_000267_000581_001563_003845_000951_007209_027253_019755,
  1_003896_000001_000003_000005_000015_000019_000035_000057_000017_000061_000273_000967_003029_001747_001753_031321_023711,
  1_003901_000001_000001_000001_000005_000013_000013_000007_000177_000335_000393_001401_001411_004703_008259_001281_039835,
  1_003916_000001_000001_000003_000015_000025_000027_000027_000121_000183_000105_000663_001375_006987_007151_013763_039323,
  1_003919_000001_000003_000007_000005_000015_000001_000081_000129_000455_000163_000675_000081_003735_014409_007269_016425,
  1_003937_000001_000003_000003_000011_000013_000007_000079_000157_000165_000663_000229_003539_001837_006485_030729_042157,
  1_003943_000001_000001_000005_000015_000009_000009_000009_000047_000133_000863_000043_001461_000511_013991_024781_019221,
  1_003955_000001_000003_000001_000007_000031_000033_000103_000013_000159_000689_001353_004025_006051_007683_001741_030047,
  1_003961_000001_000001_000003_000011_000005_000045_000071_000219_000475_000585_001207_003163_004661_004713_012729_030445,
  1_003988_000001_000003_000007_000005_000005_000053_000101_000227_000129_000521_000091_001129_004683_011235_024697_045055,
  1_003997_000001_000001_000003_000013_000001_000043_000007_000001_000073_000857_001713_000185_001685_002369_024187_040419,
  1_004011_000001_000001_000007_000007_000021_000007_000013_000177_000503_001003_001091_002411_001433_009063_013901_003329,
  1_004026_000001_000001_000007_000001_000007_000041_000099_000203_000325_000249_001763_000545_002981_014125_007815_011385,
  1_004033_000001_000003_000007_000011_000003_000011_000095_000137_000325_000701_001177_001631_004483_002955_030229_025577,
  1_004045_000001_000001_000007_000007_000017_000045_000077_000103_000143_000097_001963_003635_001539_010491_023483_022767,
  1_004060_000001_000001_000007_000015_000007_000005_000081_000063_000243_000055_000039_000207_002315_008285_008155_011631,
  1_004063_000001_000003_000005_000015_000023_000019_000115_000009_000125_000851_000161_003767_003513_001855_011139_001719,
  1_004064_000001_000003_000007_000011_000011_000023_000015_000013_000235_000005_001039_001425_006485_005539_008967_064809,
  1_004126_000001_000003_000005_000007_000019_000011_000083_000135_000045_000905_001081_001857_003185_013555_021365_038143,
  1_004136_000001_000001_000005_000001_000025_000027_000119_000109_000167_000847_001539_002653_000797_011185_023501_022389,
  1_004167_000001_000001_000007_000007_000011_000003_000051_000097_000277_000557_000207_003645_000825_008521_026653_060071,
  1_004173_000001_000003_000003_000015_000017_000035_000057_000007_000267_000549_000097_000243_001137_010311_006737_019077,
  1_004188_000001_000001_000001_000015_000023_000033_000027_000203_000415_001023_001145_001881_007715_004413_003727_005185,
  1_004195_000001_000001_000003_000003_000013_000047_000063_000013_000075_000505_000595_002911_004029_014187_023151_042877,
  1_004226_000001_000001_000005_000015_000023_000005_000011_000065_000147_000675_001961_002177_000727_015077_023759_010195,
  1_004291_000001_000003_000005_000009_000009_000039_000069_000229_000341_000627_001331_003139_003921_009219_014887_004659,
  1_004298_000001_000001_000007_000003_000001_000035_000049_000071_000165_000083_000719_002771_006475_007821_016709_004449,
  1_004308_000001_000003_000005_000005_000023_000015_000003_000057_000465_000077_000121_003767_006841_013601_012035_014075,
  1_004312_000001_000001_000007_000003_000003_000023_000045_000131_000287_000941_000713_000415_006865_014209_029555_055493,
  1_004336_000001_000003_000005_000011_000029_000035_000055_000075_000225_000779_000569_001795_001377_012765_019081_047287,
  1_004371_000001_000003_000007_000003_000031_000047_000127_000089_000157_000737_001395_003615_007923_014731_015797_040061,
  1_004378_000001_000001_000001_000011_000021_000037_000021_000059_000009_000141_000193_003095_003435_012371_026931_061861,
  1_004384_000001_000001_000003_000007_000013_000051_000015_000153_000077_001013_000651_003949_006229_014297_001039_046139,
  1_004393_000001_000003_000003_000013_000007_000043_000095_000061_000217_000003_000549_000739_000123_003661_015375_013919,
  1_004421_000001_000003_000005_000009_000013_000037_000101_000089_000055_000413_001089_000775_007575_013063_031393_029583,
  1_004425_000001_000001_000003_000009_000025_000063_000119_000143_000499_000145_000603_002067_004713_013457_014053_000117,
  1_004439_000001_000001_000005_000009_000007_000023_000057_000253_000115_000591_002003_000063_007615_011493_028519_047087,
  1_004440_000001_000001_000007_000003_000007_000053_000121_000033_000233_000645_001093_001697_007213_002603_010743_051303,
  1_004500_000001_000003_000005_000007_000013_000031_000017_000125_000093_000969_000159_001529_007165_007371_008707_056953,
  1_004514_000001_000003_000003_000001_000013_000009_000091_000025_000171_000843_001635_002043_001043_015893_011409_053689,
  1_004523_000001_000003_000005_000007_000013_000019_000089_000097_000203_000923_001109_002061_000463_011703_008925_056015,
  1_004534_000001_000003_000005_000011_000005_000021_000079_000237_000195_000649_000717_000211_000919_012855_003045_039659,
  1_004593_000001_000001_000001_000015_000013_000019_000021_000069_000393_000257_001263_000309_003209_008403_024467_006467,
  1_004615_000001_000001_000001_000011_000007_000027_000059_000117_000379_000353_000943_002513_003869_004567_012989_013139,
  1_004630_000001_000001_000001_000003_000013_000043_000011_000015_000149_000237_001555_000071_002357_015773_021419_040571,
  1_004636_000001_000003_000001_000009_000019_000023_000059_000215_000015_000921_001729_000249_003785_007171_001233_003449,
  1_004645_000001_000001_000001_000007_000007_000037_000063_000205_000075_000599_000951_002513_003347_002497_008019_005433,
  1_004684_000001_000003_000003_000015_000027_000017_000025_000201_000023_000699_001525_000465_001115_012299_014747_040363,
  1_004687_000001_000001_000001_000003_000029_000059_000115_000233_000107_000815_000291_003821_007325_007381_021445_033917,
  1_004723_000001_000003_000001_000011_000011_000033_000107_000171_000421_000893_000587_003373_004101_003885_025383_012035,
  1_004735_000001_000003_000003_000007_000005_000023_000043_000051_000357_000077_001327_002995_001321_001571_026419_023603,
  1_004746_000001_000003_000007_000009_000027_000057_000101_000051_000215_000215_000469_000303_000723_002903_030569_042631,
  1_004779_000001_000003_000003_000013_000001_000007_000063_000205_000143_000321_001439_000253_002667_001271_011761_055631,
  1_004782_000001_000001_000007_000009_000003_000007_000007_000015_000503_000875_001619_001715_005047_005665_005503_017745,
  1_004793_000001_000001_000007_000015_000019_000049_000065_000031_000245_000371_000377_002963_006185_005519_010743_033231,
  1_004796_000001_000001_000007_000003_000025_000027_000115_000051_000299_000451_000285_001709_006153_014881_017861_022071,
  1_004813_000001_000003_000001_000005_000021_000021_000127_000185_000325_000995_000213_003279_004769_015943_002589_029567,
  1_004850_000001_000003_000007_000005_000021_000009_000063_000059_000159_000743_000663_002965_000097_008993_025633_029033,
  1_004867_000001_000003_000007_000013_000003_000035_000059_000101_000021_000659_001531_003995_000795_002143_021749_052715,
  1_004874_000001_000003_000003_000015_000027_000029_000095_000001_000501_000425_000417_002351_007877_004127_003633_023347,
  1_004881_000001_000003_000005_000007_000007_000049_000055_000019_000329_000467_000425_001609_006987_016123_026879_042883,
  1_004894_000001_000001_000001_000015_000017_000021_000013_000013_000085_000007_000677_003739_005491_006299_029957_055765,
  1_004904_000001_000001_000001_000007_000031_000021_000001_000005_000193_000659_000979_003409_003151_006615_007445_008151,
  1_004927_000001_000003_000001_000001_000011_000061_000027_000205_000263_000805_000955_003469_001233_001609_015329_013353,
  1_004929_000001_000003_000003_000009_000003_000029_000059_000075_000149_000557_000663_003887_003369_003397_010611_009511,
  1_004989_000001_000001_000007_000013_000029_000021_000101_000139_000099_000411_000569_002343_006901_001685_020599_049543,
  1_005000_000001_000003_000003_000015_000011_000003_000087_000089_000005_000293_000291_001405_001489_009877_032505_032263]

def dirRows16_0_3 : List Nat := [
  1_005020_000001_000001_000005_000005_000019_000045_000089_000005_000381_000253_001339_000707_004645_014177_029441_008965,
  1_005036_000001_000003_000007_000015_000027_000045_000025_000177_000081_000229_001339_002143_006547_006841_023449_014813,
  1_005041_000001_000001_000001_000003_000027_000023_000081_000157_000053_000513_001435_000277_002353_003545_021461_051479,
  1_005059_000001_000003_000001_000003_000003_000017_000075_000139_000283_000881_001157_002081_000937_014549_010215_013053,
  1_005074_000001_000001_000007_000009_000025_000027_000027_000133_000021_000559_000225_000613_006931_011785_023413_035757,
  1_005090_000001_000001_000003_000013_000019_000009_000065_000049_000453_000779_000621_001151_001807_013269_006515_017113,
  1_005110_000001_000001_000001_000013_000021_000049_000039_000079_000119_000401_000903_000493_003779_007389_029425_028091,
  1_005134_000001_000003_000001_000003_000023_000057_000059_000213_000463_000839_001201_001951_005197_013035_029657_035517,
  1_005152_000001_000003_000007_000007_000003_000049_000029_000181_000367_000101_001277_003329_003563_010373_029757_062555,
  1_005176_000001_000003_000001_000007_000031_000031_000117_000213_000373_000057_001095_002733_003431_003915_007665_044459,
  1_005181_000001_000001_000007_000005_000009_000025_000047_000117_000355_000495_001367_002579_005617_000787_027655_018885,
  1_005204_000001_000001_000001_000003_000009_000039_000113_000087_000107_000477_000891_002273_004239_007521_000147_001737,
  1_005218_000001_000001_000001_000003_000013_000061_000081_000225_000113_000441_000889_001915_003897_015179_004053_005925,
  1_005242_000001_000001_000005_000003_000015_000047_000059_000187_000475_000197_001381_000033_004605_001487_014359_033769,
  1_005253_000001_000003_000007_000015_000023_000045_000053_000215_000129_000465_000795_000053_007077_009517_002663_055397,
  1_005260_000001_000001_000007_000013_000025_000049_000105_000255_000245_000153_001093_002123_002823_005125_017483_049003,
  1_005281_000001_000001_000001_000013_000031_000005_000007_000243_000255_000231_001663_001007_007573_000405_029183_011367,
  1_005282_000001_000001_000005_000013_000015_000015_000115_000091_000063_001013_001713_001945_006397_014213_024417_040807,
  1_005313_000001_000001_000005_000003_000019_000049_000091_000025_000043_000601_000025_002405_001973_000629_000497_012625,
  1_005316_000001_000001_000003_000005_000013_000045_000011_000081_000251_000545_001155_001409_007187_000847_002835_032909,
  1_005326_000001_000003_000001_000013_000027_000057_000001_000103_000465_000809_001727_003721_003347_003791_017247_008377,
  1_005340_000001_000003_000003_000015_000025_000031_000091_000091_000119_000205_001431_000703_005327_007323_030415_061955,
  1_005347_000001_000003_000005_000011_000019_000039_000079_000243_000109_000463_001869_002133_004139_010461_014793_024025,
  1_005354_000001_000003_000005_000007_000023_000041_000005_000007_000249_000003_001743_000489_004921_000397_030955_022207,
  1_005368_000001_000003_000005_000015_000003_000007_000115_000019_000217_000231_001183_003723_005055_012967_007855_005067,
  1_005394_000001_000003_000003_000003_000011_000031_000113_000041_000429_000797_000557_001199_001819_001933_009917_032229,
  1_005396_000001_000001_000005_000003_000013_000063_000031_000183_000465_000915_000723_003227_004125_002813_026313_034287,
  1_005400_000001_000001_000007_000005_000031_000055_000117_000243_000037_000885_000085_001067_003895_015655_028527_032109,
  1_005405_000001_000003_000007_000015_000017_000043_000043_000173_000119_000187_001161_000599_004595_001681_011981_000681,
  1_005439_000001_000001_000007_000007_000029_000047_000025_000093_000411_000103_000783_001029_001927_003569_027647_008281,
  1_005442_000001_000003_000003_000009_000019_000057_000031_000183_000141_000889_000157_002267_005701_006273_025739_034039,
  1_005459_000001_000003_000005_000001_000029_000035_000105_000165_000505_000299_001149_002397_002013_011591_015917_004791,
  1_005478_000001_000003_000003_000009_000007_000035_000047_000077_000069_000335_000585_001131_000531_008597_000307_055985,
  1_005484_000001_000003_000007_000001_000029_000009_000025_000155_000149_000845_000567_003735_003501_009365_012025_019131,
  1_005508_000001_000003_000005_000003_000011_000031_000025_000009_000411_000519_001611_001441_001487_010049_014373_024605,
  1_005523_000001_000003_000003_000005_000003_000007_000101_000107_000339_000155_001843_002529_000443_008177_028655_008151,
  1_005545_000001_000001_000007_000005_000029_000037_000073_000131_000125_000451_000947_000797_005053_010155_030801_027235,
  1_005565_000001_000001_000007_000013_000019_000047_000101_000045_000495_000457_001293_001971_005495_012737_017687_026123,
  1_005566_000001_000001_000007_000007_000011_000011_000075_000177_000251_000553_001883_003379_001429_012227_010301_016467,
  1_005580_000001_000003_000003_000009_000003_000061_000095_000035_000097_000551_000233_002045_004873_009109_010019_064523,
  1_005608_000001_000003_000001_000005_000011_000003_000015_000177_000301_000573_002029_000191_005551_012083_027287_057235,
  1_005613_000001_000003_000005_000001_000021_000009_000121_000169_000347_000187_000057_003163_005609_001921_017581_028351,
  1_005647_000001_000003_000003_000001_000031_000051_000015_000045_000429_000245_000573_001595_005343_007519_017009_001299,
  1_005661_000001_000001_000007_000003_000013_000047_000109_000065_000389_000867_000963_000145_001089_009749_019625_043121,
  1_005671_000001_000003_000001_000007_000021_000061_000077_000067_000143_000579_000625_002007_006343_004259_021233_000237,
  1_005678_000001_000003_000005_000009_000027_000015_000107_000091_000399_000895_000645_002301_000439_006789_018299_047285,
  1_005680_000001_000003_000003_000005_000013_000011_000043_000199_000505_000409_000025_002057_000479_006031_009561_051613,
  1_005685_000001_000001_000007_000013_000015_000055_000105_000053_000171_000925_001849_002881_006951_013069_000865_041019,
  1_005689_000001_000003_000001_000009_000017_000031_000045_000023_000411_000185_000189_002123_002583_012713_012681_002231,
  1_005692_000001_000003_000007_000009_000003_000063_000011_000253_000177_000127_000545_003293_004449_015995_010223_033529,
  1_005724_000001_000001_000005_000011_000013_000007_000053_000161_000421_000551_000697_000627_003879_001639_024419_003337,
  1_005745_000001_000001_000007_000007_000027_000007_000037_000205_000429_000407_001133_003563_002921_006173_011173_003009,
  1_005755_000001_000003_000003_000015_000031_000039_000117_000081_000337_000729_000567_002299_001481_003189_001795_040299,
  1_005757_000001_000003_000005_000015_000015_000047_000091_000127_000275_000055_000951_003423_002879_006115_001549_002287,
  1_005786_000001_000003_000003_000011_000017_000003_000127_000207_000141_000889_000185_001095_004567_001371_030545_054445,
  1_005792_000001_000001_000007_000003_000025_000011_000011_000139_000043_000001_001977_000397_005775_006913_013249_046767,
  1_005810_000001_000001_000007_000007_000027_000013_000031_000251_000191_001015_000161_003719_005321_013013_025187_051881,
  1_005824_000001_000001_000001_000001_000003_000003_000013_000019_000423_000349_001955_002103_006395_003315_023809_025925,
  1_005869_000001_000003_000005_000013_000003_000059_000041_000167_000423_000093_001299_002623_005829_008537_008701_043757,
  1_005872_000001_000003_000005_000011_000009_000019_000127_000119_000329_000819_000007_003809_005305_003643_027369_061827,
  1_005895_000001_000003_000001_000015_000025_000043_000055_000159_000205_000911_000983_002825_003751_007845_012023_018431,
  1_005923_000001_000003_000003_000013_000011_000001_000065_000133_000479_000181_000679_000981_003317_006241_011693_009619,
  1_005925_000001_000003_000003_000003_000021_000025_000117_000183_000127_000073_000703_001469_000257_011229_010167_050847,
  1_005926_000001_000001_000005_000013_000005_000005_000113_000015_000231_000269_000989_000465_003267_015239_029503_042855,
  1_005944_000001_000003_000003_000015_000009_000063_000079_000027_000021_000709_001969_003761_001015_013619_004205_040591,
  1_005986_000001_000001_000007_000011_000029_000003_000005_000045_000107_000131_001287_003551_000849_002003_027451_047103,
  1_006012_000001_000003_000005_000011_000003_000047_000059_000053_000369_000249_000915_002475_007539_000763_007063_063971,
  1_006015_000001_000001_000005_000001_000007_000053_000045_000127_000321_000341_000635_002277_001383_010951_029055_045087,
  1_006046_000001_000003_000007_000003_000005_000001_000119_000079_000487_000093_000025_000491_004085_006403_027779_008753,
  1_006049_000001_000001_000001_000003_000009_000059_000049_000141_000323_000703_001175_000423_004323_010083_004289_028931,
  1_006061_000001_000003_000003_000015_000031_000031_000073_000015_000187_000653_000091_001707_001431_009861_019071_008137,
  1_006067_000001_000001_000001_000005_000027_000063_000093_000001_000329_000353_000863_000473_007681_010653_015819_008495,
  1_006099_000001_000001_000001_000005_000025_000057_000119_000167_000219_000319_000231_001065_006217_005131_001513_049281,
  1_006121_000001_000003_000007_000003_000017_000003_000113_000091_000201_000179_001907_003423_000821_012927_024827_049403,
  1_006155_000001_000001_000005_000007_000019_000063_000075_000151_000387_000489_000777_002049_001151_001351_025687_004143,
  1_006163_000001_000003_000005_000007_000009_000037_000009_000003_000087_000385_001667_002139_007527_016133_030023_028783,
  1_006203_000001_000001_000005_000009_000011_000055_000095_000073_000413_000867_000589_002901_003021_000413_005955_038921,
  1_006208_000001_000003_000005_000015_000001_000017_000017_000007_000485_000323_000519_002325_002255_004211_020661_028931,
  1_006231_000001_000001_000005_000013_000021_000019_000085_000189_000167_000645_001475_003095_007123_003351_007961_020967,
  1_006241_000001_000001_000007_000013_000003_000047_000013_000213_000237_000291_000285_001465_001765_012361_032651_054205,
  1_006254_000001_000003_000007_000013_000013_000027_000071_000035_000067_000117_000647_002359_003295_008445_024761_029379,
  1_006262_000001_000001_000001_000003_000003_000019_000023_000037_000005_001019_000005_001605_002291_014015_009311_039751,
  1_006266_000001_000003_000003_000003_000031_000001_000065_000159_000221_000675_001061_000971_002333_008265_014361_003263,
  1_006275_000001_000001_000003_000007_000003_000005_000081_000017_000101_000991_000753_002883_004977_004409_001757_026803,
  1_006278_000001_000001_000005_000009_000013_000025_000045_000043_000199_000967_000829_000713_004547_007223_006497_053895,
  1_006292_000001_000001_000007_000005_000023_000015_000089_000179_000509_000147_000315_000133_000111_015577_023427_005229,
  1_006329_000001_000003_000003_000007_000027_000007_000113_000065_000315_000135_001309_001179_005755_007513_006815_005137,
  1_006355_000001_000001_000003_000007_000001_000013_000029_000155_000477_000721_000071_000865_003897_003331_030641_065471,
  1_006357_000001_000001_000007_000003_000029_000045_000083_000003_000461_000109_001545_001365_006633_016137_023859_005995,
  1_006374_000001_000003_000001_000001_000003_000033_000077_000083_000459_000187_000879_003731_006939_006707_023409_024245,
  1_006380_000001_000003_000005_000005_000013_000043_000127_000041_000029_000735_001391_002947_004873_004627_000015_041719,
  1_006423_000001_000003_000001_000003_000017_000017_000051_000093_000189_000227_000449_002809_000825_002009_009563_041435,
  1_006427_000001_000003_000003_000011_000025_000047_000113_000173_000141_000919_000677_000117_005293_000815_023749_019789,
  1_006430_000001_000001_000001_000013_000015_000061_000121_000223_000053_000389_000489_001527_004771_008975_008005_014275,
  1_006436_000001_000001_000003_000015_000031_000057_000111_000145_000279_000991_000489_003239_007647_000473_031279_033447,
  1_006443_000001_000001_000007_000005_000031_000013_000075_000185_000395_000611_000609_000159_007931_009887_004115_053121,
  1_006445_000001_000003_000005_000005_000013_000039_000103_000237_000077_000913_000511_001583_006763_014523_004247_063403,
  1_006458_000001_000001_000001_000015_000011_000005_000043_000043_000297_000827_000747_000005_003785_015021_011291_036743,
  1_006478_000001_000001_000007_000009_000009_000053_000113_000095_000403_000053_001335_004033_008147_011963_006523_023675,
  1_006490_000001_000001_000005_000009_000027_000029_000069_000079_000327_000409_001147_001579_002625_012227_030933_009057]

def dirRows16_0_4 : List Nat := [
  1_006508_000001_000001_000001_000007_000001_000033_000029_000173_000005_000517_000437_002035_000057_012825_022095_065519,
  1_006519_000001_000001_000003_000007_000027_000029_000053_000079_000429_000707_000589_002605_000339_007039_019319_017649,
  1_006520_000001_000003_000003_000011_000009_000057_000043_000117_000039_000193_001427_002553_006877_007653_029041_044865,
  1_006530_000001_000003_000003_000007_000023_000045_000029_000151_000265_000739_000365_003565_006447_009761_024021_000679,
  1_006541_000001_000003_000005_000001_000001_000043_000073_000055_000131_000175_000959_000659_007315_015145_018301_014865,
  1_006556_000001_000001_000003_000005_000015_000015_000091_000113_000359_000241_001627_001069_001761_000211_032671_058833,
  1_006607_000001_000003_000003_000007_000029_000027_000079_000053_000409_000081_000693_003137_007385_011007_028459_028621,
  1_006612_000001_000001_000007_000005_000029_000007_000067_000195_000077_000773_001361_002153_004459_007301_005129_017797,
  1_006626_000001_000003_000003_000007_000025_000027_000091_000223_000115_000091_001645_002167_001955_009601_022127_013055,
  1_006632_000001_000003_000007_000003_000027_000053_000067_000249_000051_000151_000663_003231_000895_006777_003037_056755,
  1_006649_000001_000001_000005_000001_000025_000063_000071_000179_000375_000301_001127_002125_000783_014481_007293_047883,
  1_006666_000001_000001_000003_000009_000025_000003_000039_000069_000001_000085_001271_001571_001953_005077_020369_044827,
  1_006674_000001_000003_000001_000013_000011_000061_000077_000059_000127_000475_001609_003553_002553_015589_009351_059787,
  1_006733_000001_000003_000001_000005_000021_000007_000061_000027_000199_000653_001243_002481_005369_012903_030229_039453,
  1_006782_000001_000003_000007_000003_000013_000015_000107_000153_000501_000573_000863_003179_006019_015177_016075_043767,
  1_006786_000001_000001_000007_000001_000023_000055_000017_000035_000005_000137_001707_001377_006857_015361_027299_061871,
  1_006798_000001_000003_000005_000007_000027_000017_000087_000213_000095_000125_001239_003923_004193_011049_012783_045017,
  1_006821_000001_000001_000005_000015_000009_000055_000011_000217_000007_000249_000369_000205_004251_013785_024781_048929,
  1_006840_000001_000003_000007_000001_000015_000035_000033_000107_000503_000563_001591_003487_007495_001767_024791_031281,
  1_006846_000001_000003_000001_000011_000003_000015_000047_000193_000289_000253_000909_001105_005119_001415_007737_004341,
  1_006865_000001_000001_000001_000003_000023_000033_000053_000187_000469_000573_000835_002049_000791_001177_031051_030955,
  1_006884_000001_000003_000003_000011_000015_000051_000077_000143_000369_000991_001103_001293_006019_006361_026301_020741,
  1_006891_000001_000001_000001_000005_000017_000019_000085_000135_000113_000593_000579_001063_007173_002491_009355_019223,
  1_006925_000001_000001_000005_000015_000025_000051_000107_000193_000031_000001_001693_000125_006223_014619_022683_026321,
  1_006938_000001_000001_000007_000001_000017_000045_000087_000039_000087_000499_001185_002763_003989_002863_024555_033817,
  1_006967_000001_000003_000001_000011_000031_000005_000121_000231_000185_000793_000255_002785_005261_003687_021711_003941,
  1_006988_000001_000003_000007_000015_000005_000059_000073_000227_000365_000937_000893_002155_004385_014345_006813_028461,
  1_006996_000001_000001_000005_000007_000007_000023_000007_000239_000431_000045_001015_001663_001893_005035_024075_002119,
  1_007009_000001_000003_000005_000001_000003_000015_000063_000103_000119_000801_001681_003463_006083_006453_011379_008205,
  1_007016_000001_000003_000007_000009_000021_000061_000009_000009_000433_000541_000603_003905_003787_010187_003643_021319,
  1_007030_000001_000003_000005_000003_000011_000001_000101_000243_000363_000559_000561_001163_000455_004657_001147_039961,
  1_007043_000001_000003_000005_000013_000017_000037_000057_000047_000483_000571_001579_001137_008125_012271_023279_001615,
  1_007045_000001_000003_000005_000001_000021_000005_000013_000155_000075_000705_000389_002855_006345_002279_012627_049451,
  1_007052_000001_000001_000003_000009_000015_000051_000073_000099_000445_000227_001705_002175_008111_009381_031555_048491,
  1_007073_000001_000003_000003_000005_000009_000063_000107_000051_000461_000979_001033_000421_004807_011707_013261_026015,
  1_007142_000001_000001_000005_000003_000013_000053_000117_000249_000057_000851_001391_003245_000035_016043_024399_063667,
  1_007153_000001_000003_000001_000011_000023_000033_000057_000125_000385_000495_000871_000199_004269_002269_022897_023597,
  1_007168_000001_000003_000005_000015_000029_000011_000077_000021_000479_000369_000723_003721_001121_009463_019775_054525,
  1_007174_000001_000003_000005_000007_000007_000045_000029_000153_000395_000223_001917_003713_005087_010827_001383_036823,
  1_007183_000001_000003_000001_000003_000031_000019_000111_000055_000275_000923_000917_002925_000673_006579_018783_005137,
  1_007195_000001_000003_000001_000015_000025_000031_000059_000255_000031_000697_001751_000381_000299_000295_014037_040953,
  1_007204_000001_000003_000001_000007_000015_000023_000069_000219_000351_000183_001083_002227_006249_009385_013167_002901,
  1_007214_000001_000003_000007_000001_000005_000061_000117_000013_000067_000521_000041_002929_003937_001215_025593_032627,
  1_007222_000001_000003_000005_000001_000009_000047_000063_000039_000371_000657_000491_002243_004049_010517_012409_040597,
  1_007267_000001_000003_000007_000015_000017_000003_000077_000013_000275_000225_000487_002055_001293_015927_031773_018275,
  1_007269_000001_000001_000005_000013_000011_000057_000113_000027_000191_000363_001341_003487_008031_013801_007563_040675,
  1_007279_000001_000001_000003_000003_000027_000031_000103_000143_000271_000305_002033_003623_004219_009307_007501_008959,
  1_007293_000001_000001_000001_000013_000001_000003_000027_000097_000475_000143_000333_002997_001807_004231_027437_059717,
  1_007312_000001_000003_000007_000005_000005_000003_000069_000233_000309_000511_001429_001887_002745_004969_017595_005451,
  1_007327_000001_000001_000007_000003_000023_000017_000115_000089_000265_000467_000257_002027_005331_001195_004451_008621,
  1_007334_000001_000001_000007_000013_000029_000035_000117_000155_000099_000327_000853_003595_002997_010745_021619_026549,
  1_007337_000001_000003_000003_000013_000001_000013_000075_000151_000067_000271_001609_001117_004293_004645_012005_055983,
  1_007343_000001_000001_000001_000013_000001_000061_000101_000063_000161_000261_001759_000567_000665_002339_009157_055603,
  1_007346_000001_000001_000007_000011_000025_000019_000071_000027_000255_000435_000227_004087_004309_014903_014513_030207,
  1_007372_000001_000003_000003_000003_000011_000041_000001_000067_000383_000403_000045_001521_001535_003353_027361_007549,
  1_007387_000001_000001_000001_000001_000013_000051_000031_000137_000147_000907_000019_003639_003739_000877_015005_060357,
  1_007390_000001_000001_000003_000011_000011_000023_000029_000173_000105_000873_001727_002761_002015_007491_017491_041065,
  1_007396_000001_000001_000005_000003_000031_000001_000119_000053_000011_000731_000393_004031_004421_015715_006431_018089,
  1_007423_000001_000001_000003_000005_000015_000037_000055_000147_000307_000521_000711_003085_005989_008081_023351_035259,
  1_007428_000001_000003_000005_000013_000021_000019_000047_000107_000447_000713_001655_002809_004741_002105_009255_000103,
  1_007437_000001_000003_000001_000003_000017_000047_000063_000125_000343_000763_001777_000607_005625_009517_007221_027257,
  1_007466_000001_000001_000007_000005_000031_000013_000067_000255_000041_000947_000099_000721_007367_011427_001357_012383,
  1_007474_000001_000001_000007_000003_000023_000027_000073_000185_000189_000545_001877_003169_005419_015873_029059_023983,
  1_007476_000001_000001_000003_000001_000005_000013_000081_000045_000079_000717_000819_003539_007561_007319_005113_027273,
  1_007483_000001_000003_000007_000009_000021_000025_000071_000247_000041_000583_000771_003745_001883_005717_000755_014549,
  1_007518_000001_000001_000003_000007_000023_000025_000087_000143_000499_000515_001753_001229_000173_010629_030579_029643,
  1_007527_000001_000003_000001_000013_000029_000033_000031_000069_000503_000117_001717_000101_007647_001567_028677_003079,
  1_007545_000001_000003_000001_000015_000029_000045_000057_000081_000171_000813_000505_003647_003913_005557_002477_042429,
  1_007572_000001_000001_000005_000013_000021_000013_000081_000005_000471_000221_001563_001741_007269_016327_022687_005291,
  1_007586_000001_000003_000005_000003_000023_000041_000107_000061_000095_000079_000467_001533_000739_006791_026911_020309,
  1_007597_000001_000003_000007_000007_000003_000053_000071_000163_000459_000975_000687_001115_005241_000299_026361_038583,
  1_007630_000001_000003_000001_000009_000003_000063_000007_000133_000421_000325_000823_001175_006201_005707_031539_034645,
  1_007653_000001_000003_000007_000005_000027_000027_000107_000239_000247_000257_001367_003685_007839_011693_003237_013085,
  1_007657_000001_000001_000001_000003_000027_000041_000051_000069_000271_000809_001453_000519_001301_002367_000637_005267,
  1_007671_000001_000003_000007_000013_000019_000017_000003_000069_000369_000447_001685_004075_006143_011387_005411_029825,
  1_007672_000001_000001_000003_000001_000025_000061_000079_000163_000001_000905_001969_002735_007709_016121_020441_004543,
  1_007715_000001_000003_000007_000005_000015_000029_000007_000245_000343_000803_001719_003993_000983_002925_010393_006053,
  1_007717_000001_000003_000001_000007_000017_000055_000063_000029_000441_000387_000885_003269_001977_001927_003657_047043,
  1_007732_000001_000001_000003_000001_000017_000059_000051_000009_000173_000327_001185_003241_003785_010907_019429_022209,
  1_007735_000001_000001_000003_000013_000021_000057_000125_000005_000359_000437_001231_002441_005813_009991_000283_052555,
  1_007753_000001_000003_000001_000007_000015_000019_000039_000125_000405_000381_001757_004075_005565_002065_000295_008867,
  1_007811_000001_000003_000003_000011_000007_000033_000095_000019_000253_000141_001093_001787_007495_005229_015923_044157,
  1_007817_000001_000003_000007_000015_000001_000049_000069_000163_000085_000345_000901_002329_008003_009915_002209_033979,
  1_007825_000001_000001_000001_000009_000023_000051_000125_000163_000257_000681_000565_000945_006375_008679_005985_028919,
  1_007832_000001_000003_000005_000007_000011_000023_000123_000231_000377_000121_001519_002061_002957_014537_017625_037773,
  1_007838_000001_000003_000005_000001_000017_000043_000089_000119_000455_000279_001857_003405_005225_013035_006055_030861,
  1_007841_000001_000003_000007_000015_000031_000063_000025_000225_000003_000527_000355_001435_005763_015203_026579_045659,
  1_007844_000001_000001_000001_000003_000027_000043_000071_000193_000135_000005_000683_000925_007023_007711_002807_056003,
  1_007859_000001_000001_000001_000011_000003_000003_000109_000029_000109_000683_000419_003295_001961_005953_008887_001523,
  1_007861_000001_000003_000003_000011_000017_000039_000019_000225_000103_000249_000081_003875_004515_003969_024745_060031,
  1_007873_000001_000001_000003_000003_000003_000023_000015_000149_000305_000399_001347_001001_000597_010003_022123_029919,
  1_007880_000001_000003_000005_000001_000023_000035_000123_000007_000283_000283_000759_003061_002011_007771_032201_040667,
  1_007897_000001_000003_000007_000015_000023_000005_000081_000051_000357_000079_000133_000285_000425_007743_013499_018983,
  1_007904_000001_000003_000003_000005_000017_000037_000075_000221_000473_000111_000335_000683_007353_002283_013457_061171,
  1_007910_000001_000003_000001_000007_000013_000045_000013_000223_000149_000209_000727_003553_002573_000177_000855_044139,
  1_007960_000001_000001_000003_000015_000023_000005_000103_000139_000017_000029_001961_003021_005745_012963_030669_044171,
  1_007969_000001_000003_000001_000001_000003_000033_000067_000203_000029_000785_000071_001693_004487_010221_024523_051223,
  1_007970_000001_000001_000005_000007_000007_000027_000017_000183_000229_000669_001675_003751_003233_010677_007509_052313,
  1_007976_000001_000001_000005_000005_000025_000035_000021_000163_000483_000399_000195_003465_006349_000545_018861_031759,
  1_007979_000001_000003_000001_000005_000015_000039_000013_000157_000071_000841_000447_003625_000053_012745_002719_027617]

def dirRows16_0_5 : List Nat := [
  1_008007_000001_000001_000005_000005_000003_000045_000113_000121_000263_000887_000709_002189_003811_001409_010451_048777,
  1_008041_000001_000001_000005_000015_000009_000041_000031_000095_000377_000215_000437_003633_000433_011935_015283_055451,
  1_008047_000001_000001_000007_000007_000013_000023_000079_000003_000451_000409_001103_001771_000553_003175_028703_049357,
  1_008052_000001_000003_000001_000001_000013_000033_000095_000133_000419_000851_000955_003985_005869_014219_000253_046883,
  1_008061_000001_000003_000003_000003_000023_000055_000091_000207_000281_000355_000361_000261_006837_004401_025455_025313,
  1_008078_000001_000003_000005_000009_000027_000009_000107_000051_000069_000555_000835_003541_001827_005737_031225_055619,
  1_008128_000001_000001_000001_000011_000027_000051_000079_000085_000447_000447_000009_002803_000377_004347_002183_061257,
  1_008146_000001_000001_000001_000003_000023_000021_000051_000217_000297_000135_000573_000689_004947_014143_026247_043061,
  1_008162_000001_000003_000001_000007_000015_000013_000027_000151_000463_000707_000043_003641_004999_003783_009083_022085,
  1_008250_000001_000003_000003_000005_000003_000001_000015_000119_000343_000605_000105_002939_002259_000889_021759_034073,
  1_008270_000001_000001_000001_000007_000003_000063_000103_000001_000235_000317_000263_002701_007331_015921_017295_000613,
  1_008294_000001_000001_000007_000003_000019_000003_000005_000017_000105_000491_000755_000233_005397_012365_016325_059377,
  1_008324_000001_000003_000003_000015_000015_000027_000037_000151_000481_000949_001473_000233_001925_015471_024957_003241,
  1_008351_000001_000001_000007_000005_000009_000061_000049_000091_000169_000179_000701_003957_000473_015087_006109_025083,
  1_008357_000001_000003_000003_000011_000027_000043_000005_000033_000069_000705_000733_002675_002677_004235_011109_015557,
  1_008361_000001_000003_000001_000003_000017_000019_000101_000119_000289_000341_001395_000563_006859_010359_010077_026905,
  1_008364_000001_000001_000001_000015_000021_000047_000041_000145_000439_000583_001755_001977_005235_015961_021315_060577,
  1_008393_000001_000001_000005_000003_000009_000059_000071_000143_000027_001007_000313_001567_001685_011063_028889_044253,
  1_008396_000001_000001_000005_000005_000029_000029_000043_000127_000013_000585_001245_000187_002697_008791_019561_006463,
  1_008407_000001_000001_000003_000011_000029_000039_000127_000075_000023_000521_000421_003115_000139_005429_023341_058035,
  1_008413_000001_000001_000003_000001_000027_000035_000027_000009_000185_000653_000887_002715_003775_001753_022105_062095,
  1_008414_000001_000001_000005_000005_000005_000063_000023_000031_000317_001001_001751_001185_007933_000525_030501_015565,
  1_008432_000001_000001_000001_000005_000009_000027_000079_000091_000453_000995_001041_003213_008027_005855_007435_064079,
  1_008435_000001_000001_000003_000011_000001_000051_000027_000195_000139_000041_001891_001437_001033_011671_003235_035083,
  1_008441_000001_000003_000001_000003_000011_000025_000033_000249_000373_000497_001631_000293_003657_010741_015831_059545,
  1_008447_000001_000001_000001_000001_000015_000063_000013_000165_000113_000559_001615_003579_001993_001907_022335_047791,
  1_008449_000001_000001_000003_000015_000013_000049_000063_000235_000031_000811_001729_000221_005143_011547_030029_052003,
  1_008456_000001_000001_000005_000013_000029_000061_000025_000221_000421_000221_000583_000373_002341_007493_013981_054141,
  1_008485_000001_000001_000005_000011_000021_000049_000071_000249_000237_000369_001273_001067_004411_000409_007219_052933,
  1_008504_000001_000003_000001_000001_000013_000023_000053_000015_000137_000553_000401_002247_005591_014021_000445_020433,
  1_008512_000001_000001_000007_000007_000007_000023_000019_000189_000119_000643_000847_002123_005343_011839_004575_060461,
  1_008532_000001_000001_000005_000005_000011_000019_000111_000219_000185_000499_000595_000723_003519_010891_027603_029261,
  1_008551_000001_000003_000003_000001_000009_000013_000095_000227_000459_000133_001535_003481_007187_014797_016511_006737,
  1_008560_000001_000001_000007_000007_000019_000057_000117_000007_000455_000941_000455_000797_006313_010071_018651_025013,
  1_008566_000001_000003_000007_000003_000025_000025_000079_000019_000383_000971_001625_002803_002461_000633_032317_048407,
  1_008581_000001_000001_000007_000007_000025_000043_000093_000135_000155_000685_002001_003007_007315_015555_030401_036291,
  1_008609_000001_000001_000001_000005_000013_000033_000123_000221_000341_000105_001075_003125_005323_014293_029875_052215,
  1_008639_000001_000001_000003_000009_000029_000051_000025_000059_000171_000563_001695_002845_006067_010671_002909_033977,
  1_008641_000001_000003_000003_000007_000025_000021_000039_000065_000485_000949_001773_002775_006019_014587_006715_054793,
  1_008671_000001_000001_000007_000011_000017_000057_000125_000017_000111_000167_000289_003939_007357_002289_001717_045225,
  1_008695_000001_000001_000007_000007_000021_000055_000003_000139_000471_000747_001437_001353_007657_013133_014193_038191,
  1_008701_000001_000003_000005_000007_000025_000057_000055_000017_000315_000159_000437_000933_007493_006025_002775_024287,
  1_008711_000001_000001_000007_000001_000015_000045_000067_000191_000355_000681_001763_001237_000105_001425_026089_042879,
  1_008739_000001_000001_000005_000013_000013_000053_000025_000127_000103_000155_000935_002561_000475_004341_030541_043835,
  1_008763_000001_000001_000005_000015_000027_000059_000099_000173_000189_000041_000105_003287_004071_015005_018301_034487,
  1_008778_000001_000001_000005_000011_000021_000009_000057_000115_000495_000561_000579_000397_003049_002007_005041_037345,
  1_008783_000001_000001_000005_000011_000015_000011_000101_000241_000069_000483_001007_004069_005221_005323_020177_024397,
  1_008785_000001_000001_000001_000007_000029_000015_000119_000161_000021_000517_000847_002217_004487_004817_024053_021683,
  1_008797_000001_000003_000001_000003_000003_000051_000085_000063_000345_000799_001699_003961_007109_003931_028173_046851,
  1_008802_000001_000001_000005_000007_000015_000025_000097_000139_000331_000969_001129_002451_003107_012235_012949_029837,
  1_008816_000001_000003_000007_000001_000019_000021_000051_000155_000295_000565_000029_002107_000341_014611_015281_050727,
  1_008828_000001_000003_000001_000011_000003_000037_000013_000217_000429_000217_000301_001217_005655_013845_032465_023559,
  1_008837_000001_000003_000003_000009_000009_000057_000079_000231_000433_000703_000699_003813_007035_005885_019185_052551,
  1_008852_000001_000001_000001_000005_000019_000017_000031_000209_000049_000515_000279_000909_005881_002673_023635_023101,
  1_008859_000001_000001_000005_000007_000003_000003_000119_000139_000245_000775_001009_001157_001405_009737_017671_062981,
  1_008889_000001_000003_000007_000011_000017_000021_000105_000021_000067_000871_000233_003607_000571_009141_009751_028093,
  1_008900_000001_000001_000003_000013_000005_000053_000091_000181_000143_000375_001113_000705_000837_010505_011459_057753,
  1_008903_000001_000003_000005_000011_000009_000019_000107_000229_000305_000107_001027_000691_004677_008987_007931_000951,
  1_008909_000001_000001_000007_000009_000009_000017_000039_000195_000103_000315_000517_000123_007167_007039_003571_040469,
  1_008910_000001_000001_000001_000005_000001_000021_000121_000053_000427_000111_000717_001065_002843_005873_028411_042443,
  1_008922_000001_000001_000003_000011_000027_000007_000037_000255_000429_000363_000997_002429_006871_001271_029375_062897,
  1_008924_000001_000003_000003_000013_000023_000023_000123_000119_000213_000051_000771_001603_001621_001497_023667_013443,
  1_008955_000001_000001_000003_000013_000017_000021_000081_000017_000211_000815_001751_003875_004001_003927_006185_028753,
  1_008958_000001_000003_000001_000005_000013_000041_000023_000187_000475_000353_001307_000543_005077_003459_020553_029119,
  1_008980_000001_000001_000001_000007_000001_000039_000003_000247_000375_000101_000081_001515_001079_015307_018865_063115,
  1_008994_000001_000001_000005_000009_000023_000007_000061_000045_000379_000553_000435_001805_004147_002289_022081_040041,
  1_009006_000001_000001_000007_000003_000017_000013_000107_000169_000119_000981_001825_003329_007779_012245_028367_006749,
  1_009017_000001_000003_000003_000013_000029_000013_000093_000155_000331_000507_001073_000279_006615_014077_003005_010171,
  1_009032_000001_000001_000005_000007_000029_000023_000081_000181_000321_000921_001531_002607_007291_001255_029889_030095,
  1_009040_000001_000001_000001_000005_000007_000001_000009_000231_000203_000559_000243_003999_003649_007939_014729_034771,
  1_009061_000001_000003_000007_000003_000017_000029_000079_000251_000305_000641_001125_001155_007139_006721_000043_034927,
  1_009066_000001_000001_000005_000013_000021_000039_000055_000103_000143_000487_000849_001111_001105_008483_005417_010521,
  1_009071_000001_000001_000005_000005_000019_000005_000111_000049_000095_000917_000843_002539_006831_009019_016045_059363,
  1_009076_000001_000003_000003_000011_000007_000045_000087_000051_000049_000615_000603_001623_005351_011939_021945_040539,
  1_009086_000001_000001_000005_000009_000009_000033_000113_000037_000163_000853_001313_004021_000965_011465_008573_024425,
  1_009104_000001_000003_000003_000009_000017_000019_000121_000095_000093_000441_001951_003335_006279_016087_014763_060771,
  1_009150_000001_000003_000003_000009_000013_000015_000019_000129_000257_000641_000533_001667_005959_002259_010439_029745,
  1_009161_000001_000001_000007_000007_000011_000031_000045_000247_000233_000101_000899_002033_007803_011423_030645_007723,
  1_009164_000001_000003_000005_000011_000023_000003_000069_000079_000319_000125_001463_002047_007311_005819_000445_013725,
  1_009185_000001_000001_000001_000003_000007_000043_000083_000089_000467_000709_001993_003773_007805_000305_015701_051101,
  1_009188_000001_000001_000007_000005_000019_000053_000077_000237_000027_000853_001003_002041_005739_004663_009783_023761,
  1_009212_000001_000001_000003_000007_000019_000031_000071_000033_000479_000693_001503_000009_002779_001481_009413_036227,
  1_009230_000001_000003_000001_000011_000009_000023_000001_000099_000247_000033_001987_001577_008029_007785_029947_038751,
  1_009242_000001_000001_000001_000003_000015_000057_000023_000053_000431_000553_001433_002447_001871_010701_030961_012281,
  1_009247_000001_000003_000005_000009_000011_000049_000123_000091_000087_000155_000301_003339_006183_015895_017309_045927,
  1_009260_000001_000001_000001_000009_000009_000041_000079_000123_000261_000547_001931_002553_007405_014431_024079_020769,
  1_009280_000001_000003_000001_000003_000031_000017_000017_000137_000419_000591_001693_003977_000861_016025_000189_060995,
  1_009300_000001_000003_000007_000011_000019_000047_000107_000243_000087_000135_000507_000189_001397_003841_022999_050781,
  1_009313_000001_000003_000005_000005_000015_000011_000019_000239_000133_000295_000673_002389_004753_004363_021669_025579,
  1_009325_000001_000003_000005_000007_000019_000043_000055_000129_000239_000089_001731_001381_005483_011773_009201_017745,
  1_009343_000001_000003_000001_000013_000003_000015_000077_000131_000417_000845_001953_002871_001789_010343_011363_020699,
  1_009349_000001_000003_000007_000001_000009_000043_000055_000223_000239_000317_001951_002725_000209_003853_002201_006839,
  1_009354_000001_000003_000001_000003_000007_000035_000029_000021_000149_000779_000467_000065_000811_004859_014021_038429,
  1_009367_000001_000003_000007_000001_000019_000031_000097_000009_000011_000415_000689_001513_002475_005039_005669_065103,
  1_009368_000001_000003_000003_000003_000011_000025_000037_000247_000189_000911_000429_002395_003653_000079_028115_023513,
  1_009455_000001_000001_000005_000005_000005_000027_000025_000045_000291_000455_000741_002259_008131_011779_014693_058729,
  1_009458_000001_000003_000003_000007_000021_000033_000067_000049_000153_000491_001811_001955_000925_015555_013801_048717,
  1_009469_000001_000003_000001_000003_000011_000053_000105_000129_000457_000225_000497_001123_000973_002901_026655_003643,
  1_009481_000001_000001_000007_000013_000029_000049_000071_000037_000321_000865_000735_000357_007629_006011_028221_039041,
  1_009482_000001_000003_000005_000003_000019_000059_000065_000199_000069_000391_001735_003075_000287_016213_003211_022425]

def dirRows16_0_6 : List Nat := [
  1_009495_000001_000001_000001_000005_000015_000061_000067_000255_000005_000689_000759_000155_007245_005881_021685_003863,
  1_009526_000001_000001_000003_000011_000023_000063_000069_000241_000359_000735_000371_000603_002707_015833_031795_014901,
  1_009530_000001_000001_000001_000007_000019_000033_000083_000019_000013_000667_000317_003891_005497_008213_004913_022387,
  1_009558_000001_000003_000005_000009_000013_000021_000011_000187_000249_000647_000349_000605_002199_005033_029773_048953,
  1_009562_000001_000003_000003_000011_000003_000003_000093_000235_000441_000933_000383_002007_004015_004175_003937_020623,
  1_009573_000001_000003_000007_000013_000003_000061_000087_000219_000263_000651_001343_002709_000031_016249_004749_028909,
  1_009583_000001_000003_000001_000001_000017_000019_000101_000107_000499_000127_000013_002123_005597_003751_014527_012009,
  1_009595_000001_000003_000005_000013_000027_000057_000001_000195_000107_000947_001475_002831_006449_016117_020555_061513,
  1_009597_000001_000003_000001_000009_000009_000047_000089_000187_000401_000299_000637_000197_001235_012655_025025_024443,
  1_009616_000001_000001_000003_000005_000009_000057_000033_000041_000451_000983_000391_002707_000705_013913_028843_034091,
  1_009638_000001_000003_000005_000003_000029_000019_000061_000031_000349_000253_001267_003345_002151_011309_019623_062407,
  1_009649_000001_000001_000001_000003_000011_000037_000031_000059_000001_000253_000103_002811_001871_004239_026311_032507,
  1_009662_000001_000001_000005_000007_000007_000007_000069_000063_000281_000901_001785_002131_004265_000253_013997_030177,
  1_009691_000001_000003_000001_000011_000003_000027_000111_000067_000411_000751_000241_000293_006271_004187_022119_063737,
  1_009700_000001_000003_000005_000005_000027_000019_000045_000203_000081_000059_001839_000935_004847_001869_012037_030971,
  1_009703_000001_000001_000003_000009_000019_000025_000009_000027_000373_000875_001735_000689_002957_007873_029771_004093,
  1_009710_000001_000001_000007_000011_000013_000039_000011_000129_000053_000433_001731_000899_005855_010221_024165_050205,
  1_009721_000001_000003_000001_000015_000025_000031_000085_000049_000325_000299_000183_000287_002425_015353_025999_059129,
  1_009724_000001_000001_000005_000005_000017_000025_000023_000005_000287_000677_000591_000981_000429_015297_014573_061095,
  1_009727_000001_000001_000005_000015_000005_000015_000067_000195_000209_000341_001621_001379_003031_005469_031563_049291,
  1_009743_000001_000001_000001_000001_000025_000033_000061_000201_000015_000125_000969_001965_002021_010253_023801_028165,
  1_009779_000001_000001_000005_000005_000013_000017_000005_000245_000011_000133_000287_001929_004331_015919_029663_010243,
  1_009785_000001_000001_000007_000009_000019_000033_000039_000191_000489_000631_000069_001883_002183_014993_032715_062217,
  1_009811_000001_000003_000003_000013_000023_000061_000103_000193_000501_000431_000437_000417_006557_011701_027577_042943,
  1_009820_000001_000003_000003_000009_000009_000027_000069_000247_000469_000841_000733_000813_002673_007145_005385_044917,
  1_009827_000001_000001_000007_000009_000005_000013_000019_000071_000323_000923_001885_003031_004507_013787_014149_001483,
  1_009851_000001_000003_000001_000005_000001_000015_000089_000229_000301_000733_001343_002415_006463_001875_009293_006037,
  1_009854_000001_000003_000001_000005_000029_000057_000067_000121_000311_000441_001079_001963_007137_006745_009893_022811,
  1_009863_000001_000001_000007_000007_000025_000013_000027_000061_000331_000361_000481_003783_003061_007827_018885_027583,
  1_009884_000001_000003_000001_000005_000017_000047_000019_000083_000309_000065_001573_003437_005623_012691_021075_027789,
  1_009894_000001_000001_000007_000009_000013_000051_000007_000209_000131_000111_001143_000053_007277_009297_020869_033121,
  1_009903_000001_000001_000003_000009_000013_000017_000057_000089_000239_000281_000775_000333_005631_002805_010195_009665,
  1_009908_000001_000001_000003_000007_000019_000039_000071_000079_000063_000551_000103_003169_002761_013929_020751_018951,
  1_009912_000001_000001_000007_000011_000005_000023_000007_000249_000447_000483_000433_003117_001421_014991_005397_019813,
  1_009925_000001_000003_000001_000013_000003_000009_000109_000241_000181_000033_000853_003939_003751_002151_028375_064443,
  1_009926_000001_000001_000007_000007_000003_000033_000065_000211_000251_000631_001819_003913_003353_012975_019117_051515,
  1_009971_000001_000001_000001_000013_000003_000021_000009_000203_000223_000229_001399_000117_006297_011535_016383_012541,
  1_009973_000001_000001_000005_000007_000025_000009_000053_000027_000497_000103_001915_002179_003679_011375_018907_063385,
  1_009977_000001_000003_000001_000005_000001_000053_000091_000169_000087_000387_000377_001121_007241_005133_001949_013433,
  1_010021_000001_000001_000001_000003_000027_000035_000061_000189_000241_000445_000287_000325_000127_002363_030663_043557,
  1_010039_000001_000003_000001_000003_000017_000047_000059_000237_000213_000979_000807_000085_004621_009915_013631_055657,
  1_010048_000001_000003_000005_000007_000027_000005_000101_000089_000495_000675_001181_002295_001913_003731_032639_058297,
  1_010051_000001_000003_000003_000011_000005_000041_000049_000229_000093_000659_000927_003425_004083_011859_010603_020631,
  1_010065_000001_000003_000005_000011_000031_000051_000067_000069_000253_000497_001665_001985_005439_015999_004175_062175,
  1_010071_000001_000001_000007_000011_000001_000021_000095_000019_000205_000513_001329_001821_001251_002381_032623_023923,
  1_010072_000001_000001_000005_000013_000003_000001_000029_000175_000315_000865_000599_001695_001391_002313_031035_019159,
  1_010101_000001_000003_000003_000001_000003_000045_000109_000093_000481_000285_000869_003441_003715_001355_009581_050173,
  1_010106_000001_000003_000007_000007_000015_000035_000107_000107_000315_000213_000281_002073_004689_005877_000031_040967,
  1_010130_000001_000001_000003_000011_000011_000003_000073_000041_000079_000037_000481_001993_000931_007677_011321_045735,
  1_010136_000001_000001_000007_000001_000015_000021_000065_000237_000263_000849_000863_004039_003171_013381_030373_051639,
  1_010148_000001_000001_000001_000003_000021_000057_000113_000003_000487_000041_001277_000633_002839_004977_014537_031749,
  1_010155_000001_000001_000005_000001_000001_000055_000071_000181_000147_000895_001839_002157_003187_006403_030367_048915,
  1_010157_000001_000001_000005_000003_000009_000017_000019_000127_000115_000875_000831_002439_007475_001921_018657_027709,
  1_010160_000001_000003_000003_000013_000029_000011_000035_000081_000291_000483_000625_003957_006017_012543_018773_002471,
  1_010166_000001_000003_000003_000013_000011_000039_000007_000085_000493_000209_000819_003277_004275_008997_022943_033199,
  1_010183_000001_000001_000001_000007_000011_000025_000001_000057_000505_000135_001713_003051_005893_010711_010681_012235,
  1_010192_000001_000003_000005_000011_000023_000033_000013_000107_000289_000251_000235_001747_004097_012237_017559_005063,
  1_010225_000001_000003_000003_000009_000019_000017_000023_000045_000297_000147_001301_002057_007871_009971_001965_062449,
  1_010241_000001_000001_000007_000003_000017_000021_000019_000203_000289_000897_001967_003519_003261_008199_024181_023273,
  1_010247_000001_000001_000007_000011_000001_000017_000025_000063_000509_000969_000047_001329_000701_005227_000419_014839,
  1_010284_000001_000003_000005_000011_000001_000041_000081_000157_000395_000097_001919_003043_006015_000015_023733_055485,
  1_010304_000001_000001_000003_000011_000017_000037_000017_000181_000179_000297_001007_001559_006275_011645_007535_028941,
  1_010322_000001_000003_000007_000015_000005_000047_000031_000237_000215_000563_000207_001867_006635_006857_011837_022865,
  1_010331_000001_000003_000001_000007_000007_000039_000051_000179_000057_000987_000893_002715_001045_005799_019805_054275,
  1_010333_000001_000001_000007_000015_000025_000009_000127_000243_000323_001013_000929_002891_007549_001071_017663_015247,
  1_010340_000001_000001_000001_000005_000025_000023_000101_000009_000371_000089_001749_003559_008071_013887_014807_042825,
  1_010347_000001_000003_000003_000011_000021_000041_000003_000077_000003_000709_001745_003615_004141_005275_028329_059739,
  1_010357_000001_000001_000007_000013_000001_000011_000073_000183_000363_000241_000863_003983_003235_000293_000649_000441,
  1_010371_000001_000001_000005_000003_000013_000027_000013_000191_000057_000639_001803_002353_003143_012763_005771_036155,
  1_010386_000001_000001_000005_000003_000001_000053_000085_000045_000283_000823_001213_003261_004599_013267_004613_012657,
  1_010404_000001_000003_000005_000015_000027_000049_000059_000123_000357_000527_000337_002751_003999_008525_012501_040621,
  1_010414_000001_000001_000001_000007_000001_000055_000085_000017_000447_000599_001315_002313_001649_000907_025647_003251,
  1_010422_000001_000003_000005_000013_000009_000001_000037_000121_000143_000001_000631_002273_001673_003649_027533_028731,
  1_010448_000001_000001_000007_000013_000009_000031_000057_000249_000397_000815_000501_000895_001217_011387_008635_065193,
  1_010451_000001_000001_000005_000005_000009_000035_000095_000193_000133_000513_001929_003841_003063_002383_024413_051185,
  1_010473_000001_000001_000001_000013_000003_000049_000045_000191_000015_000181_001819_003741_001227_012775_009461_044951,
  1_010479_000001_000001_000001_000001_000003_000045_000121_000019_000269_000829_000517_003913_000183_011019_024969_021973,
  1_010501_000001_000001_000005_000011_000031_000039_000125_000189_000401_000057_001557_001727_001415_004025_030353_036589,
  1_010530_000001_000001_000003_000009_000003_000055_000125_000187_000409_000499_001853_002781_004323_016159_016345_034659,
  1_010542_000001_000003_000005_000011_000031_000005_000125_000137_000197_000475_002003_000617_001289_008365_028981_057537,
  1_010544_000001_000001_000001_000005_000019_000029_000083_000127_000311_000177_001635_002187_005377_012841_007591_006095,
  1_010571_000001_000003_000005_000005_000021_000039_000065_000197_000115_000411_001457_003011_007021_014119_000061_021107,
  1_010628_000001_000003_000003_000009_000019_000057_000099_000023_000451_000507_000973_000415_007123_011367_029767_023763,
  1_010643_000001_000001_000005_000007_000029_000023_000047_000011_000267_000873_000591_000373_007097_003783_023289_005547,
  1_010673_000001_000001_000005_000015_000007_000007_000007_000091_000389_000841_001995_000459_007013_003109_023615_021519,
  1_010683_000001_000003_000001_000001_000013_000025_000087_000235_000193_000201_000713_001633_003117_013609_017211_000573,
  1_010736_000001_000001_000001_000009_000027_000053_000105_000039_000217_000781_000997_000661_006243_006427_017739_062239,
  1_010795_000001_000001_000007_000003_000003_000049_000075_000125_000239_000195_000215_002983_001185_004743_012069_055509,
  1_010797_000001_000001_000005_000015_000031_000011_000009_000091_000253_000361_000571_001589_002425_004279_003765_046519,
  1_010815_000001_000001_000003_000003_000021_000049_000049_000213_000399_000253_001565_002447_000453_007957_024799_058503,
  1_010817_000001_000001_000007_000001_000005_000059_000081_000097_000209_000477_000017_003085_003655_000599_024011_014981,
  1_010842_000001_000003_000003_000013_000019_000049_000007_000035_000111_000169_000629_001587_005345_013699_021187_030199,
  1_010844_000001_000001_000003_000013_000019_000059_000073_000127_000475_000509_000009_002661_000711_015835_031429_033885,
  1_010863_000001_000003_000005_000003_000031_000015_000043_000185_000029_000897_001041_001057_006285_013925_004023_025741,
  1_010899_000001_000003_000005_000011_000001_000033_000063_000155_000175_000501_001147_003395_003285_016237_022315_050945,
  1_010902_000001_000003_000003_000003_000005_000013_000077_000227_000085_000139_000139_000001_007147_002023_032705_038753,
  1_010917_000001_000003_000005_000011_000031_000059_000035_000179_000489_000537_001537_002877_004937_010825_002445_034907,
  1_010953_000001_000003_000007_000011_000017_000017_000095_000223_000165_000925_000829_003971_000001_007393_008825_025705,
  1_010967_000001_000001_000001_000001_000025_000017_000025_000143_000385_000907_001381_001823_003819_008475_005321_012037,
  1_011002_000001_000001_000005_000011_000007_000047_000097_000085_000105_000023_000263_001329_001905_012121_029635_041249]

def dirRows16_0_7 : List Nat := [
  1_011024_000001_000001_000007_000011_000001_000051_000013_000013_000005_000143_000083_003831_000959_006083_016997_059887,
  1_011029_000001_000003_000003_000013_000025_000009_000031_000005_000215_000791_000767_001733_002715_014283_025795_054249,
  1_011030_000001_000003_000007_000005_000011_000019_000125_000081_000071_000131_001869_001111_006763_005275_023095_001139,
  1_011043_000001_000003_000003_000009_000025_000043_000119_000049_000133_000217_000521_001367_005867_006829_029871_060383,
  1_011087_000001_000001_000007_000009_000005_000011_000059_000157_000279_000301_000481_003273_007943_003273_027783_017271,
  1_011106_000001_000003_000003_000013_000011_000057_000013_000005_000435_000169_000541_000517_002359_009121_027911_015679,
  1_011130_000001_000001_000003_000009_000009_000055_000065_000113_000021_000807_000373_002825_001527_015565_008339_007227,
  1_011156_000001_000003_000005_000009_000001_000001_000049_000255_000477_000821_001647_000713_006841_003187_022649_051469,
  1_011176_000001_000003_000003_000011_000013_000043_000063_000139_000071_000809_000993_002429_000833_006545_010987_039567,
  1_011221_000001_000001_000001_000009_000019_000023_000047_000199_000191_000827_000391_000837_001209_002493_024071_046589,
  1_011267_000001_000001_000005_000013_000025_000051_000039_000043_000103_000899_001729_002389_002965_000189_003063_050609,
  1_011282_000001_000001_000003_000001_000005_000029_000105_000201_000503_000199_000507_000205_002389_000695_015233_050353,
  1_011294_000001_000003_000001_000007_000019_000053_000045_000021_000089_000545_001885_000765_006673_013485_009987_002609,
  1_011332_000001_000003_000007_000013_000017_000007_000059_000023_000159_000309_001407_002483_001807_015733_005603_052989,
  1_011353_000001_000001_000001_000011_000013_000019_000123_000185_000413_000745_000361_002391_006697_002281_011999_013175,
  1_011369_000001_000003_000005_000005_000011_000049_000123_000173_000325_000667_000895_001067_008121_010577_030561_017391,
  1_011372_000001_000001_000005_000005_000023_000021_000077_000223_000281_000161_000141_000345_003879_011393_026907_053805,
  1_011375_000001_000003_000003_000005_000003_000047_000017_000109_000185_000139_000957_001417_004553_006101_029537_034821,
  1_011413_000001_000001_000005_000003_000029_000049_000089_000061_000045_000593_000269_001483_002971_000991_021239_029301,
  1_011429_000001_000001_000003_000013_000029_000045_000033_000253_000291_000783_000737_002363_002651_008627_021785_058419,
  1_011430_000001_000003_000007_000015_000029_000015_000081_000185_000363_000681_001737_003789_004365_003295_023205_004457,
  1_011444_000001_000003_000003_000011_000015_000039_000067_000167_000197_000357_000871_002201_005377_006299_020873_059283,
  1_011462_000001_000003_000003_000005_000009_000015_000127_000049_000021_000719_000357_000425_005507_009639_000275_047503,
  1_011465_000001_000001_000007_000001_000013_000063_000111_000121_000021_000481_000247_003147_005783_008947_020809_042039,
  1_011471_000001_000001_000003_000003_000031_000033_000009_000069_000187_000517_002029_002205_007661_004757_027525_009665,
  1_011473_000001_000001_000001_000013_000007_000041_000103_000161_000233_000221_000693_000213_004609_007771_028703_017407,
  1_011495_000001_000003_000007_000015_000031_000047_000027_000111_000479_001003_001687_000347_002179_011861_008169_031941,
  1_011499_000001_000001_000003_000005_000005_000063_000025_000125_000199_000147_000589_003565_003449_008331_008923_031207,
  1_011519_000001_000001_000003_000011_000019_000025_000077_000099_000299_000019_001641_002193_004299_003635_020621_000267,
  1_011562_000001_000003_000007_000011_000009_000059_000007_000167_000001_000775_000029_001935_003723_011835_002887_065285,
  1_011576_000001_000001_000007_000013_000005_000047_000101_000155_000235_000093_000465_003581_001837_007675_010789_045167,
  1_011582_000001_000001_000003_000005_000009_000059_000121_000109_000059_000821_001625_000343_001591_003875_013729_056381,
  1_011596_000001_000001_000001_000009_000027_000053_000093_000215_000133_000561_000039_002591_001041_011913_024493_037921,
  1_011602_000001_000001_000001_000007_000023_000007_000081_000107_000219_000943_000563_001083_005803_005687_032559_062727,
  1_011611_000001_000003_000007_000007_000021_000053_000003_000005_000231_000601_001561_000103_003837_002675_005263_023375,
  1_011627_000001_000001_000003_000013_000015_000027_000089_000007_000251_000887_000951_003001_005687_004921_005091_059337,
  1_011682_000001_000003_000007_000015_000025_000053_000019_000155_000185_000503_000547_001917_007633_015167_014177_046761,
  1_011687_000001_000003_000005_000015_000021_000049_000013_000163_000471_000281_001141_003013_006847_009261_015955_009397,
  1_011691_000001_000003_000003_000003_000001_000021_000019_000239_000479_000609_000065_002735_005337_006293_019351_034135,
  1_011733_000001_000001_000007_000001_000009_000001_000119_000023_000411_000535_000101_001597_002379_002421_031471_036473,
  1_011747_000001_000003_000001_000011_000031_000063_000017_000225_000045_000409_000059_003943_008043_011759_010667_058793,
  1_011759_000001_000001_000003_000003_000009_000049_000061_000239_000245_000765_001945_003567_005355_014799_007141_059511,
  1_011778_000001_000003_000007_000009_000003_000033_000103_000099_000035_000799_001347_002253_008189_014177_013479_013749,
  1_011852_000001_000003_000001_000015_000015_000051_000007_000179_000471_000265_001571_002983_000701_015133_007885_029977,
  1_011857_000001_000001_000005_000009_000015_000037_000049_000213_000113_000729_001115_002727_002635_008433_011145_046779,
  1_011858_000001_000003_000005_000011_000007_000003_000115_000151_000133_000723_000007_004063_005807_009845_025829_029315,
  1_011893_000001_000003_000005_000009_000025_000055_000017_000135_000145_000379_001603_003459_005773_006545_017509_025847,
  1_011907_000001_000001_000007_000011_000001_000061_000113_000147_000489_000775_001347_002199_000299_009589_019931_001335,
  1_011928_000001_000003_000001_000003_000001_000007_000027_000243_000355_000425_001215_003723_003489_009285_012739_024797,
  1_011931_000001_000003_000005_000011_000015_000025_000057_000221_000247_000647_000259_001665_007055_002835_016411_042999,
  1_011933_000001_000001_000003_000007_000009_000025_000061_000233_000073_000235_001539_001865_005671_001329_005767_043039,
  1_011967_000001_000001_000007_000009_000021_000011_000123_000007_000041_000407_001485_001723_000585_010597_016215_063403,
  1_011976_000001_000001_000005_000007_000027_000009_000123_000101_000273_000673_001141_003841_004041_013169_008221_012915,
  1_011989_000001_000003_000001_000013_000003_000017_000105_000017_000237_000321_000855_002821_002467_003503_015187_001689,
  1_012003_000001_000001_000005_000005_000019_000023_000009_000205_000087_000153_001543_001193_006619_006845_008459_037533,
  1_012024_000001_000001_000007_000015_000013_000029_000079_000009_000203_000211_000239_002349_003447_007797_019311_058071,
  1_012030_000001_000003_000005_000011_000005_000049_000071_000151_000333_000895_001095_002471_002477_014493_016711_014393,
  1_012037_000001_000001_000005_000013_000017_000019_000025_000149_000111_000631_000763_002535_003631_001809_008163_018037,
  1_012044_000001_000003_000003_000013_000023_000061_000025_000179_000351_000247_001021_002413_002585_003731_005435_052723,
  1_012052_000001_000001_000005_000011_000001_000039_000065_000059_000021_000927_001989_002823_004857_015521_030495_016067,
  1_012059_000001_000003_000003_000007_000017_000005_000017_000125_000379_000875_001565_002435_000933_006809_020129_026339,
  1_012075_000001_000001_000007_000005_000003_000057_000051_000213_000455_000663_002007_003995_004889_009527_023507_003261,
  1_012083_000001_000003_000007_000005_000001_000029_000085_000151_000165_000123_001425_002851_004427_007683_021085_028925,
  1_012117_000001_000001_000005_000003_000011_000033_000127_000003_000041_000591_001539_003823_000125_000421_009051_055025,
  1_012138_000001_000003_000001_000005_000007_000009_000069_000035_000059_000477_001207_001245_006423_011329_026535_037621,
  1_012146_000001_000003_000001_000001_000015_000035_000017_000123_000303_000193_001489_002587_001883_004063_001921_060413,
  1_012202_000001_000001_000005_000001_000007_000061_000039_000247_000139_001015_000757_000823_004757_009307_032287_037241,
  1_012230_000001_000001_000007_000015_000003_000005_000085_000093_000457_000999_001331_000919_005271_011687_024233_038803,
  1_012254_000001_000003_000003_000009_000005_000043_000037_000013_000505_000603_001857_002675_002017_009481_010873_054755,
  1_012304_000001_000001_000005_000015_000013_000003_000007_000239_000471_000835_000553_000413_004029_008613_015533_058987,
  1_012316_000001_000003_000001_000005_000019_000027_000021_000043_000057_000755_001245_002805_003799_002013_021145_010317,
  1_012337_000001_000003_000005_000013_000009_000023_000035_000005_000315_000169_000399_002641_001525_010561_011917_033009,
  1_012347_000001_000003_000005_000007_000023_000053_000101_000105_000451_000207_001271_003067_006725_015525_007951_001283,
  1_012367_000001_000001_000005_000005_000027_000021_000077_000143_000213_000443_000149_002667_005269_010359_025287_005843,
  1_012398_000001_000003_000005_000005_000025_000027_000109_000157_000459_000767_000765_002667_001833_003781_009077_064321,
  1_012421_000001_000003_000003_000013_000031_000025_000097_000237_000279_000431_001713_000809_001989_010431_005867_042197,
  1_012428_000001_000003_000007_000003_000009_000005_000005_000191_000073_000521_000787_000903_003073_002067_024741_057029,
  1_012446_000001_000003_000003_000001_000003_000041_000125_000053_000125_000781_000865_003677_006279_000357_010667_001127,
  1_012449_000001_000001_000005_000011_000025_000019_000099_000121_000359_000073_000607_002149_005739_015669_029457_057549,
  1_012467_000001_000001_000005_000003_000023_000005_000035_000055_000369_000239_000329_003057_003757_012523_005017_052185,
  1_012479_000001_000003_000003_000013_000017_000061_000069_000165_000267_000323_002007_002025_004423_015975_031897_037013,
  1_012502_000001_000003_000007_000013_000019_000019_000087_000111_000389_000611_001523_000963_004671_012569_021839_010919,
  1_012521_000001_000001_000001_000003_000001_000027_000013_000227_000029_000457_000221_000127_005335_016247_019559_019185,
  1_012553_000001_000003_000005_000007_000029_000021_000023_000157_000197_000087_001591_001829_000407_015885_014933_001997,
  1_012568_000001_000001_000001_000009_000003_000035_000043_000187_000195_000325_000197_002905_007323_001563_007659_045185,
  1_012573_000001_000001_000001_000015_000003_000023_000105_000033_000073_000495_001409_002583_001099_001041_028955_060293,
  1_012592_000001_000003_000007_000013_000025_000019_000099_000137_000139_000719_000529_001147_005813_011551_030183_014593,
  1_012597_000001_000003_000003_000005_000017_000025_000073_000193_000309_000887_001655_001641_002091_012087_021881_001145,
  1_012601_000001_000003_000001_000001_000027_000041_000013_000151_000083_000645_000327_001795_002717_012433_022751_009823,
  1_012615_000001_000001_000003_000007_000001_000043_000077_000229_000059_000499_001883_000135_003461_009821_000219_006111,
  1_012619_000001_000003_000003_000003_000023_000007_000017_000067_000361_000565_001621_003253_007973_000281_003209_048215,
  1_012694_000001_000001_000003_000007_000031_000015_000097_000141_000197_000883_001689_000269_007487_010403_018903_058147,
  1_012697_000001_000003_000003_000003_000023_000009_000087_000125_000359_000527_001251_000637_001145_012721_014693_006021,
  1_012698_000001_000001_000003_000005_000013_000043_000105_000173_000205_000859_001237_001227_001409_015513_025317_030745,
  1_012713_000001_000003_000003_000015_000031_000043_000125_000149_000145_000109_000975_001167_007629_008373_005923_064117,
  1_012722_000001_000003_000001_000015_000003_000033_000089_000173_000379_000615_001401_001567_004453_007461_032555_064369,
  1_012733_000001_000003_000007_000011_000027_000023_000045_000007_000015_000021_001663_003327_005611_008535_027669_025525,
  1_012736_000001_000001_000003_000015_000015_000061_000127_000145_000151_000041_000629_000767_005801_003395_001157_030033,
  1_012790_000001_000001_000001_000005_000009_000063_000073_000009_000299_000237_000369_001295_004869_006821_019961_032129,
  1_012794_000001_000001_000005_000013_000019_000007_000119_000035_000319_000405_001255_001299_004311_014999_024567_004001]

def dirRows16_0_8 : List Nat := [
  1_012803_000001_000001_000001_000013_000009_000039_000013_000207_000355_000691_000037_003137_006073_016179_028661_000041,
  1_012815_000001_000001_000003_000007_000021_000003_000123_000027_000187_000183_000769_002367_002957_007065_017855_060805,
  1_012829_000001_000001_000001_000001_000019_000031_000071_000085_000303_000617_001007_000283_008087_011079_011463_065295,
  1_012833_000001_000001_000003_000013_000025_000063_000061_000187_000401_000465_001485_000801_003649_007763_008495_054479,
  1_012840_000001_000003_000007_000003_000013_000051_000041_000119_000311_000699_001113_003631_001981_003259_025871_045659,
  1_012875_000001_000003_000007_000013_000031_000027_000057_000181_000325_000107_001745_000635_003941_003305_014563_029855,
  1_012877_000001_000003_000007_000015_000005_000055_000005_000147_000365_000485_001841_003673_006513_011121_005725_018027,
  1_012916_000001_000003_000005_000011_000013_000045_000035_000079_000109_000683_001171_003015_002163_004823_004365_042931,
  1_012923_000001_000001_000007_000007_000013_000045_000057_000039_000297_000985_001559_000487_005071_002657_009401_041889,
  1_012935_000001_000001_000005_000009_000029_000033_000079_000237_000509_000537_000549_003657_007141_015189_030853_036089,
  1_012949_000001_000003_000005_000007_000031_000015_000075_000073_000237_000273_000865_000743_002607_007611_018441_012703,
  1_012954_000001_000001_000001_000009_000027_000009_000035_000137_000265_000181_001341_001945_005615_000161_018369_004791,
  1_012956_000001_000003_000007_000011_000027_000029_000029_000043_000489_000177_001489_002927_000623_014571_022447_046905,
  1_012959_000001_000003_000003_000003_000019_000041_000107_000053_000239_000263_001433_001655_007991_007405_002735_025519,
  1_012978_000001_000003_000005_000007_000019_000037_000073_000243_000215_000445_001781_003223_000187_008443_018185_045093,
  1_013001_000001_000001_000003_000013_000009_000057_000111_000111_000221_000505_001261_003045_001655_016247_021033_017993,
  1_013010_000001_000001_000007_000005_000007_000055_000077_000005_000131_000969_001481_002883_002645_003003_005601_037063,
  1_013043_000001_000001_000005_000015_000029_000055_000039_000197_000349_000029_000341_000067_001977_000425_004063_042705,
  1_013049_000001_000001_000007_000013_000001_000057_000081_000081_000129_000681_001407_002465_003627_002325_031649_018449,
  1_013058_000001_000003_000005_000005_000023_000059_000035_000217_000393_000155_001315_000105_002285_005167_027997_055193,
  1_013112_000001_000001_000007_000003_000011_000059_000053_000179_000319_000819_000947_003881_000765_004219_016405_048055,
  1_013140_000001_000001_000003_000009_000023_000009_000067_000067_000137_000523_001585_002441_000167_005217_012031_014297,
  1_013149_000001_000001_000005_000013_000031_000063_000121_000091_000439_000917_000203_001519_004363_002391_025755_026677,
  1_013163_000001_000001_000003_000005_000025_000031_000011_000095_000339_000817_000035_003923_007365_010537_005521_054579,
  1_013187_000001_000003_000007_000001_000003_000033_000047_000013_000139_000445_001357_003907_007495_008789_026589_043479,
  1_013196_000001_000001_000001_000011_000005_000045_000061_000013_000167_000287_000931_000881_005713_012937_012951_021597,
  1_013237_000001_000003_000005_000001_000029_000023_000007_000117_000503_000897_000733_001113_007205_011507_000561_034011,
  1_013244_000001_000003_000005_000007_000003_000051_000021_000147_000035_000259_000689_003801_002481_009673_004065_000595,
  1_013264_000001_000003_000003_000009_000009_000029_000005_000191_000393_000979_001627_000937_000075_002339_024007_030555,
  1_013279_000001_000001_000005_000007_000009_000035_000111_000023_000113_000563_001689_001575_006127_009919_002555_052261,
  1_013292_000001_000003_000001_000005_000031_000021_000117_000159_000473_000279_001281_000311_000159_003343_027761_059989,
  1_013295_000001_000001_000005_000001_000023_000031_000067_000241_000401_000069_000933_000777_000267_012411_023767_009047,
  1_013307_000001_000001_000005_000001_000015_000049_000099_000015_000267_000913_001581_003713_000651_014275_010103_057619,
  1_013312_000001_000003_000005_000009_000019_000023_000095_000005_000449_000153_001195_001315_002347_012683_010865_050703,
  1_013317_000001_000001_000001_000013_000017_000017_000115_000031_000135_000725_000795_001695_006199_004179_005223_048457,
  1_013327_000001_000003_000005_000015_000031_000015_000003_000247_000385_000269_001665_000581_002809_006333_007459_014815,
  1_013348_000001_000003_000007_000005_000015_000035_000117_000085_000011_000621_001523_000981_000511_014113_004673_022683,
  1_013390_000001_000001_000007_000001_000027_000061_000119_000249_000431_000147_000173_000423_001353_004747_012761_032947,
  1_013413_000001_000003_000007_000001_000023_000039_000015_000153_000219_000359_001233_000169_002817_011043_012435_030135,
  1_013417_000001_000001_000005_000001_000001_000055_000039_000001_000151_000865_000125_002351_006315_001165_020163_043991,
  1_013418_000001_000001_000003_000009_000025_000041_000115_000221_000129_000265_001887_004057_007523_013591_005735_059645,
  1_013451_000001_000001_000005_000005_000019_000015_000009_000077_000511_000627_000153_002015_000247_015949_009715_045411,
  1_013475_000001_000001_000007_000007_000017_000017_000107_000183_000039_000647_001339_003915_004937_000537_027011_058937,
  1_013482_000001_000003_000003_000013_000003_000003_000069_000201_000431_000065_000683_000121_007017_002791_016713_062555,
  1_013510_000001_000003_000007_000003_000007_000041_000117_000237_000023_000757_000545_003899_001837_005555_007891_029151,
  1_013527_000001_000001_000001_000003_000027_000015_000039_000195_000353_000299_001431_002279_001795_013773_024915_049701,
  1_013543_000001_000001_000005_000005_000007_000007_000125_000005_000401_000523_001967_002471_007279_007559_012025_060599,
  1_013547_000001_000001_000001_000013_000013_000059_000013_000249_000465_000847_001483_000975_007729_002773_015745_051237,
  1_013627_000001_000001_000007_000009_000031_000041_000115_000141_000247_000355_001109_003239_006495_004515_030145_047705,
  1_013650_000001_000001_000003_000013_000029_000041_000069_000179_000045_000271_001909_003095_007199_014049_009903_033383,
  1_013683_000001_000001_000003_000013_000007_000045_000105_000105_000243_000121_000067_003169_000237_000137_004175_054325,
  1_013696_000001_000003_000003_000011_000019_000051_000093_000155_000079_000579_001621_001251_007639_015875_025815_056063,
  1_013702_000001_000003_000003_000009_000027_000027_000077_000045_000217_000965_001045_000875_004515_011261_027859_000757,
  1_013713_000001_000001_000003_000011_000017_000007_000081_000037_000299_000765_000977_003371_003163_013267_018345_009239,
  1_013739_000001_000001_000001_000003_000015_000023_000115_000011_000183_000511_000557_003253_000153_008465_022659_042143,
  1_013749_000001_000001_000005_000013_000017_000061_000127_000219_000225_000981_000615_000731_004069_012637_011601_038257,
  1_013767_000001_000001_000005_000003_000029_000003_000073_000079_000393_000779_000823_002473_003811_004417_009399_050011,
  1_013774_000001_000003_000003_000009_000021_000035_000061_000099_000115_000657_000629_001129_002355_012665_000459_040831,
  1_013781_000001_000003_000001_000007_000025_000061_000053_000249_000015_000649_000665_000595_001441_008035_005381_007147,
  1_013795_000001_000003_000001_000007_000019_000009_000027_000207_000205_000461_001069_004039_006549_002333_000029_050067,
  1_013821_000001_000001_000005_000003_000015_000007_000115_000205_000071_000073_000053_000071_006049_015293_017041_020313,
  1_013825_000001_000001_000007_000007_000009_000007_000119_000099_000357_000729_002041_003355_005333_001263_030521_064867,
  1_013838_000001_000001_000001_000007_000031_000063_000063_000159_000281_000295_000913_002161_008033_013789_017711_014915,
  1_013852_000001_000001_000007_000009_000029_000055_000069_000129_000453_000361_001883_000017_001765_000111_010311_055019,
  1_013879_000001_000001_000005_000009_000021_000015_000031_000057_000291_000915_000945_001775_005905_009073_003271_015571,
  1_013888_000001_000001_000001_000007_000021_000011_000001_000009_000167_000143_001535_001267_006675_013037_019513_052027,
  1_013897_000001_000003_000003_000007_000031_000045_000057_000105_000063_000121_000631_000679_003873_016333_032069_064725,
  1_013906_000001_000001_000001_000009_000023_000041_000029_000207_000489_000319_000905_003147_004195_002697_005281_001771,
  1_013939_000001_000001_000001_000009_000025_000033_000057_000201_000405_000111_000407_003489_000449_008601_001273_042105,
  1_013962_000001_000001_000001_000003_000019_000045_000123_000159_000237_000173_000781_000787_007537_015453_025567_053729,
  1_013981_000001_000001_000007_000003_000029_000009_000089_000207_000345_000685_001701_002859_008065_009289_002459_028367,
  1_013985_000001_000003_000001_000003_000031_000041_000055_000241_000081_001001_000595_001725_000853_011427_020617_001717,
  1_014020_000001_000001_000003_000003_000009_000045_000121_000069_000177_001017_000211_002753_006923_001387_032063_045337,
  1_014030_000001_000001_000005_000015_000021_000023_000095_000061_000485_000403_000619_003035_004881_013423_017815_035221,
  1_014041_000001_000001_000003_000003_000003_000059_000023_000069_000077_000309_000227_002877_003739_003539_020083_023415,
  1_014047_000001_000003_000007_000003_000017_000043_000095_000239_000223_000353_001237_003239_001369_007245_032401_063889,
  1_014048_000001_000001_000001_000005_000025_000063_000123_000003_000291_000819_000793_000241_005619_008871_018341_002757,
  1_014066_000001_000003_000007_000015_000003_000021_000017_000097_000395_000333_000909_003783_003635_000751_024227_044281,
  1_014092_000001_000003_000007_000013_000029_000049_000123_000195_000191_000159_000211_001887_003047_004871_002607_032425,
  1_014120_000001_000001_000007_000007_000015_000057_000091_000255_000267_000897_000441_001581_000953_006951_017275_050229,
  1_014126_000001_000003_000007_000015_000001_000035_000091_000219_000007_000117_000119_002687_001215_009517_010849_028347,
  1_014131_000001_000001_000001_000001_000021_000055_000067_000221_000503_000883_001037_002965_001485_008557_028091_025459,
  1_014143_000001_000003_000005_000009_000019_000003_000073_000123_000095_000307_001339_003669_005077_012049_000523_021457,
  1_014146_000001_000003_000001_000013_000003_000001_000111_000097_000371_000697_001989_003715_007875_006841_007009_017809,
  1_014152_000001_000001_000001_000009_000025_000021_000019_000043_000329_000531_000491_001147_001469_012841_029651_029517,
  1_014155_000001_000001_000005_000001_000015_000063_000101_000197_000477_000245_000341_000061_003803_010001_005519_019083,
  1_014157_000001_000003_000007_000005_000013_000043_000007_000143_000291_000531_001727_000871_007091_005737_024285_051017,
  1_014188_000001_000003_000005_000001_000017_000013_000015_000085_000361_000153_000989_001367_004705_003599_004441_052471,
  1_014206_000001_000001_000007_000013_000021_000043_000111_000029_000299_000439_001929_000283_005901_014113_003929_055843,
  1_014243_000001_000003_000003_000009_000031_000059_000063_000043_000091_000171_000733_001359_000425_008505_019777_054723,
  1_014278_000001_000001_000005_000007_000031_000001_000097_000253_000331_000307_001749_002115_002535_009945_011013_014231,
  1_014308_000001_000001_000005_000011_000013_000007_000109_000237_000301_000383_000683_001603_006393_002437_012101_001767,
  1_014317_000001_000001_000003_000011_000015_000061_000119_000199_000109_000265_001431_001729_003409_010129_016945_034681,
  1_014335_000001_000003_000007_000009_000013_000059_000121_000073_000029_000513_000279_000457_007985_015199_010185_033621,
  1_014354_000001_000003_000007_000007_000023_000017_000027_000065_000387_000487_001803_002789_000461_011201_007001_040229,
  1_014356_000001_000001_000003_000015_000009_000013_000055_000127_000033_000513_001055_000643_000505_003005_006121_064147,
  1_014379_000001_000003_000005_000015_000005_000011_000077_000233_000175_000691_000171_002491_006915_014195_007845_036499,
  1_014381_000001_000001_000005_000011_000019_000045_000103_000207_000099_000645_001739_001517_005907_016035_014559_044007,
  1_014384_000001_000003_000007_000015_000021_000027_000053_000107_000089_000291_000983_003527_001025_002985_013747_032715,
  1_014389_000001_000001_000003_000015_000023_000017_000027_000209_000077_000959_000813_003597_005809_000693_010325_016855]

def dirRows16_0_9 : List Nat := [
  1_014390_000001_000001_000007_000011_000023_000053_000123_000099_000211_000935_001371_001657_004699_002683_027933_021451,
  1_014414_000001_000003_000003_000003_000017_000021_000093_000201_000423_000351_001639_000227_005719_013111_005993_044615,
  1_014425_000001_000001_000007_000003_000013_000049_000059_000255_000213_000147_001441_003593_006419_015657_001947_062713,
  1_014462_000001_000003_000001_000007_000007_000041_000079_000135_000275_000585_000925_003139_004351_001827_023533_063031,
  1_014472_000001_000001_000007_000003_000011_000001_000013_000149_000029_000897_001043_002393_003931_006741_019973_046303,
  1_014508_000001_000001_000001_000013_000013_000057_000009_000253_000149_000067_001531_004049_003013_013947_003371_035317,
  1_014511_000001_000003_000001_000001_000015_000019_000011_000125_000179_000383_001273_001551_006441_006579_019659_031005,
  1_014519_000001_000001_000003_000015_000029_000037_000011_000199_000273_000663_000549_003167_002049_008815_030719_047905,
  1_014528_000001_000001_000001_000015_000007_000009_000113_000231_000155_000027_000419_001303_004493_005633_005743_051335,
  1_014561_000001_000003_000005_000013_000021_000035_000007_000063_000391_000637_002011_000841_005933_010563_007593_034767,
  1_014574_000001_000003_000001_000015_000019_000013_000089_000127_000507_000715_001305_002989_007551_001953_026101_054913,
  1_014588_000001_000001_000005_000001_000001_000033_000101_000211_000173_000761_000177_002721_006949_015801_006639_021405,
  1_014594_000001_000003_000001_000013_000015_000023_000113_000177_000043_000743_000057_003875_007833_013619_017637_005547,
  1_014606_000001_000001_000003_000013_000021_000007_000123_000083_000391_000731_000597_002595_001949_014619_017141_060595,
  1_014614_000001_000003_000007_000013_000031_000055_000015_000043_000017_000855_000233_001411_001063_012977_022159_059185,
  1_014639_000001_000003_000007_000007_000017_000053_000067_000037_000245_000941_001213_001965_006635_010189_012979_063503,
  1_014641_000001_000001_000005_000015_000031_000023_000015_000175_000177_000643_001705_003541_002009_012005_027281_016821,
  1_014648_000001_000003_000001_000013_000027_000037_000001_000171_000255_000445_000171_003555_008169_000399_020975_036195,
  1_014668_000001_000003_000007_000011_000013_000015_000123_000065_000173_000317_001991_002093_008073_012831_015455_030175,
  1_014673_000001_000003_000001_000007_000005_000053_000059_000219_000407_000501_000875_002627_001335_014387_025523_028337,
  1_014679_000001_000003_000003_000013_000013_000041_000093_000125_000041_000461_000887_001085_003393_011945_016329_043531,
  1_014695_000001_000003_000001_000011_000021_000039_000001_000185_000429_000285_000443_001165_000451_010903_031511_050555,
  1_014702_000001_000001_000007_000005_000011_000025_000061_000171_000493_000733_000215_001871_007783_014113_002061_058961,
  1_014704_000001_000001_000007_000007_000027_000023_000053_000045_000131_000301_000275_003855_004883_006303_025269_012697,
  1_014740_000001_000003_000005_000007_000011_000015_000071_000101_000377_000803_001369_003741_000633_010571_030659_031101,
  1_014754_000001_000001_000005_000015_000019_000053_000003_000153_000411_000685_001405_000109_005755_013311_003713_024579,
  1_014774_000001_000001_000003_000003_000027_000007_000089_000039_000005_000853_001757_002927_002889_009735_017959_039301,
  1_014792_000001_000003_000001_000003_000013_000041_000057_000071_000187_000285_000825_001807_007261_002645_021861_001839,
  1_014797_000001_000003_000003_000005_000015_000021_000023_000007_000341_000981_000891_000721_007221_003137_028725_054993,
  1_014806_000001_000001_000005_000003_000003_000061_000059_000097_000205_000359_000185_003361_007637_015473_006351_062097,
  1_014812_000001_000001_000001_000009_000013_000011_000123_000071_000199_000251_000535_000371_001605_012107_013833_002019,
  1_014856_000001_000001_000007_000013_000027_000001_000043_000073_000409_000601_001481_000649_003293_012257_023377_017225,
  1_014876_000001_000001_000007_000011_000015_000055_000099_000045_000261_000461_001507_003575_004425_009895_020191_061863,
  1_014900_000001_000003_000007_000001_000003_000007_000019_000085_000139_000691_001685_000137_007547_016143_014193_052479,
  1_014910_000001_000003_000005_000009_000017_000061_000007_000189_000031_000641_001381_003999_004909_008463_031761_054493,
  1_014912_000001_000001_000005_000015_000017_000015_000069_000111_000055_001011_001859_002643_006043_005125_015875_000611,
  1_014915_000001_000001_000003_000005_000003_000033_000073_000227_000327_000369_000189_001841_005625_001179_018651_034951,
  1_014922_000001_000003_000007_000013_000001_000017_000109_000149_000089_000889_000799_003423_002599_014525_012763_023855,
  1_014939_000001_000001_000003_000015_000005_000063_000087_000007_000063_000171_001215_000557_003009_016305_023517_040101,
  1_014946_000001_000001_000003_000003_000029_000031_000079_000183_000401_000813_000041_001111_005669_015697_007813_010215,
  1_014955_000001_000001_000005_000007_000009_000025_000025_000057_000343_000375_000535_003405_001909_003201_002417_052285,
  1_014966_000001_000001_000005_000009_000025_000019_000033_000183_000029_000991_001045_002249_002933_012525_013943_010423,
  1_014976_000001_000003_000001_000007_000003_000045_000049_000037_000429_000067_000821_001289_007311_016165_025861_057715,
  1_014986_000001_000001_000007_000003_000019_000003_000033_000153_000505_000683_000611_001691_006421_015517_019161_049013,
  1_014993_000001_000003_000007_000007_000021_000021_000085_000055_000293_000199_001671_001881_007147_008241_016173_051873,
  1_015012_000001_000003_000001_000015_000003_000061_000097_000191_000435_000511_001599_002705_001897_002607_001801_048583,
  1_015041_000001_000001_000005_000003_000009_000023_000023_000185_000401_000947_000033_000385_007491_014129_014561_013759,
  1_015053_000001_000003_000005_000015_000019_000021_000037_000233_000149_000673_000029_001315_003487_006705_028283_043135,
  1_015056_000001_000001_000001_000011_000009_000035_000101_000255_000345_000829_000689_002747_002145_002101_024863_035529,
  1_015059_000001_000003_000007_000009_000005_000005_000053_000247_000157_000729_001621_000129_002485_005371_011115_047771,
  1_015110_000001_000001_000003_000009_000029_000029_000013_000229_000087_000281_001119_001085_004423_001667_027067_050397,
  1_015116_000001_000001_000003_000007_000011_000029_000077_000085_000121_000495_000501_003209_003531_002307_011367_034135,
  1_015133_000001_000001_000007_000009_000003_000037_000033_000209_000493_000869_000367_003221_001643_003353_022851_004313,
  1_015134_000001_000001_000001_000007_000015_000053_000027_000017_000029_000345_000821_001831_001963_010089_005101_032689,
  1_015137_000001_000001_000003_000009_000009_000061_000031_000215_000497_000591_001301_000157_003329_013877_009017_034673,
  1_015147_000001_000001_000005_000001_000029_000049_000093_000139_000279_000167_000143_000279_006145_006247_000519_008869,
  1_015182_000001_000003_000003_000001_000025_000041_000081_000219_000505_000335_001941_002963_000413_000775_004181_055269,
  1_015203_000001_000001_000001_000011_000027_000023_000091_000009_000497_000811_001469_001999_005377_002943_017635_011151,
  1_015215_000001_000001_000005_000015_000017_000023_000015_000235_000271_000749_001873_003805_005405_007421_024339_014351,
  1_015245_000001_000003_000007_000001_000005_000061_000081_000009_000269_000043_001391_002711_006973_011299_002263_008715,
  1_015246_000001_000001_000005_000013_000011_000001_000069_000235_000025_000227_000063_002591_000913_012555_006263_038981,
  1_015264_000001_000003_000001_000007_000017_000007_000097_000251_000149_000959_001895_001179_004031_015975_020313_064067,
  1_015269_000001_000003_000007_000015_000003_000017_000085_000229_000149_000925_000585_003755_002359_013131_012665_028861,
  1_015296_000001_000003_000003_000009_000005_000031_000107_000093_000347_000851_001249_002161_006095_008315_020259_039527,
  1_015314_000001_000003_000007_000007_000021_000063_000085_000241_000501_000627_001211_001713_006907_004229_007557_055719,
  1_015323_000001_000001_000001_000013_000019_000043_000021_000177_000013_000353_000679_000511_005565_000993_025345_025087,
  1_015364_000001_000003_000003_000015_000021_000015_000087_000083_000381_000547_001429_002417_002425_002097_020889_012353,
  1_015386_000001_000003_000001_000011_000023_000021_000069_000147_000427_000271_001829_000525_002951_010773_032425_017685,
  1_015391_000001_000003_000001_000007_000015_000055_000021_000131_000195_000927_000635_003505_003817_014883_001149_010079,
  1_015436_000001_000003_000003_000009_000023_000015_000045_000147_000249_000087_000377_001551_004343_015373_002895_044973,
  1_015460_000001_000003_000001_000007_000031_000063_000067_000107_000109_001019_000815_000231_008135_000559_008175_021735,
  1_015464_000001_000001_000005_000007_000007_000063_000103_000133_000167_000883_001647_002827_006015_008541_016963_037129,
  1_015469_000001_000003_000005_000009_000027_000025_000059_000147_000029_000943_000865_001233_002165_015259_002235_025831,
  1_015470_000001_000001_000005_000007_000025_000005_000067_000089_000493_000111_000359_001115_007963_006545_007749_029179,
  1_015477_000001_000003_000007_000005_000019_000017_000089_000195_000337_000115_001417_003837_004761_001959_016205_061597,
  1_015488_000001_000001_000005_000011_000025_000043_000003_000111_000491_000897_001541_000909_004751_000739_007827_064485,
  1_015494_000001_000001_000005_000015_000019_000061_000039_000111_000451_000419_001657_002427_004589_005577_023967_019259,
  1_015548_000001_000003_000003_000001_000031_000015_000007_000131_000329_000847_000537_001775_003833_005683_017267_016389,
  1_015551_000001_000001_000007_000001_000009_000029_000013_000025_000409_000513_001695_002175_005099_000727_005723_043547,
  1_015560_000001_000001_000005_000007_000013_000011_000029_000123_000127_000193_001647_003157_002149_016209_019909_014473,
  1_015563_000001_000001_000001_000015_000015_000037_000125_000157_000487_000143_001891_002895_004397_010685_001463_055027,
  1_015604_000001_000003_000007_000001_000001_000015_000115_000105_000479_000529_001095_002687_004483_015027_015487_007113,
  1_015607_000001_000001_000003_000009_000023_000063_000113_000211_000155_000931_000175_003037_002359_010413_024561_021099,
  1_015616_000001_000003_000003_000011_000005_000015_000013_000037_000257_000447_000203_000545_002467_009979_017543_062703,
  1_015631_000001_000001_000003_000007_000017_000031_000083_000091_000079_000265_001415_002347_005337_007615_027739_033841,
  1_015699_000001_000003_000005_000007_000017_000063_000037_000153_000347_000909_001945_000007_002071_015195_032083_026713,
  1_015701_000001_000001_000003_000011_000019_000051_000069_000021_000323_000635_000443_001685_006275_013787_020921_045553,
  1_015708_000001_000003_000003_000007_000015_000035_000067_000247_000257_000429_002029_000523_003219_003893_026677_053273,
  1_015739_000001_000001_000007_000009_000009_000003_000119_000121_000445_000149_001539_001887_002995_014867_000809_048065,
  1_015746_000001_000003_000005_000013_000015_000027_000075_000009_000217_000035_001363_002383_004357_001153_020565_062277,
  1_015772_000001_000001_000007_000001_000021_000001_000011_000053_000331_000765_000407_000453_002725_011199_000645_014915,
  1_015793_000001_000001_000005_000001_000029_000011_000005_000159_000395_000053_000323_001347_005529_008525_024003_020535,
  1_015832_000001_000003_000003_000015_000009_000019_000087_000181_000391_000639_000703_000611_000997_000359_002471_058465,
  1_015837_000001_000003_000005_000009_000027_000009_000117_000047_000223_000509_001537_001235_003885_006767_017131_063421,
  1_015866_000001_000001_000005_000001_000015_000015_000113_000067_000477_000597_001795_003065_004565_003609_016419_019667,
  1_015899_000001_000001_000007_000011_000001_000063_000033_000211_000271_000773_000499_002309_001303_014015_030377_053195,
  1_015911_000001_000001_000007_000011_000005_000023_000017_000183_000321_000315_000203_003371_000907_009331_021031_033765,
  1_015918_000001_000003_000003_000007_000007_000053_000111_000069_000441_000283_000195_002415_007293_007659_002731_005417,
  1_015952_000001_000003_000005_000015_000003_000061_000005_000241_000427_000463_001729_000653_007671_010979_007247_036931,
  1_015962_000001_000003_000001_000009_000003_000005_000105_000117_000465_000853_002005_003925_004419_004441_003701_050747]

def dirRows16_0_10 : List Nat := [
  1_015967_000001_000001_000003_000007_000001_000003_000003_000149_000065_000405_000299_000099_000481_014323_011565_006227,
  1_015973_000001_000003_000007_000005_000029_000003_000019_000003_000253_000895_000879_002435_002151_010673_011013_043055,
  1_015977_000001_000003_000001_000011_000015_000057_000127_000197_000319_000913_001039_000811_007767_005791_031725_008733,
  1_016016_000001_000001_000007_000003_000013_000025_000025_000081_000229_000185_000039_002789_000579_004973_028617_060871,
  1_016035_000001_000001_000007_000003_000025_000017_000041_000007_000103_000269_000055_002651_007579_010935_008917_014323,
  1_016044_000001_000003_000007_000007_000013_000007_000099_000205_000293_000877_001893_003013_002389_006021_002645_018175,
  1_016067_000001_000001_000003_000007_000009_000039_000059_000187_000191_000761_000339_003381_002921_005197_016963_043019,
  1_016082_000001_000003_000003_000013_000007_000023_000041_000203_000311_000981_000323_001675_006689_000579_003885_064475,
  1_016084_000001_000003_000005_000015_000021_000039_000035_000193_000167_001009_000493_000829_006571_001299_013061_001163,
  1_016098_000001_000001_000003_000005_000003_000019_000123_000123_000111_000599_000193_003419_007173_005595_012449_052247,
  1_016107_000001_000003_000005_000011_000009_000025_000065_000049_000239_000953_000481_003455_004335_000305_022469_011949,
  1_016142_000001_000001_000003_000007_000015_000001_000013_000077_000147_000049_001445_000931_003405_015951_015215_026451,
  1_016149_000001_000003_000001_000001_000021_000053_000017_000007_000247_000243_000805_000795_000489_013351_013493_030937,
  1_016165_000001_000003_000007_000005_000005_000013_000039_000115_000397_000757_000423_002559_001677_009449_024563_000869,
  1_016172_000001_000001_000003_000011_000023_000009_000027_000233_000165_000853_001721_000599_000551_011657_027623_040119,
  1_016178_000001_000001_000003_000001_000003_000047_000075_000207_000113_000417_001317_002215_002395_001841_023125_050401,
  1_016197_000001_000003_000003_000001_000013_000055_000103_000055_000351_000785_001665_003603_007705_004811_021129_038115,
  1_016201_000001_000001_000001_000005_000005_000049_000093_000189_000317_000701_001545_001017_004133_007655_019827_052155,
  1_016215_000001_000003_000003_000013_000017_000037_000007_000249_000139_000529_000235_003801_007871_000459_015127_013231,
  1_016221_000001_000003_000007_000005_000007_000063_000099_000241_000131_000455_001287_003539_008029_012661_023313_054029,
  1_016226_000001_000003_000001_000003_000029_000063_000051_000227_000497_000685_001351_000449_007851_010815_017379_062097,
  1_016232_000001_000003_000001_000011_000025_000061_000073_000029_000467_000533_000855_000853_005557_010953_018307_027135,
  1_016246_000001_000001_000007_000003_000013_000049_000063_000171_000177_000283_001365_003087_005445_015109_012523_025193,
  1_016261_000001_000003_000005_000015_000009_000039_000095_000081_000417_000199_001653_003673_002663_008101_012199_022759,
  1_016279_000001_000001_000003_000009_000029_000015_000029_000215_000021_000721_000245_001197_007251_005721_006735_007751,
  1_016280_000001_000003_000005_000005_000021_000007_000081_000061_000157_000707_000819_001689_004203_005559_025483_043325,
  1_016290_000001_000001_000007_000013_000015_000051_000047_000197_000269_000921_000353_002865_006227_000537_020015_053823,
  1_016314_000001_000001_000003_000005_000013_000025_000091_000221_000111_000587_001119_002343_004651_004641_015915_036323,
  1_016345_000001_000001_000007_000011_000001_000045_000007_000215_000483_000545_000731_003041_003121_008681_020651_004069,
  1_016355_000001_000003_000007_000013_000013_000027_000109_000065_000103_000805_000299_002069_006017_014565_020505_016161,
  1_016361_000001_000001_000007_000005_000011_000033_000105_000213_000237_000583_001033_002333_000845_006493_000505_002563,
  1_016393_000001_000001_000005_000007_000003_000005_000011_000173_000373_000341_000269_000177_003175_009413_000601_013591,
  1_016394_000001_000001_000005_000013_000007_000057_000061_000187_000121_000405_000665_000111_007535_003355_014051_000511,
  1_016438_000001_000001_000001_000003_000003_000029_000015_000253_000227_000123_000333_001343_007313_001955_017741_030831,
  1_016450_000001_000003_000005_000001_000005_000047_000065_000183_000199_000839_000925_002711_004609_000201_015177_029817,
  1_016507_000001_000003_000007_000009_000021_000063_000005_000163_000265_000581_001795_003937_004641_002073_032225_060831,
  1_016523_000001_000001_000001_000005_000007_000047_000125_000203_000511_000841_001937_003431_001495_012827_005893_019265,
  1_016533_000001_000001_000005_000005_000009_000049_000017_000247_000391_000241_000003_002253_006319_000089_004449_006371,
  1_016603_000001_000003_000001_000001_000031_000007_000051_000061_000461_000391_000273_001609_005825_016029_003851_039213,
  1_016648_000001_000003_000003_000007_000029_000021_000065_000075_000317_000925_001319_003827_000965_005685_017007_064365,
  1_016653_000001_000003_000001_000005_000023_000023_000109_000059_000031_000659_000635_002209_000857_009847_002507_018325,
  1_016672_000001_000001_000001_000001_000017_000051_000053_000077_000461_000147_000229_002821_002405_001259_001121_017429,
  1_016682_000001_000003_000005_000003_000031_000003_000057_000157_000321_000731_001609_002139_000899_012599_019803_051083,
  1_016709_000001_000001_000003_000011_000027_000043_000073_000209_000431_000587_001247_002803_003593_001351_018701_033423,
  1_016713_000001_000003_000005_000013_000027_000019_000067_000245_000339_000879_002035_001801_005845_003883_022057_015771,
  1_016719_000001_000001_000003_000011_000011_000055_000093_000051_000057_000127_001325_003975_003989_002347_018831_002979,
  1_016733_000001_000001_000001_000013_000017_000001_000017_000103_000303_000777_001973_002943_007439_008953_027227_010229,
  1_016740_000001_000003_000003_000015_000001_000041_000053_000219_000415_000399_000995_000205_007719_010937_031879_000755,
  1_016761_000001_000003_000007_000009_000013_000007_000099_000093_000419_001019_001605_000161_003831_009147_007877_001333,
  1_016767_000001_000003_000007_000015_000005_000051_000037_000115_000259_000549_000353_002067_007657_001283_020333_002325,
  1_016771_000001_000001_000003_000003_000023_000033_000063_000233_000363_000719_001099_000471_003079_010577_019063_031535,
  1_016788_000001_000003_000007_000015_000023_000019_000109_000105_000497_000881_001055_000537_004607_000239_022785_060201,
  1_016811_000001_000003_000003_000005_000019_000011_000001_000207_000163_000437_000713_000667_001427_007505_028055_043101,
  1_016814_000001_000003_000005_000005_000025_000045_000075_000009_000109_000545_000573_002685_001013_002973_018619_055945,
  1_016816_000001_000001_000001_000003_000027_000027_000039_000033_000285_000453_000613_002707_002155_004355_021105_007969,
  1_016828_000001_000003_000003_000009_000001_000031_000071_000101_000491_000409_000065_001479_005743_000525_002863_053657,
  1_016834_000001_000001_000003_000001_000017_000063_000055_000011_000125_000447_000275_002243_006827_005753_032401_013819,
  1_016863_000001_000001_000003_000009_000021_000047_000005_000127_000285_000471_001681_000945_006141_005651_010273_030811,
  1_016864_000001_000003_000003_000001_000013_000053_000091_000003_000255_000429_000107_002937_002971_010251_015009_037477,
  1_016879_000001_000001_000007_000013_000021_000063_000073_000003_000063_000491_000101_001981_007457_000879_006243_022275,
  1_016888_000001_000003_000001_000001_000011_000043_000121_000101_000293_000639_000645_002723_002075_003629_022105_018199,
  1_016904_000001_000001_000003_000001_000031_000009_000069_000097_000511_000663_001147_001237_000389_000255_008661_038533,
  1_016909_000001_000003_000003_000007_000003_000013_000023_000071_000197_000439_002003_001771_008073_001549_029089_005409,
  1_016921_000001_000003_000001_000001_000009_000023_000001_000221_000159_000699_000593_003385_003869_010105_022097_034753,
  1_016934_000001_000001_000007_000001_000029_000047_000041_000137_000333_000357_000325_003151_006641_003823_008763_028327,
  1_016951_000001_000003_000001_000007_000019_000019_000039_000225_000477_000619_000583_000229_006177_009615_001203_013711,
  1_016983_000001_000001_000003_000013_000009_000041_000127_000147_000013_000301_000861_002019_003517_001147_021587_042387,
  1_016999_000001_000001_000005_000011_000009_000063_000011_000121_000251_000199_000483_002287_004667_003887_010611_006019,
  1_017000_000001_000001_000003_000013_000023_000019_000089_000073_000355_000399_000749_000687_005707_011443_000817_038967,
  1_017006_000001_000003_000005_000009_000003_000023_000115_000207_000373_000541_000073_001285_007245_012505_005787_061207,
  1_017020_000001_000003_000005_000015_000027_000037_000115_000203_000195_000793_001577_001283_007299_004025_005319_005375,
  1_017030_000001_000001_000007_000015_000025_000019_000061_000011_000215_000771_001057_000451_001965_013693_025617_042657,
  1_017033_000001_000003_000003_000007_000001_000019_000023_000217_000175_000901_002009_002989_005111_005027_004805_037843,
  1_017044_000001_000003_000001_000011_000011_000037_000003_000131_000459_000769_000201_003979_003009_008691_027005_032175,
  1_017051_000001_000003_000005_000007_000027_000027_000117_000023_000403_001003_001501_000785_006313_010187_005085_030751,
  1_017072_000001_000001_000007_000003_000011_000041_000073_000151_000019_000657_000131_001901_003879_014995_024085_056621,
  1_017078_000001_000003_000007_000015_000023_000003_000061_000199_000067_000483_001961_003583_005937_005749_016685_011831,
  1_017084_000001_000001_000003_000015_000025_000015_000097_000009_000299_000641_000883_002901_000123_001523_007055_015609,
  1_017087_000001_000003_000005_000005_000031_000055_000019_000045_000239_000543_002005_001041_001711_011059_019927_017475,
  1_017090_000001_000001_000003_000009_000005_000059_000105_000209_000323_000613_001963_002227_002947_011761_021375_013265,
  1_017123_000001_000003_000003_000015_000001_000005_000117_000037_000093_000243_000305_002299_005163_009205_028761_035987,
  1_017132_000001_000001_000001_000005_000005_000029_000013_000147_000457_000187_001729_001547_007745_013155_007833_057449,
  1_017140_000001_000003_000003_000013_000001_000051_000049_000253_000023_000389_001611_003045_005909_003947_025105_003327,
  1_017149_000001_000003_000001_000011_000015_000047_000019_000015_000231_000057_000763_001879_001765_014861_022893_019437,
  1_017157_000001_000001_000003_000015_000001_000019_000085_000065_000139_000629_000361_003513_003807_000799_008349_029247,
  1_017164_000001_000003_000003_000013_000009_000011_000065_000201_000471_000089_000355_000121_003947_010775_003599_006041,
  1_017170_000001_000003_000007_000003_000005_000053_000033_000167_000431_000129_001449_003263_007691_012569_007551_041101,
  1_017179_000001_000001_000003_000015_000009_000041_000005_000239_000361_000773_000955_003663_006051_012889_005841_059615,
  1_017237_000001_000001_000007_000005_000005_000033_000097_000009_000495_000845_001953_003533_005715_015055_025211_009351,
  1_017248_000001_000003_000001_000011_000025_000037_000083_000153_000289_000739_000353_001121_007641_002081_028439_038085,
  1_017260_000001_000003_000001_000001_000027_000009_000063_000135_000395_000641_001759_003727_004371_005193_002783_012389,
  1_017272_000001_000003_000003_000015_000003_000009_000005_000153_000111_000675_001957_003817_004269_010787_003413_034199,
  1_017275_000001_000003_000005_000009_000023_000023_000097_000137_000255_000249_000333_002329_001055_013769_013109_033443,
  1_017287_000001_000001_000001_000015_000007_000037_000099_000219_000483_000755_000263_003523_006179_004817_029873_012771,
  1_017294_000001_000001_000003_000005_000023_000007_000077_000097_000105_000631_000175_001911_007271_001009_024081_061207,
  1_017296_000001_000003_000005_000003_000001_000031_000071_000091_000265_000669_001839_003989_008127_015001_001419_008895,
  1_017305_000001_000003_000001_000013_000027_000051_000093_000155_000049_000991_000653_000203_003863_005363_031969_036083,
  1_017312_000001_000003_000003_000007_000031_000027_000021_000073_000021_000675_000407_001215_002963_006799_015259_013125,
  1_017321_000001_000003_000005_000013_000005_000053_000019_000215_000243_000487_000689_002519_006393_003987_030847_037919,
  1_017367_000001_000003_000003_000007_000005_000031_000115_000231_000255_000955_002023_001487_006575_009873_022585_029951]

def dirRows16_0_11 : List Nat := [
  1_017368_000001_000003_000005_000011_000011_000057_000109_000203_000417_000029_001311_000893_001047_002413_009305_038219,
  1_017378_000001_000003_000001_000007_000023_000051_000113_000003_000105_000915_001145_003431_007331_003323_031669_021485,
  1_017433_000001_000001_000007_000013_000009_000029_000119_000205_000403_001023_000257_000863_002983_001895_016539_023385,
  1_017455_000001_000001_000007_000013_000027_000021_000047_000139_000341_000509_001107_002197_003649_014301_030789_048783,
  1_017457_000001_000003_000003_000007_000025_000019_000099_000011_000309_000919_001809_003015_001587_003779_001289_030207,
  1_017508_000001_000003_000005_000011_000009_000043_000057_000171_000009_000151_000173_002301_007723_002083_000319_052883,
  1_017559_000001_000001_000003_000001_000003_000013_000063_000011_000231_000117_001257_000237_000581_013871_015501_008741,
  1_017560_000001_000003_000005_000009_000013_000063_000055_000155_000291_000721_000123_000929_003351_011651_012513_001779,
  1_017582_000001_000003_000007_000003_000031_000005_000061_000081_000465_000639_001363_003157_002401_009513_032559_034477,
  1_017596_000001_000003_000001_000015_000027_000025_000003_000117_000277_000013_000707_003825_007287_010181_030127_057247,
  1_017599_000001_000001_000007_000011_000021_000021_000053_000017_000407_000851_001191_000285_006815_001595_025507_008099,
  1_017613_000001_000003_000005_000009_000009_000061_000083_000061_000065_000671_000063_000311_006897_015327_029809_004899,
  1_017619_000001_000001_000007_000001_000021_000045_000099_000235_000477_000461_001119_004087_002057_014861_031969_024357,
  1_017622_000001_000001_000007_000009_000031_000009_000065_000123_000281_000273_001059_001625_006265_009635_011563_045053,
  1_017655_000001_000003_000003_000007_000001_000041_000015_000023_000043_000727_001271_001741_000765_013265_004145_001335,
  1_017661_000001_000001_000003_000007_000017_000055_000107_000231_000263_000197_000659_003621_002789_005171_028635_013595,
  1_017698_000001_000001_000005_000001_000027_000023_000013_000083_000431_000507_001571_001573_001733_012171_008181_030843,
  1_017712_000001_000003_000007_000011_000001_000053_000107_000039_000497_000579_000453_001339_001415_010317_002741_034599,
  1_017715_000001_000003_000003_000005_000031_000041_000049_000041_000033_000665_001783_000087_000317_006603_022603_022879,
  1_017721_000001_000003_000001_000015_000005_000047_000041_000087_000231_000853_001615_002299_004643_009249_015641_014323,
  1_017722_000001_000003_000007_000009_000005_000045_000055_000153_000031_000247_000067_002335_006057_004379_027579_038437,
  1_017742_000001_000001_000005_000007_000009_000003_000073_000081_000479_000909_001097_003945_004485_007815_022855_020825,
  1_017778_000001_000003_000001_000015_000019_000043_000097_000057_000339_000167_000135_001777_007681_009715_013863_006347,
  1_017818_000001_000001_000001_000001_000005_000053_000033_000123_000449_000165_001283_002977_005919_012929_032073_061851,
  1_017836_000001_000001_000005_000015_000027_000027_000019_000157_000267_000651_001319_003841_007739_009947_016801_041325,
  1_017841_000001_000003_000007_000009_000019_000007_000083_000095_000401_000293_000437_001983_000119_007553_011097_011925,
  1_017856_000001_000001_000003_000005_000021_000001_000053_000201_000385_000843_001801_000099_002697_009659_028789_031417,
  1_017883_000001_000001_000005_000005_000029_000057_000103_000089_000077_000597_001849_003433_004267_011167_003841_044023,
  1_017896_000001_000001_000007_000001_000021_000047_000113_000253_000249_000431_001899_002859_007345_005725_014805_019999,
  1_017901_000001_000003_000003_000005_000001_000011_000077_000213_000359_000665_001855_002743_002407_014677_017957_063257,
  1_017926_000001_000003_000007_000013_000023_000029_000127_000183_000275_000849_001005_003159_003867_013029_007527_013035,
  1_017937_000001_000001_000001_000015_000029_000047_000081_000225_000077_000879_001279_001929_001457_002025_032229_002847,
  1_017992_000001_000001_000001_000003_000029_000045_000037_000189_000217_000053_000281_001785_001929_000763_005875_034303,
  1_017995_000001_000003_000001_000009_000021_000061_000021_000149_000215_000013_001221_000005_007153_014089_003119_033115,
  1_017998_000001_000003_000007_000011_000007_000057_000089_000185_000485_000649_001765_000747_002983_006791_025015_013627,
  1_018021_000001_000001_000001_000009_000011_000053_000077_000203_000425_000237_000487_002317_001047_008277_023405_030445,
  1_018039_000001_000001_000003_000005_000007_000029_000039_000195_000109_000381_000655_000931_004469_016215_010627_064171,
  1_018067_000001_000003_000001_000003_000005_000009_000089_000131_000509_000275_000489_003161_003701_011951_006579_042839,
  1_018122_000001_000003_000007_000013_000015_000037_000065_000091_000305_000433_001815_000169_003117_000047_030331_034863,
  1_018129_000001_000003_000003_000009_000021_000003_000021_000113_000025_000833_001579_004021_003481_000055_020833_046277,
  1_018130_000001_000001_000001_000005_000019_000037_000061_000229_000061_000363_000817_001235_006235_007261_029917_043057,
  1_018142_000001_000003_000001_000009_000007_000059_000119_000189_000341_000945_000633_003683_002589_015453_004989_040055,
  1_018148_000001_000001_000001_000005_000025_000063_000061_000073_000207_000205_001011_002857_008137_002121_026731_046011,
  1_018163_000001_000003_000007_000011_000013_000059_000107_000057_000049_000555_000441_001771_004939_012107_008263_016243,
  1_018192_000001_000003_000005_000013_000015_000049_000089_000217_000083_000225_002001_002727_004651_000619_016473_047525,
  1_018211_000001_000003_000005_000009_000005_000063_000115_000091_000337_000757_000703_000559_001683_014875_030769_030331,
  1_018228_000001_000003_000001_000015_000003_000003_000119_000079_000487_000519_000523_001177_007105_012343_024671_031711,
  1_018264_000001_000001_000007_000015_000025_000063_000087_000023_000059_000277_000849_000953_004567_011309_026181_000749,
  1_018347_000001_000003_000007_000015_000005_000033_000021_000127_000003_000239_000839_000997_007253_008183_019779_004185,
  1_018372_000001_000001_000005_000015_000025_000037_000099_000051_000465_000137_001339_000541_004319_009883_017425_030743,
  1_018409_000001_000003_000003_000005_000013_000007_000003_000249_000365_000749_000527_003675_003005_012905_009621_000899,
  1_018412_000001_000003_000003_000007_000029_000031_000069_000021_000365_001021_001329_002623_003549_005491_021293_063771,
  1_018418_000001_000001_000005_000009_000005_000035_000053_000247_000193_000017_000227_000381_005233_000821_003991_004439,
  1_018423_000001_000001_000007_000015_000005_000059_000027_000167_000489_000335_001565_002999_001777_005009_000519_057967,
  1_018433_000001_000001_000001_000011_000025_000047_000023_000155_000419_000863_001905_000355_001089_005871_010149_053341,
  1_018439_000001_000001_000007_000007_000029_000055_000127_000083_000033_000309_002017_001021_005987_001101_013657_060587,
  1_018445_000001_000001_000001_000007_000003_000001_000009_000075_000257_000407_000659_000529_002087_014759_014483_036425,
  1_018451_000001_000003_000007_000003_000011_000029_000113_000255_000301_000799_001171_003721_000135_003467_007109_050339,
  1_018467_000001_000001_000001_000007_000021_000025_000015_000031_000061_000491_000057_000189_002033_004363_031295_016313,
  1_018502_000001_000001_000005_000001_000005_000017_000033_000077_000483_000469_000355_002245_004165_000459_030411_029507,
  1_018514_000001_000001_000003_000013_000001_000027_000029_000085_000491_000787_001157_001299_004743_014795_032587_012807,
  1_018547_000001_000003_000003_000001_000023_000045_000035_000129_000003_000055_000969_002387_003929_010397_019879_002723,
  1_018575_000001_000001_000001_000007_000019_000003_000009_000023_000497_000347_002039_000913_005925_007965_005789_040949,
  1_018593_000001_000001_000007_000001_000029_000061_000089_000003_000133_000647_001585_002661_001875_001859_003937_012707,
  1_018613_000001_000003_000003_000007_000025_000011_000041_000149_000427_000463_000901_002433_002617_013511_003443_039867,
  1_018620_000001_000001_000001_000005_000027_000033_000103_000251_000201_001023_001979_003745_006365_014945_022153_055535,
  1_018637_000001_000003_000001_000015_000023_000025_000057_000215_000111_000181_000385_001123_003095_007085_031863_037393,
  1_018640_000001_000003_000005_000013_000017_000035_000027_000159_000255_000241_000413_001823_005329_001825_028489_058763,
  1_018712_000001_000003_000001_000015_000003_000033_000097_000027_000409_000889_000409_002315_004743_014827_003037_057149,
  1_018728_000001_000001_000003_000005_000019_000063_000093_000051_000233_000715_001571_001101_002751_014805_025683_013323,
  1_018742_000001_000003_000007_000003_000021_000015_000117_000179_000263_000229_000199_002597_003999_003037_003801_004775,
  1_018748_000001_000003_000003_000015_000001_000015_000049_000091_000383_000021_001955_000773_001213_005971_019525_008699,
  1_018753_000001_000003_000001_000015_000029_000049_000011_000101_000261_000761_000709_003811_004055_015675_032305_015173,
  1_018756_000001_000001_000001_000003_000009_000041_000127_000023_000413_000461_000237_001595_002257_002971_031845_061485,
  1_018771_000001_000001_000001_000011_000023_000013_000063_000021_000023_000209_001317_001071_003619_007275_009343_021455,
  1_018814_000001_000001_000005_000009_000031_000035_000041_000249_000477_000569_001175_001571_004679_010337_003507_023415,
  1_018818_000001_000003_000005_000011_000029_000003_000117_000065_000301_000913_001709_001765_001801_015513_031495_038131,
  1_018827_000001_000003_000005_000011_000027_000003_000071_000195_000081_000313_000505_003941_003797_002031_024151_065085,
  1_018835_000001_000001_000001_000005_000013_000017_000059_000151_000191_000489_001267_003207_004495_015145_012789_046313,
  1_018842_000001_000003_000001_000007_000029_000009_000025_000031_000033_000527_001939_004089_000333_000757_008895_025331,
  1_018854_000001_000001_000001_000001_000009_000027_000011_000205_000211_000141_001171_001881_004029_010587_030103_039661,
  1_018858_000001_000001_000003_000003_000023_000003_000023_000175_000355_000753_000183_001331_006403_003369_029891_011109,
  1_018895_000001_000003_000007_000003_000017_000025_000095_000145_000135_000525_001073_001841_003951_002027_023053_019699,
  1_018914_000001_000001_000005_000003_000011_000043_000117_000067_000299_000885_001095_002777_008185_014331_029543_000655,
  1_018925_000001_000003_000007_000007_000003_000059_000127_000147_000323_000713_000099_001179_006395_001821_012673_035587,
  1_018933_000001_000003_000005_000003_000007_000011_000033_000087_000099_000967_001443_001585_006215_015125_030747_021513,
  1_018937_000001_000003_000007_000011_000023_000005_000091_000171_000229_000601_000833_003157_001691_015081_020607_007643,
  1_018944_000001_000001_000003_000001_000005_000001_000039_000059_000157_000007_000601_002079_003045_003693_026511_013245,
  1_018973_000001_000003_000005_000009_000009_000027_000083_000135_000185_000379_002027_001407_007409_007363_026471_035907,
  1_019001_000001_000003_000007_000015_000029_000049_000001_000069_000383_000915_000183_003809_004511_008751_004715_007033,
  1_019012_000001_000003_000003_000003_000001_000017_000071_000233_000243_000933_001165_003089_003565_006521_013203_013065,
  1_019016_000001_000001_000005_000009_000009_000055_000053_000129_000331_000943_000587_002573_002247_015101_004987_062983,
  1_019027_000001_000003_000001_000013_000011_000043_000045_000127_000129_000857_000669_000321_003915_004477_026973_019911,
  1_019040_000001_000003_000001_000013_000015_000003_000083_000023_000013_000441_000953_002373_003539_004895_026327_061961,
  1_019074_000001_000001_000005_000013_000023_000011_000125_000083_000339_000901_001809_002691_003789_015007_010569_065399,
  1_019085_000001_000003_000001_000001_000017_000027_000105_000199_000435_000245_001227_003029_003911_001021_002931_024957,
  1_019093_000001_000003_000001_000011_000017_000005_000123_000039_000413_000627_001149_003925_006635_008959_031387_065047,
  1_019100_000001_000003_000005_000001_000023_000041_000093_000217_000021_000115_001311_003901_002559_002925_030755_007575,
  1_019107_000001_000001_000003_000009_000013_000011_000063_000171_000135_000983_001679_000395_007349_005153_026405_040589,
  1_019128_000001_000003_000007_000013_000027_000047_000053_000169_000085_000871_001087_000619_007399_009719_006349_059211]

def dirRows16_0_12 : List Nat := [
  1_019141_000001_000003_000003_000015_000031_000045_000003_000033_000011_000879_000929_001977_001939_001049_016159_041515,
  1_019142_000001_000003_000005_000011_000009_000027_000013_000023_000127_000747_001121_002497_008141_008601_012431_003243,
  1_019156_000001_000003_000007_000015_000023_000043_000023_000225_000283_000013_001837_002089_006435_010121_022307_058767,
  1_019169_000001_000001_000005_000011_000017_000003_000041_000221_000143_000669_000261_001367_007813_015265_032751_062007,
  1_019176_000001_000001_000001_000001_000005_000045_000041_000161_000327_000185_001403_000485_002831_010025_012555_047661,
  1_019222_000001_000003_000007_000001_000031_000055_000087_000083_000439_000929_000653_004095_005443_007361_027801_012979,
  1_019226_000001_000003_000001_000007_000001_000057_000011_000145_000055_000269_000711_001889_008023_007171_003247_035691,
  1_019247_000001_000001_000001_000003_000015_000001_000015_000131_000479_000797_000815_002343_001603_010775_021341_020825,
  1_019259_000001_000003_000005_000009_000003_000027_000031_000117_000441_000177_000215_003991_003197_008397_019195_003883,
  1_019262_000001_000001_000005_000013_000001_000019_000013_000027_000157_001001_000043_000251_007997_007495_016515_044287,
  1_019291_000001_000001_000003_000005_000017_000057_000117_000053_000413_000905_000551_000149_007531_014885_032493_034961,
  1_019309_000001_000003_000003_000007_000027_000001_000007_000013_000259_000021_000189_000451_006171_003603_012053_045619,
  1_019324_000001_000001_000007_000011_000005_000041_000059_000119_000419_000093_001399_000629_001269_003789_017035_061583,
  1_019334_000001_000003_000005_000011_000001_000011_000059_000083_000473_000273_000839_003111_003081_010159_006143_016297,
  1_019338_000001_000001_000005_000015_000025_000015_000017_000063_000275_000927_000189_000089_006595_004399_027201_057205,
  1_019343_000001_000001_000007_000003_000031_000017_000063_000203_000321_000655_001751_002985_003291_011567_015135_049747,
  1_019376_000001_000003_000005_000013_000027_000025_000089_000039_000299_000833_001269_000271_006481_003045_007203_020279,
  1_019408_000001_000003_000001_000001_000029_000013_000013_000037_000033_000563_001825_003257_003153_000963_025801_015861,
  1_019413_000001_000003_000005_000011_000015_000007_000049_000117_000479_000221_000579_002995_001673_014927_002869_035547,
  1_019420_000001_000003_000001_000011_000031_000011_000077_000161_000183_000187_001967_003037_004441_010547_001443_008619,
  1_019441_000001_000001_000003_000011_000027_000041_000083_000179_000293_000421_001395_001673_006375_009801_014265_018117,
  1_019444_000001_000001_000003_000007_000009_000019_000055_000235_000499_000637_001121_003583_008007_003749_020903_006179,
  1_019454_000001_000003_000007_000013_000009_000055_000125_000077_000395_000009_002005_002247_001609_006805_013099_026367,
  1_019461_000001_000003_000005_000013_000009_000041_000049_000133_000443_000995_000209_000341_008013_011037_029663_021161,
  1_019473_000001_000003_000001_000001_000001_000047_000045_000243_000161_000433_000129_000039_004885_008777_006395_016953,
  1_019479_000001_000003_000003_000015_000011_000013_000041_000113_000279_000657_000763_002411_007115_000463_010759_050493,
  1_019489_000001_000001_000005_000005_000031_000005_000025_000181_000385_000445_000625_000313_004983_011763_006065_063835,
  1_019591_000001_000003_000003_000015_000013_000025_000103_000005_000205_000223_001327_000073_000677_006751_002071_024963,
  1_019605_000001_000001_000007_000015_000021_000061_000021_000011_000047_000775_000113_000991_001943_001459_018049_045025,
  1_019616_000001_000003_000003_000001_000011_000043_000027_000089_000049_000711_000173_000181_001261_002751_021321_005467,
  1_019619_000001_000003_000003_000007_000017_000007_000057_000061_000087_000973_000985_001849_000559_007319_011457_046071,
  1_019653_000001_000001_000001_000001_000009_000037_000099_000157_000423_000189_001355_003983_006357_010825_026517_045815,
  1_019654_000001_000001_000003_000011_000023_000033_000057_000055_000059_000831_000339_000725_000359_014859_017523_036149,
  1_019681_000001_000001_000005_000005_000027_000029_000047_000147_000153_000801_001737_003617_005447_008011_030631_007921,
  1_019711_000001_000001_000005_000001_000011_000043_000035_000105_000069_000453_001023_000875_006755_006015_012449_050235,
  1_019719_000001_000003_000001_000005_000029_000031_000043_000089_000369_000891_001447_000353_008103_002555_001197_064005,
  1_019726_000001_000003_000003_000009_000021_000033_000117_000205_000473_000289_001699_002361_007083_013001_024127_048611,
  1_019738_000001_000003_000003_000015_000003_000023_000079_000139_000475_000511_000181_001331_006137_002653_014071_016947,
  1_019767_000001_000003_000003_000001_000011_000047_000051_000217_000305_000599_001609_000237_004537_005377_000717_013269,
  1_019819_000001_000001_000007_000003_000019_000031_000001_000173_000509_000817_000785_001223_005585_008911_000643_044575,
  1_019864_000001_000001_000003_000011_000005_000011_000031_000129_000269_000369_001833_002885_000441_011517_002323_026735,
  1_019867_000001_000001_000005_000009_000007_000051_000031_000021_000005_000157_000541_002939_004569_001679_017467_027995,
  1_019885_000001_000001_000007_000003_000021_000033_000085_000213_000041_000851_001947_003205_005065_006079_030789_063677,
  1_019894_000001_000001_000005_000003_000009_000053_000003_000179_000157_000407_000537_001193_004645_013791_028153_011349,
  1_019900_000001_000001_000007_000013_000025_000061_000009_000151_000263_000143_001583_002859_006617_008861_004163_040695,
  1_019903_000001_000001_000001_000001_000007_000025_000019_000207_000335_001019_001919_003893_000831_012421_004667_038967,
  1_019941_000001_000003_000005_000003_000005_000051_000081_000009_000425_000333_000451_002569_002771_012145_026065_014385,
  1_019951_000001_000001_000003_000007_000003_000049_000017_000147_000327_000331_001197_000007_003703_015247_009723_052819,
  1_019959_000001_000003_000003_000007_000027_000021_000117_000229_000255_000603_000195_001049_006243_013593_014553_008267,
  1_019966_000001_000001_000005_000015_000009_000053_000001_000187_000079_000151_000321_001883_006105_013879_008201_053213,
  1_020009_000001_000001_000001_000007_000021_000027_000103_000147_000351_000901_001927_002145_002685_000453_015173_007371,
  1_020018_000001_000001_000003_000005_000021_000027_000125_000077_000395_000027_000827_003617_006033_001511_029461_018907,
  1_020020_000001_000003_000005_000003_000003_000027_000075_000129_000441_000831_001213_002499_005829_012181_007991_058167,
  1_020038_000001_000001_000001_000009_000003_000033_000085_000135_000045_000405_001731_000551_001251_007895_003975_041621,
  1_020049_000001_000003_000005_000007_000019_000019_000025_000007_000477_000569_001089_002705_006157_010279_014029_036229,
  1_020066_000001_000003_000007_000003_000005_000019_000099_000137_000067_000361_002021_002891_001957_014961_022673_045707,
  1_020108_000001_000003_000007_000001_000021_000011_000081_000225_000151_000235_001761_003875_007427_011213_027023_017945,
  1_020130_000001_000001_000007_000001_000003_000001_000003_000123_000039_000769_001467_001907_007833_002099_000019_054653,
  1_020132_000001_000001_000001_000003_000025_000035_000033_000111_000407_000497_001527_003999_003083_006221_008319_056959,
  1_020167_000001_000001_000003_000015_000021_000049_000113_000011_000191_000801_001835_003413_003379_013129_003655_023885,
  1_020219_000001_000003_000001_000005_000021_000057_000087_000133_000409_000325_000569_002099_008143_000315_023287_021905,
  1_020227_000001_000001_000005_000005_000021_000043_000025_000169_000265_000123_000081_002683_006137_007341_016383_026435,
  1_020263_000001_000003_000001_000005_000023_000017_000125_000173_000003_000829_000693_000751_008021_003701_032643_035405,
  1_020267_000001_000001_000003_000001_000031_000013_000001_000195_000435_000487_000961_001681_001233_006001_003113_029515,
  1_020272_000001_000001_000007_000005_000009_000041_000081_000137_000257_000337_001837_000145_004191_006313_009991_025541,
  1_020289_000001_000001_000005_000013_000029_000013_000001_000117_000501_000991_000571_000793_001433_006005_000019_061135,
  1_020296_000001_000001_000007_000001_000009_000043_000065_000069_000297_000331_001777_001843_006477_013943_001301_051001,
  1_020307_000001_000001_000001_000003_000007_000035_000023_000211_000033_000649_000255_001831_000635_009965_016679_014531,
  1_020316_000001_000001_000001_000013_000023_000057_000113_000247_000321_000401_001761_004001_001823_014457_005251_004965,
  1_020323_000001_000001_000005_000005_000031_000005_000053_000103_000297_000575_001577_002217_000977_014415_016953_014793,
  1_020335_000001_000001_000005_000007_000009_000019_000025_000029_000121_000563_001707_000901_006167_010799_011897_031187,
  1_020344_000001_000001_000005_000009_000017_000039_000089_000029_000251_000259_000411_000819_006037_004601_011481_046141,
  1_020354_000001_000001_000001_000015_000023_000009_000065_000095_000189_000093_001485_002417_005183_005513_026623_042637,
  1_020360_000001_000001_000005_000005_000003_000003_000113_000161_000463_000225_001089_002023_002341_014931_028097_056365,
  1_020368_000001_000001_000005_000009_000009_000003_000109_000141_000027_000473_000107_004023_003279_007595_013289_035649,
  1_020390_000001_000001_000005_000003_000009_000037_000073_000153_000487_000057_002035_003583_000239_002183_010903_000171,
  1_020402_000001_000003_000003_000015_000023_000039_000087_000217_000451_000597_001817_002883_000145_011341_016015_016765,
  1_020413_000001_000001_000007_000005_000019_000061_000045_000037_000473_000883_000277_002801_000013_007021_003851_053223,
  1_020425_000001_000003_000003_000009_000001_000035_000097_000237_000279_000541_001911_000661_007603_008183_022071_037317,
  1_020428_000001_000003_000003_000011_000011_000063_000101_000071_000227_000259_001545_002779_003859_004859_018957_031749,
  1_020434_000001_000003_000003_000001_000027_000029_000091_000215_000381_000607_001701_001709_000247_012403_029943_059533,
  1_020443_000001_000001_000007_000001_000011_000023_000047_000141_000037_000881_001443_003921_003281_007417_001549_050653,
  1_020488_000001_000001_000007_000011_000023_000061_000017_000039_000373_000871_001107_001875_001419_003981_001333_011485,
  1_020502_000001_000001_000007_000011_000021_000051_000127_000145_000129_000425_001263_001989_000699_007317_024827_015049,
  1_020505_000001_000001_000001_000011_000009_000059_000059_000067_000329_000841_000905_000467_001905_000895_029711_025585,
  1_020535_000001_000001_000001_000015_000003_000039_000011_000205_000297_000383_000445_002139_002935_002399_022237_020355,
  1_020541_000001_000003_000007_000007_000017_000009_000017_000205_000369_001019_001703_000755_005507_014749_016461_014519,
  1_020554_000001_000003_000007_000003_000005_000031_000097_000035_000043_000249_000773_004033_006085_001241_024743_022415,
  1_020577_000001_000003_000007_000003_000017_000011_000045_000203_000251_000669_001463_001897_007913_002315_030307_015431,
  1_020583_000001_000001_000005_000005_000007_000053_000083_000013_000001_000841_000423_001059_003951_014209_011113_013931,
  1_020602_000001_000003_000003_000005_000005_000015_000011_000071_000237_000553_000829_003653_004991_001003_008353_052173,
  1_020611_000001_000003_000003_000009_000027_000039_000083_000137_000315_000883_001155_003541_003815_010633_013277_020269,
  1_020614_000001_000003_000003_000015_000013_000055_000043_000019_000345_000351_001117_001747_001949_003195_012241_052441,
  1_020626_000001_000001_000003_000005_000001_000011_000113_000117_000037_000103_001681_003269_001659_014779_030479_031123,
  1_020628_000001_000003_000007_000013_000001_000063_000009_000063_000065_000737_000785_001713_008123_010053_029871_017647,
  1_020635_000001_000001_000003_000005_000017_000045_000071_000037_000283_000145_001927_000075_007355_004681_002777_031465,
  1_020642_000001_000001_000003_000007_000021_000019_000113_000089_000067_000751_000099_000421_000201_006345_009473_039849,
  1_020674_000001_000001_000005_000011_000031_000057_000075_000079_000393_000745_001435_003039_001175_000983_000923_042867,
  1_020716_000001_000001_000005_000009_000031_000047_000031_000061_000085_000651_001733_003973_001979_007223_013817_030593,
  1_020734_000001_000001_000001_000011_000031_000021_000023_000177_000401_000055_000537_003775_003241_015157_011849_015629]

def dirRows16_0_13 : List Nat := [
  1_020765_000001_000001_000001_000013_000031_000053_000079_000057_000035_000617_000061_000089_006917_006045_023879_045485,
  1_020801_000001_000003_000007_000007_000003_000043_000057_000243_000107_000321_000273_002171_002069_006171_029181_008281,
  1_020804_000001_000001_000001_000011_000003_000027_000051_000057_000081_000795_001673_002601_007335_016243_000863_020663,
  1_020808_000001_000001_000005_000009_000007_000019_000031_000087_000509_000899_001133_001609_002163_007595_010523_043181,
  1_020831_000001_000001_000001_000007_000021_000053_000103_000043_000507_000317_000685_001329_007057_007275_002277_028271,
  1_020832_000001_000001_000007_000007_000003_000035_000081_000081_000261_000587_001571_002771_004653_006517_025101_056753,
  1_020862_000001_000003_000001_000011_000017_000061_000029_000137_000007_000929_000393_002513_002423_005457_006285_012525,
  1_020877_000001_000003_000001_000009_000025_000063_000017_000045_000439_000591_000273_000877_007741_008381_032277_024635,
  1_020880_000001_000003_000001_000005_000019_000011_000017_000175_000297_000077_000961_003331_005193_014347_012713_032067,
  1_020885_000001_000001_000005_000011_000003_000017_000013_000021_000219_000653_001279_001657_007659_014459_027661_038093,
  1_020889_000001_000003_000007_000007_000029_000017_000067_000035_000451_000091_000919_003163_007459_014971_004317_042503,
  1_020905_000001_000003_000003_000015_000007_000061_000069_000211_000349_000097_000911_000503_003903_012327_011049_029387,
  1_020914_000001_000001_000007_000003_000005_000007_000063_000237_000387_000931_000693_001143_006545_008529_025217_053087,
  1_020967_000001_000001_000005_000007_000001_000013_000021_000169_000259_000289_000437_000649_004905_015261_029997_034043,
  1_021028_000001_000001_000001_000009_000025_000013_000019_000229_000029_000213_001941_001501_003463_015761_015635_039687,
  1_021031_000001_000001_000005_000007_000013_000029_000101_000057_000483_000913_001025_002139_004327_007847_012455_041797,
  1_021043_000001_000001_000003_000011_000017_000027_000097_000079_000411_000009_001797_003721_005291_000859_008889_006151,
  1_021052_000001_000001_000001_000005_000017_000061_000045_000187_000157_000301_001017_001507_006031_004271_032593_023739,
  1_021058_000001_000001_000003_000011_000031_000039_000007_000169_000015_000799_001585_002055_004683_013247_023743_050399,
  1_021087_000001_000001_000001_000009_000025_000037_000015_000039_000339_000383_001153_001211_005745_015249_026021_039871,
  1_021088_000001_000001_000003_000013_000017_000051_000027_000137_000231_000877_000309_003633_002575_012259_002743_014781,
  1_021093_000001_000001_000005_000007_000005_000033_000095_000019_000037_000829_001489_003525_003887_008277_021867_003581,
  1_021106_000001_000001_000001_000015_000011_000033_000099_000213_000365_000549_001603_000777_003787_012209_014999_050607,
  1_021108_000001_000003_000001_000009_000023_000025_000057_000147_000073_000285_001229_001763_004579_014771_004003_038197,
  1_021118_000001_000001_000005_000001_000015_000055_000025_000209_000135_000895_000311_000139_002445_006903_012129_027907,
  1_021122_000001_000001_000005_000007_000023_000029_000033_000135_000325_000517_002021_001721_004235_002363_012905_018811,
  1_021131_000001_000001_000001_000009_000003_000019_000069_000029_000157_000787_001969_003711_008179_005691_004059_025541,
  1_021139_000001_000001_000005_000015_000001_000061_000011_000195_000317_000013_000923_002149_004001_012843_027109_030625,
  1_021141_000001_000003_000001_000007_000003_000013_000045_000187_000445_000859_000053_003227_004381_008273_032699_048719,
  1_021146_000001_000001_000007_000007_000021_000019_000047_000101_000119_000311_000577_003309_004585_012109_015153_022915,
  1_021162_000001_000003_000005_000015_000021_000039_000015_000211_000349_000237_001873_003333_007837_012811_014321_020227,
  1_021164_000001_000001_000005_000005_000019_000047_000015_000239_000023_000763_000537_001477_002231_010885_019487_047385,
  1_021184_000001_000001_000003_000001_000019_000037_000067_000085_000011_000817_000869_002249_004111_012411_010405_020055,
  1_021208_000001_000001_000003_000003_000001_000041_000085_000137_000091_000369_001863_000759_000303_015859_008063_012811,
  1_021211_000001_000003_000001_000011_000023_000001_000011_000219_000201_000573_001573_000619_002959_006485_007483_046099,
  1_021213_000001_000003_000003_000009_000013_000009_000009_000255_000047_000375_000409_001435_001665_014967_003247_018193,
  1_021230_000001_000001_000001_000005_000009_000061_000121_000173_000051_000415_001621_003947_001379_000847_023187_039259,
  1_021270_000001_000001_000001_000007_000003_000019_000095_000059_000187_000453_001533_000445_002699_004817_025983_050925,
  1_021276_000001_000003_000005_000013_000025_000025_000033_000005_000497_000001_000535_001653_006541_010939_017721_043829,
  1_021285_000001_000003_000007_000011_000009_000059_000115_000127_000085_000505_000541_003243_005853_012673_025275_039577,
  1_021297_000001_000003_000007_000001_000017_000025_000083_000127_000225_000295_001823_002051_000847_004249_013763_005723,
  1_021304_000001_000001_000001_000005_000003_000063_000039_000131_000191_000983_000119_003287_003335_007969_031347_039439,
  1_021310_000001_000003_000007_000009_000019_000031_000019_000091_000035_000677_001229_001371_006497_003315_015239_054235,
  1_021330_000001_000001_000001_000015_000003_000049_000113_000199_000135_000035_000709_000385_007923_003711_018351_012711,
  1_021339_000001_000001_000003_000015_000031_000013_000041_000001_000183_000095_001625_001675_007881_006607_004165_027151,
  1_021346_000001_000003_000003_000015_000021_000057_000081_000049_000005_000297_000131_000883_001113_002497_032129_039139,
  1_021391_000001_000003_000005_000007_000029_000047_000101_000173_000299_000879_000143_003341_003929_006797_008753_047963,
  1_021427_000001_000003_000003_000013_000011_000039_000027_000187_000027_000763_001515_001903_005897_010061_014595_012713,
  1_021451_000001_000003_000005_000011_000027_000035_000037_000213_000045_000867_001591_003083_008123_005045_031703_061487,
  1_021465_000001_000001_000003_000005_000003_000031_000023_000089_000369_000371_001165_003673_006821_000333_010881_004153,
  1_021468_000001_000001_000007_000013_000001_000033_000049_000195_000223_000197_001799_002427_006171_000493_013503_023619,
  1_021471_000001_000001_000003_000009_000005_000059_000105_000215_000449_000527_001661_002643_000309_011239_011633_063459,
  1_021533_000001_000001_000003_000011_000013_000011_000015_000099_000409_000807_001911_000883_001323_009037_006401_000545,
  1_021610_000001_000001_000005_000007_000007_000007_000001_000167_000353_000923_001403_003109_004981_003877_025451_004667,
  1_021615_000001_000001_000005_000011_000011_000025_000121_000153_000111_000785_001301_001497_006267_014919_024125_052029,
  1_021630_000001_000003_000003_000005_000029_000055_000063_000177_000305_000041_000111_001065_001127_000113_002815_012979,
  1_021633_000001_000003_000005_000007_000023_000039_000017_000179_000267_000917_000511_003923_000915_014173_010689_050749,
  1_021657_000001_000001_000005_000003_000009_000045_000015_000157_000495_000625_000407_002769_003267_007593_017957_054597,
  1_021658_000001_000003_000003_000011_000021_000013_000005_000207_000107_000965_001803_001541_003487_003483_000109_026923,
  1_021669_000001_000001_000005_000011_000025_000049_000099_000135_000109_000371_001307_001815_001095_002329_027101_052269,
  1_021670_000001_000003_000005_000005_000013_000009_000109_000079_000151_000047_000311_003873_003645_003773_001083_031599,
  1_021673_000001_000003_000005_000015_000001_000009_000087_000021_000145_000583_000159_002435_000587_010123_024803_019993,
  1_021701_000001_000003_000001_000001_000023_000011_000005_000045_000373_001011_001353_000277_007051_003845_012391_025313,
  1_021719_000001_000001_000001_000009_000013_000013_000109_000251_000097_000483_001723_002555_000813_009345_011351_044705,
  1_021720_000001_000003_000005_000007_000021_000049_000063_000013_000119_000813_001559_000983_000499_015159_024163_059903,
  1_021747_000001_000001_000003_000005_000027_000033_000027_000165_000207_000693_001401_001357_007637_000337_010163_043273,
  1_021819_000001_000001_000005_000013_000029_000007_000071_000187_000001_000655_001829_002645_006969_005435_028415_033199,
  1_021839_000001_000001_000001_000013_000017_000021_000013_000141_000041_000267_001165_001893_003455_010737_016693_033065,
  1_021854_000001_000001_000005_000001_000007_000027_000007_000067_000107_000011_000763_002529_003023_015745_017023_051911,
  1_021857_000001_000003_000003_000003_000007_000057_000123_000249_000309_000511_001655_001379_000725_007325_020261_065039,
  1_021864_000001_000001_000005_000011_000003_000027_000023_000027_000285_000771_002017_001727_004847_002665_030655_047625,
  1_021882_000001_000003_000007_000007_000017_000003_000093_000133_000427_001021_001135_000341_006711_011713_024157_001561,
  1_021900_000001_000001_000003_000007_000015_000055_000011_000247_000065_000115_001967_000535_000841_015131_028381_031337,
  1_021903_000001_000003_000001_000007_000009_000045_000073_000151_000127_000125_000767_002003_006893_003875_000451_030275,
  1_021928_000001_000001_000007_000003_000005_000055_000127_000123_000163_000763_001165_001637_006267_007215_023403_020961,
  1_021931_000001_000001_000001_000013_000001_000021_000065_000141_000369_000413_001675_000027_007357_006929_018083_000829,
  1_021946_000001_000003_000005_000013_000001_000017_000097_000107_000249_000931_000047_003537_002245_009827_013673_023217,
  1_021971_000001_000001_000001_000011_000013_000019_000043_000031_000051_000727_001001_000927_000771_011853_005761_060537,
  1_021974_000001_000003_000001_000007_000023_000027_000115_000005_000201_000431_001021_000585_006069_012511_006129_002105,
  1_021978_000001_000001_000003_000011_000003_000025_000075_000129_000389_000131_000223_002263_005377_005561_015633_039527,
  1_021993_000001_000003_000003_000001_000027_000043_000101_000055_000319_000549_001971_002255_000353_000093_025661_059077,
  1_021994_000001_000001_000005_000011_000029_000057_000027_000135_000341_000913_001637_001781_000457_011293_001013_053863,
  1_022030_000001_000001_000001_000011_000003_000051_000079_000251_000443_000651_000393_003635_007397_005443_004225_000991,
  1_022035_000001_000003_000007_000013_000031_000009_000003_000109_000427_000735_000891_002789_002169_006459_000355_043177,
  1_022063_000001_000003_000003_000003_000013_000007_000093_000195_000293_000037_000075_002467_000933_008017_009925_061397,
  1_022068_000001_000001_000005_000007_000025_000015_000069_000199_000161_000769_000387_001491_004553_004173_025631_037089,
  1_022086_000001_000003_000001_000003_000007_000059_000053_000093_000103_000413_000531_000887_006149_002901_022611_027135,
  1_022104_000001_000001_000001_000013_000031_000039_000071_000215_000385_000821_001603_003043_004967_010953_011543_064433,
  1_022119_000001_000003_000001_000007_000007_000063_000005_000143_000001_000339_001165_003809_004257_012879_021581_021307,
  1_022153_000001_000001_000001_000015_000001_000035_000067_000227_000277_000879_000513_003423_006153_011573_012809_034335,
  1_022168_000001_000003_000007_000009_000009_000039_000047_000017_000101_000179_000631_001307_000481_000871_016807_039811,
  1_022183_000001_000003_000001_000001_000013_000025_000053_000179_000285_000267_000407_003781_003267_003545_000525_015733,
  1_022189_000001_000001_000001_000013_000011_000035_000045_000181_000319_000767_000283_003021_005405_000403_003587_007291,
  1_022204_000001_000001_000007_000003_000005_000009_000067_000129_000101_000117_000267_001925_001209_013095_007123_062941,
  1_022230_000001_000001_000007_000003_000005_000063_000109_000199_000095_000421_000193_003519_006551_000955_001679_016627,
  1_022240_000001_000001_000005_000013_000001_000047_000071_000157_000343_000653_000981_001335_003737_007185_028861_022883,
  1_022246_000001_000001_000003_000015_000007_000063_000007_000081_000481_000005_001159_001361_004167_002575_007437_016917,
  1_022269_000001_000003_000007_000001_000027_000017_000061_000193_000317_000841_001149_000955_005161_004275_001955_015665,
  1_022282_000001_000001_000001_000007_000019_000063_000077_000057_000367_000237_000579_003701_005763_004951_024151_045215,
  1_022302_000001_000001_000005_000011_000029_000007_000119_000155_000431_000999_000757_002433_005811_003709_029573_023639]

def dirRows16_0_14 : List Nat := [
  1_022330_000001_000003_000003_000003_000015_000035_000125_000013_000275_000507_001719_001537_002349_012909_008107_009845,
  1_022347_000001_000003_000001_000013_000027_000027_000011_000069_000015_001017_000207_000625_000809_002921_008939_030293,
  1_022349_000001_000001_000007_000011_000031_000051_000113_000193_000069_000845_000073_000919_003523_003987_023665_036527,
  1_022383_000001_000003_000007_000011_000021_000031_000103_000029_000005_000081_001081_003847_004697_008857_030769_040053,
  1_022386_000001_000001_000001_000001_000005_000011_000005_000169_000013_000899_000769_003823_005405_005991_003821_027767,
  1_022432_000001_000001_000003_000015_000001_000035_000009_000083_000023_000701_001807_001681_004009_000127_031751_038059,
  1_022450_000001_000003_000003_000007_000009_000061_000073_000111_000193_000607_002001_000413_003751_016337_016597_023959,
  1_022473_000001_000001_000007_000007_000021_000029_000053_000253_000187_000507_001191_003521_000463_002167_023785_019867,
  1_022487_000001_000003_000005_000003_000019_000043_000101_000093_000257_000061_001589_003883_001975_007283_005253_023257,
  1_022527_000001_000003_000001_000009_000001_000063_000025_000101_000377_000571_001701_003385_000243_012051_032619_010459,
  1_022537_000001_000001_000001_000005_000017_000011_000037_000197_000205_000879_000625_000959_007389_007857_020615_020405,
  1_022557_000001_000003_000005_000005_000027_000041_000009_000109_000197_000623_001045_000063_007977_011355_028613_005131,
  1_022561_000001_000001_000005_000011_000005_000029_000027_000085_000131_000247_000433_003981_002677_015415_000869_006045,
  1_022568_000001_000003_000001_000013_000009_000049_000025_000079_000135_000719_000093_000631_002149_005929_029833_038673,
  1_022573_000001_000003_000007_000011_000015_000013_000037_000233_000227_000205_001579_000065_001429_013499_026355_063821,
  1_022591_000001_000001_000005_000011_000021_000019_000007_000183_000409_000275_000899_003665_006207_000849_024339_001617,
  1_022593_000001_000003_000001_000003_000021_000061_000023_000125_000463_000489_001265_002975_003907_011881_007533_043331,
  1_022605_000001_000003_000001_000015_000015_000051_000083_000031_000175_000047_001791_003651_006735_005013_000723_024141,
  1_022620_000001_000003_000001_000009_000017_000041_000057_000043_000469_000911_001251_002105_003133_003437_010097_026687,
  1_022627_000001_000001_000003_000003_000009_000009_000125_000201_000141_000943_001509_001239_006575_008707_000363_023309,
  1_022636_000001_000001_000005_000003_000019_000037_000043_000141_000413_000149_001449_001003_004473_012395_004101_061201,
  1_022647_000001_000001_000005_000011_000017_000037_000041_000033_000057_000627_000325_001895_001773_001339_024859_000587,
  1_022697_000001_000001_000001_000003_000005_000049_000127_000109_000361_000853_001437_003451_004031_005379_027463_047425,
  1_022715_000001_000003_000005_000007_000009_000057_000071_000219_000347_000791_000797_000073_006241_012717_024429_040977,
  1_022725_000001_000001_000005_000009_000027_000043_000043_000227_000433_000413_001109_002589_004535_008947_008121_043479,
  1_022732_000001_000003_000007_000001_000009_000021_000081_000023_000157_000313_000197_002845_008059_015957_028657_028093,
  1_022749_000001_000003_000001_000011_000015_000017_000115_000027_000421_000743_001885_002089_005011_007137_007395_036853,
  1_022766_000001_000001_000005_000015_000005_000053_000069_000255_000063_000029_001011_003201_001467_015441_026255_062895,
  1_022768_000001_000003_000001_000011_000003_000047_000035_000195_000149_000849_001317_000439_003539_000845_015295_042183,
  1_022771_000001_000001_000005_000015_000015_000037_000067_000105_000495_000985_001777_003137_008039_011795_029771_035045,
  1_022788_000001_000001_000003_000001_000025_000017_000067_000227_000229_000419_001319_003325_001293_008585_028425_034013,
  1_022797_000001_000001_000005_000001_000027_000051_000071_000197_000375_000407_000259_004005_003309_005475_013421_060065,
  1_022822_000001_000003_000001_000005_000011_000017_000089_000045_000311_000425_001629_000773_007267_008699_027547_037081,
  1_022828_000001_000003_000001_000007_000009_000025_000101_000105_000489_000217_000103_001959_004049_005793_031201_011947,
  1_022851_000001_000001_000005_000005_000019_000003_000063_000055_000431_000049_000273_003253_005357_013801_009735_021883,
  1_022888_000001_000001_000001_000011_000013_000003_000075_000201_000477_000201_001875_000657_006217_008651_002207_016421,
  1_022893_000001_000001_000005_000013_000005_000031_000075_000113_000025_000171_001147_003089_007095_004405_026155_042323,
  1_022901_000001_000003_000005_000005_000005_000049_000099_000171_000445_001023_001793_003159_005809_012509_031723_060411,
  1_022902_000001_000003_000007_000003_000023_000051_000111_000027_000103_000159_000433_000293_001741_003599_004067_040667,
  1_022921_000001_000003_000003_000013_000011_000009_000011_000021_000453_000035_001649_001261_003539_014081_005581_057105,
  1_022929_000001_000003_000003_000013_000007_000009_000113_000087_000391_000647_000223_001345_004481_009855_020129_010807,
  1_022946_000001_000003_000007_000015_000003_000061_000015_000117_000097_000495_000985_000819_000181_001363_013111_035857,
  1_022948_000001_000003_000001_000009_000003_000027_000125_000151_000217_000961_000707_002647_005307_000621_012581_013941,
  1_022951_000001_000003_000001_000011_000017_000037_000035_000211_000179_000029_000627_003623_006429_016237_024699_014385,
  1_022958_000001_000003_000003_000009_000003_000057_000035_000003_000085_001017_001739_002241_007297_015637_027085_041237,
  1_022975_000001_000001_000003_000007_000007_000013_000005_000085_000505_000051_000409_000867_000677_012451_013633_047883,
  1_022983_000001_000003_000005_000013_000005_000051_000037_000079_000237_000133_001331_003263_000349_004971_016067_062485,
  1_022990_000001_000001_000007_000011_000029_000041_000101_000219_000391_001023_001681_003163_004071_014665_011041_014523,
  1_023032_000001_000001_000003_000003_000013_000055_000037_000119_000471_000665_001315_003071_005993_012005_013549_063425,
  1_023047_000001_000003_000005_000007_000005_000025_000059_000071_000077_000841_000091_001841_006997_001139_011843_052209,
  1_023053_000001_000003_000007_000015_000017_000025_000085_000173_000373_000459_001713_001055_005337_009921_015213_044235,
  1_023054_000001_000001_000001_000015_000007_000011_000089_000237_000131_000565_000745_000457_004447_005581_011053_043819,
  1_023082_000001_000003_000005_000001_000029_000021_000011_000007_000125_000851_002023_003321_001885_000067_008809_043291,
  1_023095_000001_000003_000005_000011_000011_000043_000041_000097_000353_000813_000085_002453_000769_011709_004697_002849,
  1_023116_000001_000001_000005_000005_000021_000029_000087_000179_000157_000981_000129_002139_006841_005479_027111_020749,
  1_023197_000001_000001_000003_000009_000031_000059_000061_000015_000423_000033_000467_001817_006535_007341_031061_020937,
  1_023221_000001_000001_000007_000003_000001_000021_000127_000135_000321_000699_000727_003079_000753_003971_005611_028345,
  1_023257_000001_000003_000007_000011_000027_000003_000039_000063_000389_000433_000043_001443_006241_010769_020485_058823,
  1_023260_000001_000001_000001_000011_000003_000013_000005_000057_000503_000707_000677_003355_006691_008841_020041_011867,
  1_023263_000001_000001_000003_000011_000031_000039_000107_000221_000081_000125_001439_002429_002109_003931_031007_010915,
  1_023267_000001_000003_000003_000009_000017_000053_000013_000121_000127_000015_001825_001909_005951_013503_031565_056163,
  1_023282_000001_000001_000001_000001_000019_000055_000003_000153_000385_000277_001297_003655_006027_003057_011341_046989,
  1_023284_000001_000001_000005_000009_000003_000055_000037_000223_000353_000141_001917_003827_002255_007617_010971_010641,
  1_023314_000001_000003_000007_000009_000029_000041_000071_000019_000137_000243_002047_000395_006981_015887_009479_060199,
  1_023326_000001_000001_000001_000009_000017_000043_000051_000191_000405_000727_000485_000987_001855_015801_022529_010165,
  1_023335_000001_000003_000001_000007_000027_000031_000069_000255_000153_000793_001353_001981_000083_011387_006747_023379,
  1_023368_000001_000001_000005_000005_000031_000049_000083_000157_000063_000647_001367_003995_005899_008429_018317_003471,
  1_023373_000001_000003_000005_000013_000019_000015_000099_000013_000143_000887_000529_002855_000573_009799_013585_059263,
  1_023401_000001_000003_000005_000003_000013_000047_000103_000087_000011_000381_000397_000899_000071_015539_013005_038297,
  1_023415_000001_000001_000001_000003_000001_000053_000045_000141_000001_000941_000261_003291_005177_009843_006309_062799,
  1_023432_000001_000001_000005_000009_000029_000031_000107_000057_000135_000229_001147_000247_000265_012757_021365_007219,
  1_023476_000001_000001_000001_000003_000001_000049_000055_000247_000495_000449_000141_001349_007393_002589_023587_001097,
  1_023479_000001_000003_000005_000001_000009_000011_000073_000153_000089_000575_001805_000137_000435_003687_032169_024275,
  1_023497_000001_000001_000007_000015_000025_000061_000051_000021_000109_000139_000611_003907_006721_005081_006665_051463,
  1_023505_000001_000001_000001_000009_000013_000023_000059_000203_000033_001013_001533_000291_006171_015463_008581_009497,
  1_023508_000001_000003_000003_000009_000007_000025_000051_000189_000049_000265_001163_001141_002467_007839_007083_065527,
  1_023531_000001_000001_000003_000009_000019_000033_000077_000009_000181_000919_000623_001521_007853_002199_024115_060607,
  1_023536_000001_000001_000003_000011_000009_000011_000027_000057_000355_000313_000151_003391_004869_012541_030031_029455,
  1_023542_000001_000003_000005_000009_000017_000013_000091_000123_000235_000841_001113_001451_000501_003863_032483_009445,
  1_023565_000001_000003_000007_000003_000013_000025_000087_000243_000449_000293_001279_003571_002693_013459_005895_038127,
  1_023573_000001_000001_000003_000015_000027_000061_000007_000057_000255_000971_000131_002585_002187_007191_017779_034587,
  1_023590_000001_000003_000003_000007_000023_000029_000055_000041_000463_000873_001781_002851_004731_009819_025587_032199,
  1_023593_000001_000001_000001_000009_000029_000039_000025_000143_000171_000141_000223_000467_004417_009575_023159_033819,
  1_023604_000001_000001_000005_000013_000019_000061_000019_000075_000025_000361_000585_001627_002231_001831_024885_037917,
  1_023621_000001_000003_000007_000007_000023_000019_000059_000055_000323_000055_000143_000131_000027_015363_026423_043963,
  1_023622_000001_000001_000005_000005_000025_000009_000033_000017_000427_000481_000315_003999_004757_004545_007695_056733,
  1_023636_000001_000003_000005_000013_000005_000059_000045_000117_000115_000263_001441_003307_001085_003875_025869_019725,
  1_023662_000001_000003_000003_000015_000013_000039_000031_000243_000293_000345_000343_001911_006123_012577_032081_059993,
  1_023667_000001_000003_000005_000013_000017_000037_000105_000201_000205_000929_000435_001467_008063_006963_013709_053275,
  1_023703_000001_000003_000007_000015_000031_000003_000065_000221_000191_000413_000427_002579_000377_002793_026943_061299,
  1_023725_000001_000003_000005_000003_000011_000061_000075_000107_000053_000689_001845_000859_000333_000889_027607_048795,
  1_023734_000001_000001_000005_000007_000001_000011_000037_000181_000323_000187_001511_000025_005517_011957_007093_000429,
  1_023738_000001_000003_000003_000001_000025_000031_000125_000139_000433_000583_000683_000587_005389_001225_026047_018717,
  1_023752_000001_000003_000001_000015_000023_000033_000023_000147_000279_000513_000157_004023_002669_007543_002111_009191,
  1_023800_000001_000003_000001_000001_000005_000039_000055_000127_000257_000649_000347_003001_002215_015579_029665_010337,
  1_023803_000001_000001_000001_000015_000019_000055_000105_000183_000505_001003_001311_002253_001861_003561_019581_046183,
  1_023818_000001_000003_000001_000009_000023_000005_000127_000215_000195_000817_000719_001285_000919_008627_020427_002723,
  1_023832_000001_000001_000001_000005_000015_000031_000043_000131_000377_000057_001531_000915_002871_001805_019765_060529,
  1_023842_000001_000003_000003_000003_000015_000001_000093_000055_000477_000221_000643_001319_000959_000475_014015_048823,
  1_023851_000001_000003_000003_000007_000019_000013_000013_000191_000421_000751_001103_002129_001973_014935_026485_041269]

def dirRows16_0_15 : List Nat := [
  1_023873_000001_000001_000005_000013_000017_000043_000081_000083_000067_000643_001799_001157_004365_002815_029871_005351,
  1_023883_000001_000003_000001_000009_000021_000031_000087_000177_000025_000403_001357_004047_000959_005133_007307_004333,
  1_023888_000001_000001_000007_000007_000029_000039_000027_000139_000159_000529_001323_003823_004569_012711_030263_010961,
  1_023910_000001_000003_000001_000013_000027_000015_000059_000001_000107_000723_000497_000043_000143_016119_029177_005653,
  1_023934_000001_000001_000005_000009_000015_000041_000023_000109_000101_000639_000277_001687_001311_001995_005403_006867,
  1_023938_000001_000001_000005_000003_000013_000001_000095_000177_000379_000545_000789_003479_004135_000445_005869_038923,
  1_023949_000001_000001_000003_000009_000021_000031_000023_000065_000209_000383_000271_000367_006605_001169_027267_009331,
  1_023955_000001_000001_000001_000001_000027_000039_000121_000029_000155_000465_000947_002675_006753_011647_029781_030251,
  1_023967_000001_000003_000001_000005_000007_000045_000007_000021_000223_000363_001021_000751_002257_014423_019629_064867,
  1_023973_000001_000003_000001_000009_000031_000053_000013_000099_000049_000389_000867_000327_004145_003265_015423_014985,
  1_023991_000001_000001_000001_000015_000011_000011_000027_000041_000333_000161_001343_002023_003789_013563_016957_026849,
  1_024024_000001_000003_000007_000001_000007_000051_000007_000163_000239_000393_000231_003985_000309_000875_000837_024791,
  1_024030_000001_000001_000001_000007_000001_000043_000105_000007_000351_000755_001781_001925_004961_002961_013427_044317,
  1_024039_000001_000003_000001_000009_000017_000039_000081_000075_000201_000931_001547_001857_007251_011687_014437_012603,
  1_024067_000001_000003_000003_000015_000015_000023_000095_000007_000193_000009_001749_000809_005083_014645_024893_035979,
  1_024069_000001_000001_000007_000001_000009_000009_000127_000149_000433_000985_001347_003379_002881_000681_020777_030703,
  1_024084_000001_000003_000001_000011_000001_000027_000121_000111_000251_000045_001341_001709_003733_011297_029063_057119,
  1_024112_000001_000003_000003_000001_000019_000003_000077_000127_000187_000831_001125_003119_004665_009857_005301_036755,
  1_024115_000001_000003_000003_000003_000029_000029_000061_000225_000257_000635_000665_001279_003019_002401_008253_040251,
  1_024184_000001_000001_000007_000009_000029_000043_000047_000095_000221_000823_000257_001485_005183_000225_027675_060479,
  1_024187_000001_000001_000005_000003_000015_000049_000025_000069_000101_000393_000901_000305_004917_013479_030209_009199,
  1_024262_000001_000001_000003_000015_000001_000009_000047_000243_000403_000341_000143_001365_001817_006017_003853_058625,
  1_024276_000001_000003_000003_000011_000009_000049_000093_000149_000039_000177_001863_001027_000659_009253_002131_026943,
  1_024279_000001_000003_000001_000003_000025_000001_000043_000255_000217_000353_000957_000039_004607_015761_024291_033619,
  1_024313_000001_000001_000001_000007_000029_000051_000071_000237_000001_000703_000019_000213_006429_011783_022049_030597,
  1_024331_000001_000003_000001_000007_000031_000063_000105_000203_000473_000731_000257_000091_005749_004099_030125_040171,
  1_024336_000001_000003_000007_000009_000007_000029_000119_000181_000225_000743_001031_000055_003997_016221_011663_014847,
  1_024348_000001_000003_000003_000011_000005_000021_000043_000017_000473_000981_000125_002077_006141_004757_007585_029207,
  1_024367_000001_000001_000007_000001_000027_000061_000027_000045_000267_000483_000119_000767_000957_003411_002653_053967,
  1_024372_000001_000001_000001_000003_000009_000041_000043_000017_000485_000253_000825_003605_005919_009285_001815_006095,
  1_024402_000001_000001_000001_000011_000007_000005_000053_000107_000309_000609_001389_002035_000861_015565_009375_042363,
  1_024420_000001_000003_000005_000003_000027_000057_000007_000177_000183_000227_000865_000183_002903_006325_004393_005257,
  1_024444_000001_000003_000001_000005_000021_000029_000079_000107_000365_000427_000813_003563_007713_003865_004289_028555,
  1_024465_000001_000003_000005_000007_000011_000027_000001_000197_000425_000769_001737_003627_001273_004469_011967_000823,
  1_024466_000001_000001_000001_000013_000003_000031_000127_000159_000471_000367_002047_000949_001591_012429_021497_027153,
  1_024471_000001_000003_000001_000003_000003_000031_000031_000087_000243_000413_001777_001361_004575_001147_017451_033985,
  1_024475_000001_000003_000003_000005_000013_000047_000045_000003_000165_000329_000743_000397_002479_004999_012921_026689,
  1_024481_000001_000001_000005_000007_000017_000059_000025_000117_000217_000601_000235_002691_005569_007853_031063_028281,
  1_024488_000001_000003_000001_000011_000011_000039_000071_000077_000481_000039_000363_001921_003263_012849_013325_041803,
  1_024501_000001_000003_000007_000005_000019_000001_000059_000197_000239_000787_001657_001449_004245_001317_019609_053583,
  1_024514_000001_000001_000007_000001_000013_000033_000081_000053_000223_000323_000477_002421_004045_001855_005823_009661,
  1_024531_000001_000003_000001_000007_000001_000003_000121_000019_000329_000569_000481_003443_000499_012407_019625_004627,
  1_024534_000001_000001_000001_000007_000003_000033_000091_000241_000069_000581_001635_001025_004677_014651_005229_019555,
  1_024559_000001_000003_000001_000015_000009_000011_000099_000047_000489_000755_000601_001221_004251_004377_020567_033839,
  1_024602_000001_000003_000003_000005_000021_000021_000127_000151_000499_000971_001627_000609_002365_003183_007413_000697,
  1_024614_000001_000003_000007_000013_000005_000035_000061_000121_000051_000297_000029_001825_000495_001299_012741_003253,
  1_024637_000001_000001_000001_000001_000013_000015_000049_000205_000235_000009_000849_001101_004533_010221_032419_050151,
  1_024664_000001_000001_000003_000013_000029_000031_000057_000077_000217_000195_001951_000189_000981_006169_022677_064415,
  1_024676_000001_000003_000001_000005_000015_000037_000025_000233_000043_000843_001205_000153_006339_003767_016725_032699,
  1_024679_000001_000003_000003_000001_000019_000037_000011_000217_000461_000897_001181_002815_000295_015153_025351_057211,
  1_024697_000001_000003_000005_000011_000015_000009_000005_000179_000353_000769_001457_002919_001201_014871_029549_052265,
  1_024709_000001_000001_000003_000003_000005_000051_000127_000221_000329_000543_001537_002701_002709_009311_002715_042669,
  1_024714_000001_000003_000005_000015_000005_000041_000079_000233_000445_000265_002001_000935_003133_003977_003601_021389,
  1_024716_000001_000003_000005_000011_000003_000007_000115_000045_000311_000827_001897_003399_004251_005341_022621_025519,
  1_024731_000001_000003_000007_000001_000011_000057_000117_000103_000401_000505_001683_002161_004363_011189_020263_013065,
  1_024744_000001_000001_000001_000007_000023_000029_000031_000077_000063_000179_000195_002747_000579_011701_005101_011497,
  1_024762_000001_000003_000007_000003_000009_000033_000081_000165_000433_000545_001893_003709_003813_006615_001485_006395,
  1_024764_000001_000003_000001_000015_000009_000005_000027_000157_000389_000683_001919_000509_000455_003865_002303_006993,
  1_024769_000001_000003_000003_000009_000005_000005_000003_000005_000299_000059_000539_001199_002443_010821_003359_044345,
  1_024806_000001_000003_000005_000009_000021_000037_000087_000035_000501_000943_001313_003929_000351_009851_022971_035659,
  1_024812_000001_000003_000007_000011_000011_000033_000077_000175_000411_000315_001797_002731_004611_001809_022027_050595,
  1_024872_000001_000003_000007_000013_000015_000011_000013_000189_000209_001015_001869_001593_006887_008571_007217_002641,
  1_024878_000001_000001_000003_000013_000029_000015_000119_000127_000329_000275_000865_001693_000225_015735_011071_037127,
  1_024883_000001_000003_000007_000013_000009_000031_000085_000025_000281_000401_001923_002391_003875_002079_002055_053275,
  1_024909_000001_000003_000001_000005_000023_000057_000079_000127_000209_000901_000315_001165_003393_015095_001981_034993,
  1_024943_000001_000003_000007_000007_000025_000013_000015_000223_000157_000335_001061_000395_006895_006283_018375_004887,
  1_024946_000001_000003_000007_000013_000009_000015_000099_000201_000105_000643_000117_003027_000641_013353_004343_011875,
  1_024964_000001_000001_000003_000011_000005_000051_000005_000077_000281_000207_001201_001187_008107_006625_007517_034377,
  1_024992_000001_000001_000001_000005_000029_000061_000003_000181_000297_000151_000565_002713_006611_008665_032425_050399,
  1_025016_000001_000003_000001_000005_000001_000061_000041_000245_000095_000647_000049_002195_005927_015531_028547_051075,
  1_025022_000001_000003_000003_000015_000015_000063_000123_000063_000077_000813_000423_000715_000091_003793_020901_054927,
  1_025024_000001_000003_000007_000009_000015_000035_000031_000161_000127_000013_001667_001225_005279_015487_018769_024887,
  1_025039_000001_000001_000003_000005_000027_000025_000061_000021_000447_000175_001419_002691_001993_013059_030809_038325,
  1_025051_000001_000003_000001_000003_000015_000021_000015_000193_000233_000435_001993_004003_004581_013837_016535_043781,
  1_025060_000001_000001_000001_000005_000001_000011_000021_000253_000059_000059_000497_000077_002165_008197_005933_025743,
  1_025072_000001_000001_000003_000009_000025_000061_000029_000217_000095_000269_000799_000409_000801_000421_019065_053443,
  1_025097_000001_000001_000007_000001_000001_000041_000071_000059_000191_000867_000223_001467_006679_016031_004451_015313,
  1_025122_000001_000001_000001_000011_000013_000027_000007_000241_000167_000969_001267_002953_003769_002415_030065_039483,
  1_025148_000001_000001_000001_000003_000025_000061_000103_000023_000053_000799_000989_003859_007299_013613_012007_037535,
  1_025194_000001_000001_000007_000001_000029_000019_000121_000057_000355_000663_000643_003723_001775_010363_001389_016039,
  1_025201_000001_000003_000007_000003_000021_000055_000051_000067_000363_000843_001187_001983_007757_005413_026575_053329,
  1_025204_000001_000003_000001_000003_000031_000055_000073_000055_000075_000533_000197_001463_002933_006033_024397_041579,
  1_025238_000001_000003_000001_000011_000009_000015_000107_000141_000473_000825_000901_000937_007433_013119_020047_006695,
  1_025241_000001_000003_000005_000007_000019_000027_000003_000149_000507_000137_001025_001841_000033_003113_015101_028187,
  1_025248_000001_000003_000005_000007_000031_000027_000053_000045_000177_000129_001241_001525_000991_004141_017681_039435,
  1_025257_000001_000001_000001_000015_000031_000057_000029_000137_000395_000563_000101_003367_001277_005431_001169_044321,
  1_025275_000001_000003_000005_000007_000021_000015_000123_000181_000113_000313_001763_001429_002985_000715_026129_000549,
  1_025278_000001_000003_000003_000001_000015_000027_000027_000139_000507_000079_001999_002505_000485_007011_013369_007159,
  1_025304_000001_000003_000003_000011_000027_000053_000109_000179_000399_000657_000697_000421_005467_004273_007837_011631,
  1_025307_000001_000001_000001_000015_000001_000057_000091_000199_000443_000569_001945_002531_006349_004851_003931_020537,
  1_025320_000001_000001_000003_000013_000003_000003_000107_000237_000261_000377_000135_002809_007239_001613_024035_026053,
  1_025334_000001_000003_000003_000005_000003_000059_000065_000197_000411_000363_001729_000967_003963_004535_000111_007273,
  1_025348_000001_000001_000007_000003_000013_000039_000105_000235_000203_001015_001031_003127_001209_010817_022177_044117,
  1_025357_000001_000003_000003_000013_000019_000021_000123_000031_000059_000185_001007_001115_001965_013087_018489_034063,
  1_025372_000001_000001_000007_000005_000027_000007_000033_000159_000245_000057_002003_003229_002095_004939_031355_023121,
  1_025394_000001_000003_000003_000009_000009_000041_000049_000203_000397_000915_000821_003685_002269_011159_025441_046377,
  1_025454_000001_000003_000007_000005_000029_000033_000029_000227_000361_000961_001905_001149_002799_008115_028235_025685,
  1_025465_000001_000003_000001_000001_000019_000013_000073_000103_000011_000183_000853_002425_003809_002391_018615_032735,
  1_025472_000001_000001_000003_000003_000021_000057_000047_000057_000157_000043_001085_003319_000461_011499_006809_010435,
  1_025492_000001_000001_000005_000005_000017_000021_000055_000017_000421_000865_000159_001643_004523_001485_011937_008287]

def dirRows16_0_16 : List Nat := [
  1_025505_000001_000001_000003_000011_000007_000043_000039_000037_000187_000797_001273_001227_002683_001249_003375_044499,
  1_025517_000001_000001_000005_000011_000017_000035_000027_000073_000097_000059_000921_002171_007577_002847_000093_035911,
  1_025530_000001_000001_000005_000001_000005_000017_000117_000189_000357_000581_001945_002141_001679_012019_011249_006809,
  1_025558_000001_000001_000005_000007_000015_000053_000009_000191_000153_000257_000533_000493_002389_004657_020757_057275,
  1_025562_000001_000001_000001_000011_000013_000035_000085_000037_000501_000525_000543_004057_002001_006183_000949_018465,
  1_025598_000001_000001_000001_000003_000015_000007_000039_000169_000359_000671_000731_001523_000211_001233_029515_057787,
  1_025609_000001_000001_000003_000007_000027_000007_000041_000015_000071_000733_001919_000401_001915_004815_010571_000839,
  1_025612_000001_000001_000007_000013_000027_000061_000005_000025_000293_000779_000477_001537_006695_007435_001281_064369,
  1_025627_000001_000001_000007_000007_000019_000011_000101_000045_000449_000883_001181_003521_006019_016305_023429_043789,
  1_025651_000001_000001_000007_000005_000001_000049_000121_000089_000275_000367_000461_001717_002733_004403_009123_035217,
  1_025653_000001_000001_000007_000001_000001_000037_000041_000221_000281_000531_000357_003783_003561_008135_018405_056045,
  1_025668_000001_000003_000005_000007_000029_000009_000127_000037_000013_000519_001059_003973_007253_015159_019337_057103,
  1_025711_000001_000003_000003_000015_000003_000041_000091_000007_000063_000747_001649_003367_005945_003603_028465_000511,
  1_025765_000001_000003_000003_000015_000027_000019_000067_000179_000505_000131_000149_001753_003603_001135_015811_005305,
  1_025770_000001_000001_000001_000005_000005_000063_000071_000235_000151_000651_001383_000249_003223_014559_026809_004551,
  1_025775_000001_000003_000003_000009_000029_000041_000067_000111_000175_000515_001123_001707_006653_008233_022775_061029,
  1_025777_000001_000003_000003_000009_000023_000001_000075_000145_000159_000785_000537_001995_002241_008641_030709_041373,
  1_025783_000001_000001_000005_000009_000021_000001_000087_000233_000401_000643_000197_003437_008163_006363_006537_017283,
  1_025801_000001_000003_000005_000003_000023_000019_000055_000243_000405_000369_001221_001959_005455_011729_026117_009097,
  1_025802_000001_000001_000003_000013_000003_000057_000071_000235_000125_000263_000873_001079_002627_001343_001979_049519,
  1_025812_000001_000003_000001_000011_000021_000015_000027_000007_000425_000935_000305_002593_004437_009517_026207_004229,
  1_025821_000001_000001_000003_000013_000011_000053_000001_000149_000097_000939_000147_003365_005023_000607_002083_008715,
  1_025897_000001_000001_000005_000003_000013_000013_000113_000051_000263_000837_001145_003621_005697_002867_007975_022839,
  1_025906_000001_000001_000003_000015_000031_000009_000091_000231_000399_000295_001935_004021_007669_003867_028015_009865,
  1_025929_000001_000001_000001_000001_000013_000059_000051_000035_000407_000733_001629_002429_000291_011923_032129_028847,
  1_025940_000001_000003_000003_000011_000025_000021_000013_000117_000031_000547_000327_002801_002247_004051_027523_004257,
  1_025950_000001_000001_000007_000007_000015_000033_000015_000017_000255_000363_001013_001463_007537_014093_021883_035389,
  1_025968_000001_000001_000005_000009_000011_000061_000007_000161_000121_000413_000515_000413_004439_015405_030265_023939,
  1_025971_000001_000003_000007_000007_000011_000015_000005_000181_000315_000231_001567_002985_001653_012251_000269_037317,
  1_025977_000001_000003_000001_000011_000003_000015_000091_000045_000489_000571_000011_001239_007705_004303_012535_021359,
  1_025994_000001_000001_000007_000015_000029_000043_000081_000063_000483_000851_000389_001719_006111_015293_002513_044397,
  1_025996_000001_000001_000005_000015_000025_000033_000097_000131_000183_000269_001903_002733_007197_004507_024471_036871,
  1_025999_000001_000003_000003_000013_000017_000033_000073_000083_000247_000207_000079_001139_000581_012147_003539_045423,
  1_026001_000001_000001_000001_000015_000029_000049_000079_000151_000267_000393_001995_000105_002873_003981_019147_053987,
  1_026030_000001_000001_000005_000001_000031_000025_000039_000203_000459_000181_000661_000717_006235_013413_001197_040665,
  1_026069_000001_000001_000005_000009_000019_000033_000065_000239_000463_000133_000461_003601_007755_001771_020683_007417,
  1_026100_000001_000001_000001_000001_000025_000019_000025_000155_000431_000033_000341_000959_005679_001205_002599_037499,
  1_026109_000001_000001_000003_000005_000025_000005_000083_000087_000091_000991_001833_004063_000147_014497_025725_004617,
  1_026131_000001_000003_000005_000007_000031_000007_000073_000051_000339_000313_001593_002089_007387_015759_003249_007953,
  1_026144_000001_000003_000007_000001_000027_000049_000035_000011_000021_000045_001689_001665_004591_003713_012781_004805,
  1_026149_000001_000001_000003_000009_000029_000051_000073_000051_000303_000179_000067_003917_007615_006131_026225_055991,
  1_026162_000001_000003_000007_000011_000009_000063_000029_000047_000153_000883_001859_001913_003563_011451_006333_051367,
  1_026167_000001_000003_000001_000003_000005_000025_000069_000087_000389_000613_000989_003557_001339_012503_014505_063209,
  1_026173_000001_000001_000003_000001_000005_000013_000037_000163_000499_000163_002025_001467_005059_008479_002889_062957,
  1_026179_000001_000001_000007_000009_000023_000031_000109_000049_000073_000197_000337_002763_004789_008983_009691_032155,
  1_026193_000001_000003_000001_000003_000031_000025_000121_000091_000371_000339_000833_002217_004997_009425_010685_060037,
  1_026230_000001_000001_000007_000011_000031_000003_000105_000125_000255_000175_000803_001787_006231_004441_005031_029737,
  1_026234_000001_000001_000001_000011_000021_000063_000075_000209_000393_000437_000495_002397_004759_015703_029869_062685,
  1_026246_000001_000001_000007_000007_000025_000033_000117_000007_000293_000623_002001_002409_002487_014803_003329_038277,
  1_026267_000001_000001_000007_000009_000031_000051_000075_000151_000487_000085_000639_003529_004491_001957_022099_020263,
  1_026283_000001_000001_000007_000005_000003_000029_000011_000001_000255_000555_001269_000779_001525_007689_025847_039347,
  1_026300_000001_000001_000007_000007_000019_000021_000009_000123_000003_000943_001627_002979_000919_004565_031435_059789,
  1_026341_000001_000003_000007_000005_000029_000013_000057_000221_000009_000893_001685_001879_004575_007369_026191_006067,
  1_026356_000001_000003_000007_000009_000013_000011_000009_000027_000313_000751_001377_001121_003799_001673_016305_030665,
  1_026377_000001_000003_000003_000013_000023_000017_000059_000047_000499_000525_000681_003195_001611_007003_007325_053019,
  1_026397_000001_000003_000001_000007_000023_000051_000059_000127_000067_000263_001305_002479_000637_009441_006329_012857,
  1_026404_000001_000001_000007_000007_000009_000003_000051_000193_000205_000503_000019_002513_007489_009241_015371_020875,
  1_026411_000001_000003_000003_000001_000001_000057_000017_000181_000023_000549_000769_002325_003669_007017_025601_064479,
  1_026422_000001_000003_000001_000015_000005_000055_000053_000013_000327_000447_001031_001599_003639_015305_001387_016035,
  1_026451_000001_000003_000007_000015_000009_000041_000053_000113_000097_000099_001377_004047_003713_008891_005601_005853,
  1_026454_000001_000001_000007_000009_000009_000007_000029_000249_000411_000315_000181_002153_006135_006947_027595_015553,
  1_026463_000001_000001_000007_000011_000003_000057_000035_000055_000165_000313_000577_003049_004259_004231_007225_058973,
  1_026488_000001_000001_000001_000001_000015_000043_000053_000143_000157_000843_000465_003897_004797_012305_028807_046381,
  1_026498_000001_000003_000007_000009_000017_000003_000099_000061_000475_000507_000831_002207_000367_000027_023205_002303,
  1_026509_000001_000001_000003_000011_000027_000029_000099_000237_000043_000955_000361_003231_001863_007973_008969_058663,
  1_026512_000001_000003_000001_000007_000015_000015_000011_000251_000135_000261_000675_003723_007675_007993_001725_041149,
  1_026517_000001_000003_000003_000009_000029_000011_000105_000037_000151_000215_001911_004051_005427_011019_009073_033129,
  1_026534_000001_000003_000003_000001_000019_000007_000103_000081_000371_000253_001043_001231_006497_010377_002349_029047,
  1_026545_000001_000003_000007_000009_000015_000011_000085_000061_000507_000629_000811_003883_001435_013035_031913_002153,
  1_026546_000001_000001_000005_000011_000013_000007_000063_000147_000117_000223_001217_003317_003275_006851_002917_055901,
  1_026636_000001_000003_000003_000009_000007_000021_000001_000063_000117_000297_000405_000797_000337_010173_008327_029157,
  1_026749_000001_000001_000007_000011_000031_000063_000097_000191_000259_000421_001829_002117_004203_011919_018001_055791,
  1_026753_000001_000003_000007_000009_000021_000013_000125_000247_000133_000611_000463_000227_007815_008877_017961_003641,
  1_026759_000001_000001_000007_000009_000027_000021_000097_000165_000371_000715_000491_003929_003067_012501_005511_018217,
  1_026774_000001_000003_000003_000015_000027_000017_000081_000161_000263_000273_000135_001159_007535_004581_016065_011493,
  1_026789_000001_000003_000003_000007_000011_000059_000111_000047_000381_000413_000243_002173_004957_002451_015669_022071,
  1_026808_000001_000003_000007_000005_000003_000031_000065_000131_000111_000141_001891_002983_003331_000769_024075_040865,
  1_026825_000001_000003_000007_000011_000011_000063_000007_000213_000333_000111_001235_000961_003749_009123_005067_009657,
  1_026831_000001_000003_000003_000001_000009_000033_000001_000225_000037_000951_001995_003215_003117_003723_015013_064525,
  1_026859_000001_000003_000003_000013_000029_000019_000103_000065_000067_000423_001679_003791_005551_011711_000195_052291,
  1_026888_000001_000003_000001_000015_000031_000007_000065_000249_000489_000287_001385_001075_001357_013593_020853_046221,
  1_026918_000001_000001_000001_000013_000023_000045_000029_000175_000147_000101_001007_001867_005387_012683_029609_055861,
  1_026929_000001_000003_000005_000013_000021_000031_000085_000187_000183_000179_001337_000481_000071_006117_002177_027915,
  1_026950_000001_000003_000005_000001_000015_000005_000011_000141_000205_000177_000891_003591_004371_000889_012957_061083,
  1_026954_000001_000003_000007_000007_000011_000039_000081_000241_000013_000757_000521_003029_002345_012385_020683_064053,
  1_026973_000001_000001_000005_000013_000007_000003_000077_000211_000215_000097_001409_001021_001267_004785_027231_002877,
  1_026997_000001_000003_000005_000003_000011_000057_000093_000039_000415_000179_001033_003267_005383_010451_027117_010711,
  1_026998_000001_000001_000001_000001_000003_000045_000093_000179_000453_000995_001423_003849_004381_015789_020789_018775,
  1_027008_000001_000003_000001_000003_000013_000025_000033_000165_000351_000887_001109_000195_008131_003061_016743_022997,
  1_027038_000001_000003_000001_000005_000023_000035_000093_000155_000333_000603_001571_000229_002979_006295_020793_040901,
  1_027109_000001_000003_000003_000011_000029_000057_000101_000061_000487_000719_001009_001933_007815_015329_012489_026105,
  1_027127_000001_000003_000003_000009_000023_000059_000073_000013_000141_000815_001819_003557_002555_005901_023039_062321,
  1_027150_000001_000001_000003_000005_000019_000049_000027_000139_000035_000995_000565_000323_006439_015679_027017_030889,
  1_027168_000001_000003_000007_000003_000001_000003_000027_000153_000235_000059_000989_002763_004197_003931_031227_027129,
  1_027178_000001_000003_000001_000015_000023_000045_000071_000205_000465_000451_000347_001909_003287_008363_009081_035641,
  1_027212_000001_000001_000005_000001_000025_000029_000017_000201_000463_000903_001729_003435_002483_010835_014315_052505,
  1_027224_000001_000001_000001_000015_000013_000023_000003_000175_000273_000305_001945_003319_007777_009411_004209_004047,
  1_027229_000001_000001_000005_000015_000025_000005_000071_000035_000307_000089_000301_003465_001497_013467_021911_013611,
  1_027246_000001_000003_000001_000007_000011_000007_000033_000241_000349_000751_000633_003281_006733_013833_023605_034307,
  1_027251_000001_000001_000001_000015_000017_000027_000045_000013_000259_000843_001207_001735_004063_006259_001751_045107]

def dirRows16_0_17 : List Nat := [
  1_027257_000001_000001_000005_000015_000029_000051_000073_000095_000005_000031_000933_000423_005505_002193_014919_002715,
  1_027258_000001_000003_000001_000003_000023_000005_000029_000007_000271_000485_000827_001159_000077_016337_027933_018741,
  1_027260_000001_000003_000007_000009_000023_000033_000047_000191_000059_000301_001277_003745_007837_000799_002861_025853,
  1_027287_000001_000003_000007_000013_000013_000039_000033_000091_000279_000855_001917_003601_003971_006193_016951_006115,
  1_027300_000001_000001_000003_000013_000015_000059_000089_000239_000313_000545_000431_003823_005741_014981_002647_042813,
  1_027315_000001_000001_000001_000003_000017_000021_000045_000037_000343_000737_001795_002659_002897_007683_015191_001393,
  1_027329_000001_000001_000003_000003_000019_000055_000027_000201_000459_000953_001531_000671_005667_011695_000149_014605,
  1_027332_000001_000003_000007_000013_000009_000063_000067_000229_000069_000819_000859_002035_005725_013403_024197_002599,
  1_027349_000001_000001_000007_000007_000001_000059_000045_000105_000327_000779_000059_000791_007593_008189_028161_013339,
  1_027350_000001_000003_000003_000015_000025_000055_000125_000189_000327_000733_000115_003541_005227_012143_032719_015785,
  1_027354_000001_000003_000003_000007_000019_000051_000035_000063_000507_000089_001441_002369_004927_007953_010193_008331,
  1_027359_000001_000001_000005_000005_000021_000001_000041_000049_000217_001001_001649_002789_005267_001525_003811_040785,
  1_027377_000001_000001_000007_000015_000031_000021_000033_000183_000425_000393_000367_003253_003047_000465_028229_044743,
  1_027378_000001_000003_000007_000005_000001_000023_000011_000071_000269_000707_000005_002931_001959_015089_009299_043927,
  1_027383_000001_000003_000005_000015_000021_000051_000031_000015_000049_000481_000297_003871_000751_010661_026401_062923,
  1_027384_000001_000003_000001_000007_000017_000027_000035_000255_000205_000865_001659_001921_005457_011633_002825_013549,
  1_027387_000001_000001_000005_000015_000017_000035_000083_000237_000437_000007_002001_002225_002601_010841_007953_020651,
  1_027392_000001_000001_000001_000003_000003_000037_000043_000135_000451_000203_001319_000261_003889_014489_009635_052545,
  1_027402_000001_000003_000003_000013_000015_000041_000095_000207_000043_000997_000207_003459_005995_005187_015851_028551,
  1_027438_000001_000001_000001_000005_000023_000057_000049_000101_000303_000921_000745_001407_007071_002765_018703_032671,
  1_027481_000001_000001_000007_000013_000009_000059_000065_000157_000209_000295_000107_003175_003401_001197_001875_009033,
  1_027482_000001_000001_000003_000003_000017_000009_000101_000075_000177_000905_001013_000397_003421_006475_015897_011269,
  1_027494_000001_000003_000001_000005_000029_000053_000105_000083_000383_000137_001169_001245_006973_008701_000317_010073,
  1_027531_000001_000001_000001_000003_000015_000055_000069_000219_000507_000707_000945_000397_000779_004157_010333_007869,
  1_027542_000001_000003_000001_000003_000009_000021_000125_000153_000107_000969_001979_000651_001199_011419_017043_032269,
  1_027546_000001_000001_000001_000007_000001_000029_000071_000127_000209_000853_001515_001169_005055_009981_030291_029569,
  1_027564_000001_000003_000001_000011_000001_000001_000109_000251_000329_000633_002021_001237_002147_011471_026025_019649,
  1_027567_000001_000001_000005_000001_000005_000007_000077_000175_000251_000143_000711_001241_002133_009993_009203_024949,
  1_027582_000001_000003_000005_000011_000019_000011_000101_000083_000091_000595_000753_002389_001887_011569_029759_055785,
  1_027608_000001_000001_000001_000003_000029_000047_000049_000249_000495_000451_001887_002547_000543_002755_017207_024379,
  1_027611_000001_000003_000007_000007_000019_000015_000095_000143_000109_000221_002041_003593_004571_014547_014217_016711,
  1_027624_000001_000003_000005_000013_000027_000055_000031_000209_000039_000989_001435_001665_007265_014127_013517_037647,
  1_027629_000001_000001_000003_000007_000001_000049_000063_000071_000249_000371_000435_003591_002677_000143_028897_038981,
  1_027655_000001_000001_000007_000007_000021_000009_000053_000221_000023_000515_001971_003759_003511_010207_012929_042021,
  1_027667_000001_000003_000001_000013_000025_000021_000003_000085_000421_000019_000663_003219_003541_013021_005765_039623,
  1_027676_000001_000003_000001_000007_000011_000005_000125_000169_000293_000715_001111_002965_004815_006047_027207_023093,
  1_027710_000001_000001_000005_000013_000011_000015_000037_000201_000457_000551_000821_000025_000435_014307_025855_001811,
  1_027724_000001_000003_000003_000009_000027_000015_000001_000253_000217_000549_001013_002277_004171_003813_019857_008641,
  1_027745_000001_000003_000005_000005_000029_000037_000071_000049_000163_000949_000425_002459_000945_013125_013981_021669,
  1_027752_000001_000003_000003_000009_000017_000023_000053_000235_000083_000887_000439_001939_007601_015275_015739_017623,
  1_027770_000001_000003_000005_000013_000007_000051_000073_000067_000167_000849_002021_002977_006591_003721_005827_040897,
  1_027779_000001_000001_000005_000011_000027_000019_000081_000181_000383_000023_001061_003327_001671_007113_007435_017591,
  1_027781_000001_000003_000003_000007_000025_000033_000073_000023_000103_000821_000917_001425_004739_007227_012365_029509,
  1_027791_000001_000001_000001_000007_000003_000037_000081_000231_000135_000663_001983_000399_006881_014991_004957_020913,
  1_027809_000001_000003_000007_000015_000025_000041_000065_000215_000301_000471_001669_000065_000227_009307_029867_009503,
  1_027810_000001_000001_000007_000003_000025_000047_000031_000063_000053_000995_000033_001297_003423_012301_016255_014467,
  1_027815_000001_000003_000001_000001_000031_000025_000079_000131_000353_000169_001425_002257_002631_001559_000793_048383,
  1_027827_000001_000003_000003_000005_000031_000009_000093_000035_000503_000243_000595_002939_000771_007333_013429_059457,
  1_027834_000001_000003_000001_000007_000005_000051_000021_000237_000453_000743_000775_002207_000453_012077_012283_009735,
  1_027865_000001_000003_000001_000015_000005_000047_000059_000239_000087_000097_000885_003191_002547_013227_007433_004989,
  1_027899_000001_000003_000005_000015_000021_000033_000041_000155_000509_000317_000517_001101_000133_001897_008235_057673,
  1_027901_000001_000001_000005_000015_000007_000009_000059_000155_000415_000831_001173_001263_005451_007181_007233_051483,
  1_027914_000001_000001_000007_000003_000031_000043_000071_000039_000155_000529_000895_000827_003203_004625_032185_053507,
  1_027950_000001_000003_000001_000011_000015_000017_000085_000141_000277_000439_001775_004015_004457_000281_022455_047591,
  1_027994_000001_000003_000005_000011_000025_000041_000093_000039_000051_000655_001347_003109_002479_009057_018939_026217,
  1_028005_000001_000003_000003_000011_000031_000041_000007_000189_000241_000443_000065_001723_004817_013405_009641_063965,
  1_028009_000001_000001_000005_000003_000019_000029_000111_000011_000399_000277_000425_001331_005365_014521_016449_029411,
  1_028033_000001_000001_000003_000009_000025_000053_000091_000175_000481_000307_001025_000071_007425_010667_004053_025605,
  1_028039_000001_000003_000007_000007_000003_000013_000075_000175_000467_000363_001889_001759_001155_005511_013047_039637,
  1_028060_000001_000003_000007_000009_000005_000021_000065_000043_000223_000097_000835_002253_003313_009817_023015_055365,
  1_028067_000001_000001_000001_000013_000009_000063_000095_000061_000417_000713_001469_001815_000795_013609_001567_033535,
  1_028069_000001_000003_000007_000001_000025_000045_000041_000027_000053_000407_001633_001317_006267_003293_008899_045235,
  1_028099_000001_000003_000005_000011_000023_000047_000091_000211_000041_000775_001301_001407_007931_004491_007579_062321,
  1_028113_000001_000001_000001_000007_000023_000015_000057_000031_000437_000293_001999_002589_005453_002519_015533_026949,
  1_028114_000001_000003_000001_000009_000001_000027_000041_000165_000129_000297_001887_001171_000201_005817_024503_038911,
  1_028139_000001_000003_000001_000007_000001_000011_000063_000225_000191_000623_001281_003275_000167_014697_004905_047289,
  1_028142_000001_000003_000007_000007_000015_000047_000087_000177_000303_000391_000355_003997_007557_006201_020531_022483,
  1_028153_000001_000003_000003_000015_000017_000031_000111_000087_000061_000477_001581_003787_005919_010511_002607_062951,
  1_028166_000001_000003_000003_000009_000029_000019_000063_000027_000205_000915_001131_003821_000673_002875_012703_014367,
  1_028172_000001_000003_000007_000001_000021_000019_000025_000097_000281_000635_000629_000181_005207_011133_003687_003489,
  1_028183_000001_000003_000003_000009_000005_000063_000003_000021_000385_000713_001805_003583_002807_015455_013057_039771,
  1_028194_000001_000003_000005_000009_000003_000059_000001_000253_000123_000405_000575_003911_004609_011869_023593_000947,
  1_028232_000001_000001_000007_000005_000021_000027_000101_000221_000413_000153_001647_003637_000803_005697_020761_061137,
  1_028245_000001_000003_000007_000013_000031_000035_000111_000253_000187_000499_000465_000157_005551_010417_000323_034913,
  1_028246_000001_000001_000001_000007_000011_000041_000029_000065_000393_000069_001373_002291_007807_013159_013735_031001,
  1_028252_000001_000003_000007_000013_000031_000049_000001_000035_000377_000011_000427_002803_001725_009165_022633_063985,
  1_028265_000001_000003_000007_000013_000003_000041_000027_000043_000269_000599_001035_003681_000309_006011_001065_027901,
  1_028301_000001_000003_000005_000013_000001_000019_000105_000143_000425_000883_001669_000155_000189_008573_010759_025507,
  1_028323_000001_000003_000005_000001_000015_000037_000115_000009_000149_000079_001733_001045_001849_003289_013957_063171,
  1_028344_000001_000001_000003_000009_000017_000027_000049_000201_000155_000901_000047_001585_004419_008117_025425_014699,
  1_028362_000001_000001_000007_000013_000019_000055_000019_000021_000427_000077_001295_001471_006271_007985_019337_012701,
  1_028400_000001_000001_000001_000001_000011_000049_000101_000053_000175_000157_000839_002713_006149_006391_008089_027739,
  1_028417_000001_000003_000001_000001_000005_000021_000121_000199_000107_000221_000993_001737_000409_002545_009287_054605,
  1_028454_000001_000001_000001_000003_000025_000025_000051_000121_000371_000861_000967_003257_006221_011701_027897_042509,
  1_028466_000001_000001_000001_000003_000017_000025_000101_000191_000313_000817_000815_001855_007999_012649_023385_026081,
  1_028468_000001_000001_000005_000001_000025_000055_000051_000237_000063_000943_000455_000619_002381_009773_014575_034205,
  1_028477_000001_000003_000003_000003_000013_000049_000101_000037_000457_000727_001009_002389_004841_016303_009599_017773,
  1_028498_000001_000001_000007_000009_000019_000059_000111_000205_000019_000229_001755_001169_007767_013335_019669_033269,
  1_028510_000001_000003_000001_000015_000029_000001_000051_000167_000007_000415_001295_003165_001241_012859_005531_020083,
  1_028513_000001_000001_000003_000007_000007_000051_000031_000221_000057_000643_001461_003951_006237_005757_001907_040471,
  1_028571_000001_000003_000003_000005_000023_000039_000049_000177_000183_000117_001379_003803_000771_012723_022291_032667,
  1_028573_000001_000001_000003_000013_000027_000017_000039_000027_000313_000141_001421_002967_002213_001915_023219_015113,
  1_028578_000001_000001_000001_000011_000005_000055_000051_000055_000389_000895_000057_001447_001497_002799_019585_011587,
  1_028587_000001_000001_000005_000013_000011_000055_000091_000077_000069_000131_000093_001383_003321_010487_015087_008539,
  1_028601_000001_000001_000003_000009_000023_000049_000107_000131_000363_000733_001189_003575_007815_010071_020291_007533,
  1_028646_000001_000001_000003_000015_000031_000031_000073_000015_000199_000017_000761_003271_001419_012985_032717_037317,
  1_028663_000001_000003_000001_000013_000023_000009_000003_000059_000109_000729_001321_004023_007041_014445_022205_008993,
  1_028681_000001_000001_000003_000015_000019_000043_000099_000059_000491_000479_000715_002235_007493_000889_031465_001375,
  1_028682_000001_000003_000003_000015_000009_000047_000035_000115_000227_000615_000605_001143_005923_010939_009497_024911,
  1_028699_000001_000001_000003_000015_000023_000053_000111_000087_000423_000497_000085_003525_007341_008885_021543_030083]

def dirRows16_0_18 : List Nat := [
  1_028706_000001_000001_000005_000003_000021_000005_000117_000157_000407_000743_000715_001883_004425_010187_006395_043673,
  1_028708_000001_000003_000003_000003_000031_000039_000119_000077_000269_000891_001391_003085_002881_010639_003391_044911,
  1_028717_000001_000003_000007_000005_000007_000005_000115_000091_000005_000107_001401_001409_001811_000737_005399_009119,
  1_028720_000001_000001_000005_000009_000017_000045_000107_000015_000397_000299_001219_001675_000963_010111_031679_013809,
  1_028735_000001_000001_000003_000007_000029_000017_000043_000095_000261_000601_001091_003633_001357_013461_016583_012183,
  1_028761_000001_000001_000005_000001_000019_000055_000005_000195_000187_000427_000421_001717_004223_002943_023147_032985,
  1_028783_000001_000003_000001_000003_000003_000023_000069_000095_000347_000273_001223_003061_001587_004707_032415_053991,
  1_028788_000001_000001_000007_000013_000015_000013_000029_000151_000325_000949_002029_000813_005339_014165_001159_056917,
  1_028811_000001_000001_000001_000013_000009_000033_000067_000109_000215_000313_001407_003543_002403_005051_020367_013527,
  1_028825_000001_000003_000001_000009_000005_000001_000009_000195_000497_000495_001107_000745_001647_010637_001933_044965,
  1_028838_000001_000001_000003_000009_000013_000019_000049_000183_000497_000519_001433_000519_004317_002359_010349_063789,
  1_028850_000001_000003_000005_000009_000029_000045_000055_000163_000189_000533_000275_000237_005453_008895_006377_014117,
  1_028891_000001_000003_000007_000005_000025_000003_000111_000241_000139_000383_000689_003481_002557_011163_005275_014671,
  1_028897_000001_000003_000003_000009_000003_000005_000005_000141_000507_000331_000645_001957_005857_002083_024717_011131,
  1_028932_000001_000001_000005_000001_000011_000049_000113_000045_000491_000945_001467_003485_006369_015983_014489_012679,
  1_028975_000001_000003_000007_000009_000011_000041_000077_000127_000147_000635_001757_000587_007423_004233_014875_030531,
  1_028998_000001_000003_000003_000009_000017_000029_000021_000249_000155_000441_001443_002093_001967_002117_005815_003857,
  1_029052_000001_000003_000005_000003_000011_000055_000075_000157_000105_000507_000309_003737_002645_007547_029373_062775,
  1_029090_000001_000001_000003_000003_000011_000029_000049_000241_000021_000653_001273_000715_008123_014241_025257_001681,
  1_029096_000001_000001_000007_000005_000011_000031_000033_000215_000243_000369_000247_003365_004065_009389_032457_058393,
  1_029104_000001_000003_000005_000003_000031_000055_000051_000201_000439_000835_001805_000025_007987_010611_026893_043663,
  1_029113_000001_000001_000005_000009_000027_000051_000029_000031_000017_000163_000071_000603_003083_012439_011043_006471,
  1_029133_000001_000001_000005_000007_000013_000001_000091_000109_000213_000721_001345_003037_003047_005209_015559_017467,
  1_029142_000001_000001_000003_000009_000019_000037_000093_000185_000107_000859_000501_003843_001631_004389_002215_052225,
  1_029170_000001_000001_000003_000003_000025_000005_000119_000017_000033_000841_000997_000439_006135_007405_008445_040087,
  1_029192_000001_000001_000007_000015_000019_000017_000101_000043_000423_000647_000029_001143_003259_007807_015929_000809,
  1_029221_000001_000001_000007_000013_000021_000057_000083_000101_000183_000309_000171_003173_007919_007263_029403_011055,
  1_029236_000001_000001_000001_000013_000003_000001_000057_000015_000435_000713_000459_000847_003115_000191_019809_043037,
  1_029246_000001_000001_000007_000007_000017_000045_000091_000117_000157_000647_000121_004091_003611_014169_019883_009069,
  1_029293_000001_000001_000007_000007_000001_000047_000021_000253_000419_000157_000549_002105_004475_003127_003939_005809,
  1_029305_000001_000001_000005_000007_000015_000007_000071_000195_000087_000757_000077_001391_000151_012995_026403_017789,
  1_029312_000001_000001_000001_000015_000015_000003_000079_000043_000475_000263_001195_002385_005955_007039_015625_019263,
  1_029339_000001_000001_000005_000013_000013_000029_000005_000029_000489_000929_002027_002771_006899_014173_013747_001019,
  1_029365_000001_000001_000007_000001_000005_000045_000037_000085_000221_000871_000627_003445_004853_004243_021651_030201,
  1_029389_000001_000003_000007_000011_000009_000049_000073_000245_000161_000321_000579_002641_006653_005513_011555_053091,
  1_029402_000001_000001_000007_000007_000025_000063_000101_000179_000497_000113_000009_000549_005341_006097_013305_052421,
  1_029423_000001_000003_000003_000007_000021_000007_000089_000079_000137_000651_000189_003025_001403_004559_032611_001857,
  1_029443_000001_000003_000001_000013_000027_000055_000061_000135_000081_000195_000799_003477_004873_002691_029769_059033,
  1_029445_000001_000003_000003_000015_000029_000011_000007_000011_000151_000649_001511_002327_006921_012911_003571_035039,
  1_029463_000001_000001_000005_000011_000025_000019_000049_000133_000455_000373_001827_003619_002127_003365_011327_052785,
  1_029473_000001_000003_000005_000001_000009_000019_000107_000171_000205_000093_001557_002693_004297_004415_020407_019221,
  1_029493_000001_000003_000003_000011_000015_000045_000037_000143_000061_000759_002047_002465_003923_009477_030831_046377,
  1_029506_000001_000003_000007_000011_000017_000051_000117_000129_000077_000579_001167_001575_001967_010099_022137_031431,
  1_029518_000001_000001_000005_000013_000031_000061_000067_000037_000049_000283_000235_000783_007353_005149_012245_018725,
  1_029532_000001_000001_000005_000003_000017_000033_000035_000083_000359_000253_001911_000913_006481_004635_024223_019693,
  1_029560_000001_000001_000001_000013_000019_000015_000081_000131_000417_000969_001911_002829_003097_005333_011175_052269,
  1_029590_000001_000003_000007_000015_000005_000039_000019_000205_000329_000083_001473_003259_006409_012297_030557_040917,
  1_029594_000001_000003_000001_000015_000017_000033_000123_000185_000501_000299_000621_000929_005797_010539_012321_061043,
  1_029637_000001_000003_000003_000001_000007_000051_000119_000019_000017_000203_000373_002145_002367_009965_028071_050083,
  1_029647_000001_000001_000001_000005_000001_000035_000043_000243_000091_000793_001299_002705_007987_001291_010147_017863,
  1_029650_000001_000003_000005_000015_000027_000013_000099_000033_000179_000479_000897_001113_001639_012321_023987_036219,
  1_029655_000001_000001_000005_000009_000029_000041_000085_000009_000389_000583_000293_001727_002575_013767_015443_040027,
  1_029661_000001_000001_000007_000011_000029_000033_000093_000115_000051_000747_001569_003557_000869_001991_029877_044131,
  1_029680_000001_000003_000007_000007_000029_000011_000033_000137_000411_000689_001815_001789_006557_005973_019445_049449,
  1_029721_000001_000001_000005_000001_000017_000003_000077_000055_000351_000325_000983_003935_000819_014127_018893_062553,
  1_029751_000001_000003_000003_000001_000015_000033_000025_000159_000135_000385_000837_003615_001649_001687_003421_047579,
  1_029755_000001_000003_000001_000007_000017_000025_000125_000169_000469_000919_001789_000863_002827_000949_021347_010517,
  1_029760_000001_000003_000001_000011_000027_000019_000045_000255_000175_000483_001073_003779_000611_002809_000179_019767,
  1_029772_000001_000001_000003_000001_000021_000061_000047_000171_000179_000085_000061_001209_004005_011439_008477_027229,
  1_029778_000001_000001_000001_000001_000003_000001_000043_000159_000261_000411_001449_001621_003681_003465_024029_003493,
  1_029799_000001_000003_000001_000011_000005_000013_000009_000023_000369_000769_000363_003329_000409_013151_030269_009621,
  1_029824_000001_000001_000005_000001_000013_000039_000121_000039_000295_000981_001151_004039_008179_005007_025527_001249,
  1_029841_000001_000003_000007_000005_000017_000021_000047_000233_000211_000349_000643_000109_007553_011453_030967_030959,
  1_029842_000001_000001_000005_000003_000031_000039_000105_000137_000487_000855_000107_001567_002385_002889_025777_033709,
  1_029853_000001_000001_000001_000009_000001_000007_000009_000069_000465_000965_000355_000299_003327_014997_014599_002241,
  1_029867_000001_000003_000005_000011_000005_000039_000069_000203_000367_000611_000199_003931_005039_008683_008675_049151,
  1_029949_000001_000001_000007_000013_000031_000035_000101_000213_000273_000827_000203_002773_004131_001397_015311_062903,
  1_029950_000001_000003_000007_000009_000023_000041_000033_000213_000411_000965_000563_003035_000247_015019_020429_061081,
  1_029964_000001_000001_000005_000005_000005_000001_000001_000203_000027_000199_000067_001301_007831_012839_002777_006325,
  1_029967_000001_000003_000001_000011_000027_000003_000011_000173_000009_000121_001701_002741_000029_016319_015849_011989,
  1_029985_000001_000001_000005_000013_000017_000049_000125_000153_000261_000603_001617_003967_006083_007745_019683_049885,
  1_029992_000001_000003_000003_000007_000023_000013_000039_000169_000135_000361_000579_001443_007615_002389_005669_000651,
  1_030000_000001_000003_000005_000009_000031_000019_000081_000083_000483_000093_001895_002285_007771_008281_008353_039677,
  1_030020_000001_000001_000007_000007_000023_000051_000127_000025_000101_000611_001095_003013_002685_008153_022629_053355,
  1_030024_000001_000001_000001_000011_000011_000037_000035_000127_000317_000877_001591_000401_004121_009945_012121_028257,
  1_030030_000001_000003_000005_000011_000023_000009_000043_000135_000037_000405_002009_002903_003065_006591_008473_058231,
  1_030066_000001_000001_000003_000011_000021_000045_000021_000205_000425_000891_000357_002609_000495_007541_002161_037853,
  1_030071_000001_000003_000001_000001_000025_000009_000113_000243_000317_000491_000997_002023_005869_013643_011483_006733,
  1_030078_000001_000003_000001_000015_000013_000003_000075_000025_000409_000421_001817_000857_004575_012559_001211_062177,
  1_030082_000001_000001_000003_000007_000017_000035_000115_000195_000217_000223_001195_000749_005619_007265_007369_046907,
  1_030096_000001_000001_000001_000013_000005_000057_000117_000161_000121_000533_000987_003959_005047_015213_015811_041841,
  1_030101_000001_000003_000007_000001_000019_000055_000097_000191_000217_000075_001881_003351_003737_012179_022875_028767,
  1_030102_000001_000003_000001_000009_000015_000041_000009_000097_000491_000031_001191_000963_000875_008259_002723_009503,
  1_030122_000001_000003_000007_000009_000003_000017_000021_000071_000001_000523_002031_003469_003181_008707_006093_008837,
  1_030141_000001_000003_000005_000003_000005_000001_000011_000091_000033_000037_000643_000085_004325_004293_008351_028311,
  1_030159_000001_000003_000007_000005_000015_000045_000047_000183_000391_000113_000493_003607_002541_013521_031613_036049,
  1_030168_000001_000001_000003_000009_000015_000033_000115_000069_000289_000217_001875_001339_004995_009073_006909_015977,
  1_030177_000001_000001_000007_000003_000009_000029_000039_000219_000119_000369_000893_001293_004511_015703_011093_030259,
  1_030183_000001_000001_000005_000013_000019_000009_000017_000075_000149_000415_000035_000097_000563_001689_018311_054291,
  1_030197_000001_000001_000007_000003_000017_000015_000071_000029_000025_000883_001801_001675_005585_009413_003813_026673,
  1_030213_000001_000001_000003_000015_000005_000013_000031_000041_000311_000411_000573_000281_008075_007163_011817_029121,
  1_030231_000001_000001_000007_000009_000007_000057_000015_000141_000337_000123_000269_003737_006455_002539_013655_059809,
  1_030232_000001_000003_000001_000015_000015_000023_000111_000051_000429_000483_001567_001317_008057_001609_030181_035687,
  1_030241_000001_000003_000007_000009_000025_000043_000067_000013_000319_000587_001827_000443_002031_008563_016173_058667,
  1_030253_000001_000003_000005_000013_000011_000063_000089_000105_000377_000257_000007_004077_005091_005125_000025_039033,
  1_030259_000001_000003_000003_000001_000009_000029_000007_000087_000239_000469_001851_001711_005797_007137_011405_020175,
  1_030262_000001_000003_000003_000001_000013_000017_000101_000209_000301_000095_001181_003091_004451_001241_017057_000335,
  1_030268_000001_000001_000001_000009_000031_000007_000081_000161_000391_000677_000115_000141_005375_007279_001887_001645,
  1_030297_000001_000001_000001_000011_000027_000061_000003_000195_000189_000409_001747_000331_002931_009535_001369_047233,
  1_030316_000001_000003_000005_000015_000007_000015_000105_000255_000491_000689_000097_001131_003459_007147_027541_062307]

def dirRows16_0_19 : List Nat := [
  1_030322_000001_000003_000005_000009_000005_000023_000001_000209_000233_000717_001919_001835_005073_010403_028979_001945,
  1_030344_000001_000001_000003_000009_000003_000035_000107_000209_000255_000447_000227_000273_000443_009367_024105_034095,
  1_030350_000001_000001_000003_000011_000003_000033_000005_000165_000083_000787_001555_000031_004351_016301_027453_056739,
  1_030355_000001_000001_000005_000005_000029_000009_000127_000253_000281_000487_000441_001129_002811_009113_028855_057117,
  1_030429_000001_000001_000001_000013_000013_000001_000017_000143_000121_000917_001571_003777_002297_003691_003001_042327,
  1_030445_000001_000001_000005_000001_000025_000007_000041_000245_000241_000929_001203_003755_007113_009333_022549_012253,
  1_030477_000001_000003_000001_000011_000001_000013_000069_000073_000285_000975_001331_003411_007777_003489_002763_044297,
  1_030513_000001_000003_000005_000011_000003_000037_000021_000105_000153_000307_000989_000627_003127_006169_010573_022139,
  1_030520_000001_000003_000005_000015_000011_000011_000039_000021_000355_000437_000547_002283_006443_005561_006367_053899,
  1_030540_000001_000001_000001_000009_000025_000051_000097_000175_000131_000207_001367_002561_007455_008289_005877_004383,
  1_030551_000001_000003_000007_000001_000029_000017_000007_000001_000043_000831_000591_002145_000975_000909_023107_043987,
  1_030573_000001_000003_000005_000013_000005_000047_000065_000065_000439_000807_000271_001615_001873_010905_030537_003337,
  1_030609_000001_000001_000001_000013_000029_000001_000053_000005_000307_000347_001059_000545_001129_011883_005969_050433,
  1_030622_000001_000001_000003_000005_000031_000029_000063_000201_000255_000803_000677_001499_001691_014037_018251_006881,
  1_030635_000001_000003_000001_000005_000005_000013_000013_000121_000505_000855_000467_002803_003297_004689_018443_060757,
  1_030658_000001_000001_000005_000013_000011_000019_000011_000201_000101_000431_000693_001267_006909_007759_002265_006125,
  1_030667_000001_000001_000007_000013_000009_000003_000037_000209_000269_000027_001041_002587_004667_011077_027009_027967,
  1_030681_000001_000001_000005_000005_000001_000005_000127_000179_000463_000949_001525_000231_001201_003283_009929_046677,
  1_030684_000001_000003_000001_000015_000009_000011_000089_000129_000331_000833_001415_000229_002059_013145_030525_033773,
  1_030703_000001_000001_000007_000015_000007_000043_000095_000177_000313_000989_000483_000825_001885_004535_008213_039835,
  1_030705_000001_000001_000007_000003_000019_000027_000045_000163_000017_000523_001565_003753_007433_014117_008499_040177,
  1_030715_000001_000003_000003_000015_000023_000045_000095_000031_000055_000469_000383_000237_006287_005561_020901_048259,
  1_030742_000001_000001_000003_000001_000023_000061_000101_000185_000035_000553_000463_001169_002875_012491_014327_047999,
  1_030748_000001_000003_000003_000013_000023_000029_000077_000021_000019_000003_000769_001943_002081_009135_029767_011367,
  1_030758_000001_000001_000005_000015_000005_000011_000059_000163_000355_000993_000375_003181_002675_008515_017007_038467,
  1_030767_000001_000001_000005_000013_000019_000005_000107_000083_000123_000843_000413_002137_007531_003833_006149_055925,
  1_030770_000001_000003_000001_000013_000023_000009_000041_000145_000265_000591_001899_003145_005255_013653_012245_025367,
  1_030772_000001_000001_000003_000015_000001_000045_000119_000079_000121_000137_001945_002041_002409_001377_029501_029885,
  1_030807_000001_000001_000007_000011_000027_000057_000075_000183_000341_000237_001909_002785_005973_009965_021729_045089,
  1_030814_000001_000003_000005_000007_000021_000001_000041_000189_000131_001021_001375_001463_005985_012499_004115_009131,
  1_030824_000001_000003_000007_000015_000021_000019_000059_000171_000339_000841_001725_002909_006437_002499_017191_043275,
  1_030857_000001_000003_000001_000001_000015_000055_000031_000199_000351_000183_001819_001873_007877_012407_007881_001663,
  1_030875_000001_000001_000003_000015_000001_000061_000111_000061_000115_000243_001281_003195_001229_010973_000189_036049,
  1_030931_000001_000001_000003_000015_000013_000013_000003_000049_000061_000839_001615_001853_003619_007805_025441_008789,
  1_030933_000001_000003_000001_000009_000027_000043_000007_000193_000397_000869_001079_001785_006535_001801_029363_059269,
  1_030949_000001_000003_000005_000005_000031_000057_000037_000053_000041_000871_000809_001235_001011_012979_008749_052151,
  1_030953_000001_000001_000007_000013_000025_000059_000069_000117_000463_000587_000513_000297_006991_005905_025737_037249,
  1_030982_000001_000001_000005_000001_000027_000019_000121_000097_000349_000793_001971_003057_004781_015841_022625_058637,
  1_031010_000001_000001_000005_000005_000025_000031_000011_000133_000411_000239_001071_003473_001733_007175_031841_046665,
  1_031012_000001_000003_000003_000013_000019_000025_000099_000175_000271_000175_001755_003597_004615_015207_025573_016089,
  1_031039_000001_000001_000007_000011_000017_000019_000119_000091_000505_000791_000055_002979_007463_010147_023647_033283,
  1_031041_000001_000003_000001_000001_000021_000011_000043_000173_000239_000839_001533_001559_000549_015621_022133_046387,
  1_031061_000001_000001_000003_000013_000031_000015_000073_000015_000209_000267_000701_002899_001163_010093_007727_044211,
  1_031082_000001_000003_000001_000011_000029_000021_000005_000039_000421_000375_000411_003693_003901_008507_010883_016189,
  1_031087_000001_000003_000001_000007_000013_000013_000073_000167_000149_000677_001435_000621_002511_013813_013129_055327,
  1_031096_000001_000003_000005_000015_000007_000059_000083_000221_000077_000357_000281_002689_005629_005837_001701_030811,
  1_031115_000001_000003_000003_000011_000017_000001_000043_000095_000473_000981_001487_001337_000905_003307_022357_000181,
  1_031130_000001_000001_000003_000007_000001_000027_000009_000003_000489_000001_001265_002463_000539_012769_000825_006149,
  1_031168_000001_000003_000003_000003_000011_000027_000081_000237_000411_000241_001613_000931_006397_004325_029651_049003,
  1_031171_000001_000003_000003_000013_000001_000019_000055_000073_000047_000203_001661_001245_006847_002457_025427_033069,
  1_031177_000001_000003_000007_000003_000007_000047_000011_000165_000391_000457_000301_001213_001913_014531_007847_014811,
  1_031180_000001_000003_000001_000009_000001_000009_000057_000203_000015_000733_001131_002751_005869_003165_021497_028881,
  1_031191_000001_000003_000001_000005_000009_000007_000029_000085_000071_000571_000469_002395_002819_008443_002281_050489,
  1_031207_000001_000003_000005_000011_000013_000063_000047_000047_000349_000021_000861_002217_002945_006967_006605_016459,
  1_031247_000001_000001_000007_000005_000013_000003_000041_000053_000409_000289_001225_002965_005283_001785_014443_051755,
  1_031249_000001_000003_000007_000013_000019_000001_000029_000191_000119_000037_000697_001909_000481_014157_013425_060581,
  1_031285_000001_000003_000001_000013_000001_000015_000105_000079_000505_000681_001741_003683_005775_007479_011387_001321,
  1_031303_000001_000001_000001_000011_000009_000035_000077_000073_000351_000217_002029_002845_005143_005677_015465_033123,
  1_031310_000001_000001_000003_000003_000019_000049_000063_000109_000335_000743_000741_001673_003311_003139_025197_013793,
  1_031337_000001_000003_000001_000003_000029_000063_000079_000001_000493_000013_001487_004015_006983_001433_026023_055591,
  1_031352_000001_000003_000003_000011_000001_000025_000057_000207_000309_000201_001513_001749_003785_009217_011531_040597,
  1_031357_000001_000003_000007_000013_000003_000023_000069_000253_000311_000773_000807_001063_000745_004843_025221_055885,
  1_031374_000001_000001_000003_000011_000029_000047_000067_000183_000011_000259_000005_001935_002295_008105_019139_011707,
  1_031379_000001_000001_000003_000003_000023_000003_000053_000165_000255_000501_001547_003649_005631_013307_008869_005595,
  1_031388_000001_000001_000003_000005_000007_000029_000037_000223_000289_000925_000959_000309_001479_003141_018661_052123,
  1_031410_000001_000003_000001_000001_000007_000059_000101_000219_000091_000793_001103_001485_007547_012889_019097_015613,
  1_031416_000001_000001_000005_000015_000001_000017_000079_000083_000131_000683_001611_001635_005405_009621_029489_004801,
  1_031467_000001_000001_000005_000007_000031_000063_000059_000125_000401_000261_001445_000033_000187_012913_008639_048413,
  1_031495_000001_000003_000003_000013_000027_000037_000027_000099_000379_000851_001311_004051_005483_013935_029679_030905,
  1_031504_000001_000001_000003_000001_000007_000057_000079_000023_000097_000561_001083_002327_001545_005387_012119_029717,
  1_031507_000001_000001_000007_000007_000009_000041_000063_000165_000315_000247_000089_002055_007399_001399_002057_039851,
  1_031509_000001_000001_000001_000015_000009_000023_000007_000015_000457_000669_000661_003269_000915_003475_015845_059769,
  1_031514_000001_000003_000007_000015_000017_000053_000083_000005_000457_000103_001297_002413_001095_007711_027935_056357,
  1_031516_000001_000001_000003_000005_000017_000003_000081_000023_000165_000341_000781_003583_001751_006763_013937_035331,
  1_031530_000001_000001_000005_000011_000031_000021_000007_000063_000369_000867_000573_000045_002781_004507_021553_051933,
  1_031555_000001_000001_000005_000015_000001_000037_000085_000133_000489_000733_001471_002089_000979_007723_007339_059595,
  1_031567_000001_000001_000001_000001_000007_000003_000003_000077_000137_001009_000481_001343_000397_015865_021701_037509,
  1_031570_000001_000003_000007_000005_000017_000057_000019_000245_000249_000289_001847_003057_004905_005905_032459_041305,
  1_031586_000001_000001_000005_000001_000023_000023_000001_000177_000115_000337_000983_000421_003135_006319_027109_059641,
  1_031598_000001_000003_000001_000005_000025_000001_000063_000073_000061_000967_001567_002645_007347_011877_028777_038507,
  1_031605_000001_000001_000003_000009_000005_000041_000039_000101_000339_000337_001079_003861_005049_005601_014377_034093,
  1_031609_000001_000003_000007_000007_000003_000047_000095_000157_000167_001011_001117_003669_007993_011735_008505_064713,
  1_031612_000001_000003_000001_000009_000003_000033_000011_000033_000065_000329_000401_002659_002851_003903_029791_041613,
  1_031626_000001_000001_000001_000015_000015_000017_000009_000069_000359_000041_001475_001919_005829_002189_021295_033255,
  1_031634_000001_000003_000001_000003_000009_000023_000073_000247_000399_000775_000419_003033_000865_012595_016345_015079,
  1_031655_000001_000003_000001_000005_000001_000017_000033_000023_000419_000585_000673_000929_006955_010247_012647_029107,
  1_031681_000001_000003_000003_000013_000009_000033_000011_000013_000127_000529_001219_002401_006459_014745_005123_053023,
  1_031705_000001_000003_000005_000011_000023_000011_000005_000019_000281_000121_001671_002171_004545_010691_024875_028849,
  1_031706_000001_000003_000001_000003_000013_000025_000085_000131_000127_000977_001599_003319_003107_003185_004879_003455,
  1_031718_000001_000001_000005_000001_000003_000013_000077_000015_000133_000185_001319_000727_002181_012175_028017_028023,
  1_031735_000001_000003_000007_000005_000029_000051_000113_000203_000331_000847_000001_003445_003669_007711_013647_058651,
  1_031741_000001_000003_000001_000003_000031_000027_000035_000199_000491_000839_001275_003385_004743_000821_026259_011345,
  1_031744_000001_000001_000007_000009_000021_000047_000009_000067_000119_000985_000127_001987_005451_006403_026183_008349,
  1_031762_000001_000003_000005_000001_000019_000003_000091_000217_000301_000595_001789_000735_004993_000229_018033_059625,
  1_031774_000001_000003_000003_000003_000011_000025_000103_000211_000117_000009_000773_001521_002265_008277_023179_022433,
  1_031864_000001_000001_000007_000009_000003_000027_000063_000255_000175_000699_000293_002409_003155_000285_008663_053503,
  1_031874_000001_000001_000005_000007_000027_000023_000063_000213_000323_000697_001541_003497_002985_012389_011155_026217,
  1_031900_000001_000003_000001_000003_000031_000007_000047_000207_000185_000873_001063_001055_000205_012469_023505_056245,
  1_031910_000001_000003_000007_000013_000031_000017_000047_000095_000091_000483_001997_003273_000445_002601_015219_010997,
  1_031928_000001_000003_000003_000005_000029_000045_000029_000083_000457_000823_001395_001411_001879_009409_011609_032001]

def dirRows16_0_20 : List Nat := [
  1_031965_000001_000003_000005_000011_000021_000011_000043_000073_000159_000137_000029_001957_000815_005077_016127_042199,
  1_031976_000001_000003_000005_000013_000009_000059_000047_000215_000293_000807_000309_001951_002285_009287_001019_049501,
  1_032016_000001_000001_000007_000013_000031_000007_000095_000189_000233_000363_001039_001675_001715_009049_008537_031051,
  1_032032_000001_000003_000007_000009_000023_000035_000125_000251_000107_000401_001113_003585_006331_002363_027889_028877,
  1_032037_000001_000001_000007_000013_000009_000001_000013_000069_000257_000369_000547_001595_001823_009553_025653_031181,
  1_032062_000001_000001_000007_000011_000009_000043_000003_000093_000069_001019_001935_003297_000047_007101_001037_063473,
  1_032069_000001_000001_000007_000005_000021_000009_000097_000105_000405_000893_001673_003783_002965_007329_004549_025433,
  1_032115_000001_000001_000005_000013_000005_000017_000031_000123_000415_000173_001333_002245_001557_016011_028321_004039,
  1_032128_000001_000001_000005_000009_000015_000003_000027_000079_000511_000039_000945_000049_003231_009199_021327_011183,
  1_032171_000001_000003_000003_000009_000003_000015_000115_000141_000387_000341_000953_000399_006109_012037_021079_026745,
  1_032173_000001_000003_000003_000001_000005_000005_000031_000195_000477_000755_000687_003811_000805_000679_020687_046299,
  1_032182_000001_000001_000007_000015_000001_000031_000067_000159_000205_000141_001667_003077_000451_013161_016211_006887,
  1_032191_000001_000003_000003_000001_000007_000043_000087_000005_000049_000205_000231_003957_002947_013199_015743_004681,
  1_032193_000001_000003_000003_000015_000025_000037_000095_000011_000439_000553_000059_001241_007407_013467_022403_044441,
  1_032194_000001_000001_000001_000003_000021_000003_000127_000239_000491_000139_001411_003417_004247_006247_013809_031609,
  1_032229_000001_000001_000005_000001_000009_000013_000005_000155_000109_000593_000119_004091_001911_008301_004239_050081,
  1_032230_000001_000003_000005_000013_000027_000003_000099_000225_000253_000169_000801_003741_001905_012073_031831_017997,
  1_032248_000001_000003_000007_000015_000009_000023_000093_000171_000453_000983_001657_001133_006381_005229_032303_017439,
  1_032263_000001_000001_000007_000011_000007_000005_000125_000141_000063_000763_001293_001007_004579_001479_011977_059261,
  1_032264_000001_000003_000001_000007_000001_000015_000049_000041_000367_000639_001933_000401_002335_002441_013653_055555,
  1_032269_000001_000003_000001_000007_000015_000023_000005_000213_000045_000721_000543_002133_004525_009719_028053_054075,
  1_032298_000001_000003_000007_000003_000011_000007_000023_000035_000169_000829_001957_002423_003583_004951_028957_029753,
  1_032335_000001_000001_000003_000003_000001_000005_000019_000235_000175_000969_000229_002335_007215_010195_007487_064191,
  1_032340_000001_000001_000007_000003_000027_000001_000073_000049_000445_000863_000069_003555_000993_009553_031941_029901,
  1_032356_000001_000003_000005_000011_000009_000025_000059_000177_000023_000997_001041_001135_003879_000767_002263_051267,
  1_032374_000001_000001_000007_000003_000001_000063_000049_000051_000237_000569_001293_001143_003125_016315_017009_024821,
  1_032390_000001_000003_000003_000015_000011_000017_000121_000025_000349_000833_000557_001975_005405_015189_031243_053541,
  1_032401_000001_000003_000007_000009_000011_000015_000039_000015_000075_000087_000055_002069_003291_000507_016925_057751,
  1_032414_000001_000001_000003_000015_000001_000021_000061_000139_000357_000931_000647_000947_002291_015557_006739_005881,
  1_032417_000001_000003_000001_000009_000001_000047_000073_000059_000115_000497_000733_001777_000905_016181_004351_007345,
  1_032442_000001_000003_000003_000007_000005_000021_000067_000113_000071_000743_000757_001851_007899_010315_015437_061803,
  1_032450_000001_000003_000007_000001_000009_000023_000077_000131_000395_000767_001229_002629_005731_011907_032217_018473,
  1_032461_000001_000003_000005_000015_000001_000023_000123_000207_000291_000565_001211_000501_002111_011381_005171_054841,
  1_032473_000001_000001_000001_000015_000021_000013_000003_000175_000405_000109_001353_002495_007619_014971_028179_034737,
  1_032479_000001_000003_000005_000003_000017_000025_000053_000071_000229_000729_001953_003119_007747_001551_023417_035563,
  1_032530_000001_000001_000007_000007_000011_000031_000081_000043_000149_000537_001253_002759_000431_004813_008375_046329,
  1_032536_000001_000001_000001_000005_000011_000027_000061_000199_000239_000889_000723_002353_005663_007385_028165_014675,
  1_032548_000001_000003_000001_000007_000003_000003_000083_000247_000247_000057_000579_001163_002615_004051_002809_046413,
  1_032577_000001_000001_000003_000011_000013_000047_000011_000235_000475_000035_000843_002329_003519_008899_014533_024889,
  1_032628_000001_000003_000001_000001_000007_000031_000015_000101_000327_000499_000471_001001_000339_011863_024787_047191,
  1_032642_000001_000001_000007_000001_000003_000055_000093_000043_000011_000065_000289_001249_005325_013867_029841_034333,
  1_032665_000001_000003_000003_000001_000025_000061_000087_000113_000115_000265_001007_001129_007633_006109_005733_022649,
  1_032666_000001_000003_000001_000011_000031_000059_000127_000083_000033_000419_001037_003777_006383_002711_002113_017233,
  1_032668_000001_000001_000005_000013_000011_000017_000073_000041_000257_000223_000359_003821_004617_001943_011331_040153,
  1_032696_000001_000001_000001_000001_000009_000025_000043_000179_000017_001021_001323_000761_005861_011547_026017_005165,
  1_032722_000001_000003_000005_000003_000029_000021_000053_000111_000213_000717_001101_003215_003021_016343_023387_033439,
  1_032757_000001_000003_000005_000013_000029_000011_000021_000089_000107_000111_001121_002785_003493_009873_000013_040863,
  1_032758_000001_000001_000005_000013_000015_000015_000111_000219_000059_000043_000333_003581_001311_002799_023987_021637]

/-- Rows with 16 initial numbers, part 0. -/
def dir16_0 : List (List Nat) := [
  dirRows16_0_0,
  dirRows16_0_1,
  dirRows16_0_2,
  dirRows16_0_3,
  dirRows16_0_4,
  dirRows16_0_5,
  dirRows16_0_6,
  dirRows16_0_7,
  dirRows16_0_8,
  dirRows16_0_9,
  dirRows16_0_10,
  dirRows16_0_11,
  dirRows16_0_12,
  dirRows16_0_13,
  dirRows16_0_14,
  dirRows16_0_15,
  dirRows16_0_16,
  dirRows16_0_17,
  dirRows16_0_18,
  dirRows16_0_19,
  dirRows16_0_20]

end SALib.Data
