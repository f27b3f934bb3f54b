import Mathlib.Data.Nat.Notation

/-!
# Table for the quadrature of the thermal inverse Compton function of a beam (generated)

Entry `i` of the table is `(A, B)`: `A / 10^5` is `(i / 100)^0.691` and `B / 10^5` is `(i / 100)^1.668`, rounded down.
The entries are checked by the kernel where they are used (`Verif/Proof/BeamQuad.lean`); nothing depends on how they were found.
-/

namespace Naima.Props

set_option maxRecDepth 20000 in
/-- powers of `i / 100`, `i = 0 … 1200` -/
def anTable : List (ℕ × ℕ) := [
  (0, 0), (4149, 46), (6699, 146), (8865, 288), (10814, 465), (12617, 675), (14312, 916), (15920, 1184),
  (17459, 1480), (18940, 1801), (20370, 2147), (21757, 2517), (23105, 2911), (24419, 3327), (25702, 3764), (26957, 4223),
  (28186, 4704), (29392, 5204), (30576, 5725), (31740, 6265), (32886, 6825), (34013, 7403), (35124, 8001), (36220, 8617),
  (37301, 9251), (38368, 9902), (39422, 10572), (40464, 11259), (41494, 11963), (42512, 12684), (43520, 13422), (44517, 14177),
  (45504, 14948), (46482, 15735), (47451, 16538), (48411, 17358), (49363, 18193), (50306, 19044), (51242, 19910), (52170, 20791),
  (53091, 21688), (54004, 22600), (54911, 23527), (55811, 24469), (56705, 25426), (57593, 26397), (58474, 27382), (59349, 28383),
  (60219, 29397), (61083, 30426), (61942, 31468), (62795, 32525), (63644, 33596), (64487, 34681), (65325, 35779), (66159, 36891),
  (66988, 38016), (67812, 39156), (68632, 40308), (69447, 41474), (70259, 42653), (71066, 43846), (71869, 45051), (72668, 46270),
  (73463, 47501), (74254, 48746), (75042, 50003), (75825, 51273), (76606, 52556), (77382, 53851), (78156, 55159), (78925, 56480),
  (79692, 57813), (80455, 59159), (81215, 60517), (81972, 61887), (82726, 63269), (83476, 64664), (84224, 66071), (84968, 67490),
  (85710, 68921), (86449, 70364), (87185, 71819), (87919, 73286), (88649, 74764), (89377, 76255), (90102, 77757), (90825, 79271),
  (91545, 80797), (92263, 82334), (92978, 83883), (93690, 85443), (94401, 87015), (95109, 88599), (95814, 90193), (96517, 91800),
  (97218, 93417), (97917, 95046), (98613, 96686), (99307, 98337), (100000, 100000), (100689, 101673), (101377, 103358), (102063, 105053),
  (102747, 106760), (103428, 108478), (104108, 110207), (104786, 111946), (105461, 113697), (106135, 115458), (106807, 117231), (107477, 119014),
  (108145, 120807), (108812, 122612), (109476, 124427), (110139, 126253), (110800, 128090), (111459, 129937), (112116, 131795), (112772, 133663),
  (113426, 135542), (114078, 137431), (114729, 139331), (115378, 141241), (116025, 143161), (116671, 145092), (117315, 147034), (117958, 148985),
  (118599, 150947), (119238, 152919), (119876, 154902), (120513, 156894), (121148, 158897), (121781, 160910), (122413, 162933), (123044, 164966),
  (123673, 167010), (124300, 169063), (124927, 171126), (125551, 173200), (126175, 175283), (126797, 177377), (127418, 179480), (128037, 181593),
  (128655, 183716), (129272, 185849), (129887, 187992), (130501, 190145), (131114, 192307), (131726, 194479), (132336, 196661), (132945, 198853),
  (133553, 201055), (134159, 203266), (134764, 205487), (135368, 207717), (135971, 209957), (136573, 212207), (137174, 214466), (137773, 216735),
  (138371, 219014), (138968, 221302), (139564, 223599), (140159, 225906), (140752, 228223), (141345, 230548), (141936, 232884), (142526, 235229),
  (143116, 237583), (143704, 239946), (144291, 242319), (144877, 244701), (145462, 247093), (146046, 249494), (146628, 251904), (147210, 254324),
  (147791, 256752), (148371, 259190), (148949, 261637), (149527, 264094), (150104, 266559), (150680, 269034), (151254, 271518), (151828, 274011),
  (152401, 276513), (152973, 279024), (153544, 281544), (154114, 284074), (154683, 286612), (155251, 289160), (155818, 291716), (156384, 294281),
  (156949, 296856), (157514, 299439), (158077, 302032), (158640, 304633), (159202, 307243), (159762, 309862), (160322, 312491), (160882, 315127),
  (161440, 317773), (161997, 320428), (162554, 323091), (163109, 325764), (163664, 328445), (164218, 331135), (164771, 333833), (165323, 336541),
  (165875, 339257), (166425, 341982), (166975, 344716), (167524, 347458), (168073, 350209), (168620, 352969), (169167, 355737), (169712, 358515),
  (170258, 361300), (170802, 364095), (171345, 366898), (171888, 369709), (172430, 372529), (172971, 375358), (173512, 378195), (174051, 381041),
  (174590, 383896), (175129, 386759), (175666, 389630), (176203, 392510), (176739, 395398), (177274, 398295), (177809, 401201), (178342, 404114),
  (178876, 407037), (179408, 409967), (179940, 412906), (180471, 415854), (181001, 418810), (181531, 421774), (182060, 424747), (182588, 427728),
  (183115, 430717), (183642, 433714), (184168, 436720), (184694, 439735), (185219, 442757), (185743, 445788), (186267, 448827), (186789, 451875),
  (187312, 454930), (187833, 457994), (188354, 461066), (188875, 464147), (189394, 467235), (189913, 470332), (190432, 473437), (190949, 476550),
  (191466, 479671), (191983, 482801), (192499, 485938), (193014, 489084), (193529, 492238), (194043, 495400), (194556, 498570), (195069, 501748),
  (195581, 504934), (196093, 508129), (196604, 511331), (197114, 514541), (197624, 517760), (198133, 520986), (198642, 524221), (199150, 527463),
  (199658, 530714), (200165, 533972), (200671, 537239), (201177, 540513), (201682, 543796), (202187, 547086), (202691, 550385), (203194, 553691),
  (203697, 557005), (204200, 560327), (204702, 563657), (205203, 566995), (205704, 570341), (206204, 573695), (206704, 577056), (207203, 580426),
  (207701, 583803), (208199, 587188), (208697, 590581), (209194, 593982), (209690, 597390), (210186, 600807), (210682, 604231), (211177, 607663),
  (211671, 611103), (212165, 614550), (212658, 618006), (213151, 621469), (213644, 624939), (214135, 628418), (214627, 631904), (215118, 635398),
  (215608, 638900), (216098, 642409), (216587, 645926), (217076, 649451), (217564, 652984), (218052, 656524), (218539, 660071), (219026, 663627),
  (219513, 667190), (219999, 670761), (220484, 674339), (220969, 677925), (221454, 681519), (221938, 685120), (222421, 688729), (222904, 692345),
  (223387, 695969), (223869, 699600), (224351, 703240), (224832, 706886), (225313, 710540), (225793, 714202), (226273, 717871), (226752, 721548),
  (227231, 725233), (227710, 728924), (228188, 732624), (228665, 736331), (229142, 740045), (229619, 743767), (230095, 747496), (230571, 751233),
  (231047, 754977), (231521, 758728), (231996, 762488), (232470, 766254), (232944, 770028), (233417, 773809), (233890, 777598), (234362, 781394),
  (234834, 785198), (235305, 789009), (235777, 792827), (236247, 796653), (236717, 800486), (237187, 804327), (237657, 808175), (238126, 812030),
  (238594, 815892), (239062, 819762), (239530, 823640), (239998, 827524), (240465, 831416), (240931, 835315), (241397, 839222), (241863, 843135),
  (242328, 847056), (242793, 850985), (243258, 854920), (243722, 858863), (244186, 862813), (244649, 866771), (245112, 870735), (245575, 874707),
  (246037, 878686), (246499, 882673), (246960, 886666), (247421, 890667), (247882, 894675), (248342, 898690), (248802, 902713), (249261, 906742),
  (249720, 910779), (250179, 914823), (250637, 918874), (251095, 922933), (251553, 926998), (252010, 931071), (252467, 935150), (252924, 939237),
  (253380, 943331), (253836, 947432), (254291, 951541), (254746, 955656), (255201, 959779), (255655, 963908), (256109, 968045), (256563, 972189),
  (257016, 976340), (257469, 980498), (257921, 984663), (258373, 988835), (258825, 993014), (259277, 997200), (259728, 1001393), (260179, 1005594),
  (260629, 1009801), (261079, 1014016), (261529, 1018237), (261978, 1022465), (262427, 1026701), (262876, 1030943), (263324, 1035193), (263772, 1039449),
  (264220, 1043713), (264667, 1047983), (265114, 1052260), (265561, 1056545), (266007, 1060836), (266453, 1065135), (266899, 1069440), (267344, 1073752),
  (267789, 1078071), (268234, 1082397), (268678, 1086730), (269122, 1091070), (269566, 1095417), (270009, 1099771), (270452, 1104132), (270895, 1108500),
  (271337, 1112874), (271779, 1117256), (272221, 1121644), (272662, 1126039), (273103, 1130441), (273544, 1134850), (273984, 1139266), (274425, 1143689),
  (274864, 1148118), (275304, 1152555), (275743, 1156998), (276182, 1161448), (276621, 1165905), (277059, 1170369), (277497, 1174840), (277934, 1179317),
  (278372, 1183801), (278809, 1188293), (279245, 1192790), (279682, 1197295), (280118, 1201807), (280554, 1206325), (280989, 1210850), (281424, 1215382),
  (281859, 1219921), (282294, 1224466), (282728, 1229018), (283162, 1233577), (283596, 1238143), (284029, 1242715), (284462, 1247294), (284895, 1251880),
  (285328, 1256473), (285760, 1261072), (286192, 1265679), (286624, 1270291), (287055, 1274911), (287486, 1279537), (287917, 1284170), (288347, 1288810),
  (288777, 1293456), (289207, 1298110), (289637, 1302769), (290066, 1307436), (290495, 1312109), (290924, 1316789), (291353, 1321475), (291781, 1326169),
  (292209, 1330868), (292636, 1335575), (293064, 1340288), (293491, 1345008), (293918, 1349734), (294344, 1354467), (294770, 1359207), (295196, 1363953),
  (295622, 1368706), (296048, 1373466), (296473, 1378232), (296898, 1383005), (297322, 1387784), (297747, 1392570), (298171, 1397363), (298594, 1402162),
  (299018, 1406968), (299441, 1411780), (299864, 1416599), (300287, 1421424), (300710, 1426257), (301132, 1431095), (301554, 1435940), (301975, 1440792),
  (302397, 1445650), (302818, 1450515), (303239, 1455387), (303659, 1460265), (304080, 1465149), (304500, 1470040), (304920, 1474938), (305339, 1479842),
  (305759, 1484752), (306178, 1489669), (306597, 1494593), (307015, 1499523), (307433, 1504460), (307852, 1509403), (308269, 1514352), (308687, 1519308),
  (309104, 1524271), (309521, 1529240), (309938, 1534215), (310355, 1539197), (310771, 1544186), (311187, 1549181), (311603, 1554182), (312018, 1559190),
  (312434, 1564204), (312849, 1569225), (313263, 1574252), (313678, 1579286), (314092, 1584326), (314506, 1589372), (314920, 1594425), (315334, 1599484),
  (315747, 1604550), (316160, 1609622), (316573, 1614701), (316986, 1619786), (317398, 1624877), (317810, 1629975), (318222, 1635079), (318634, 1640189),
  (319045, 1645306), (319456, 1650429), (319867, 1655559), (320278, 1660695), (320689, 1665838), (321099, 1670986), (321509, 1676142), (321919, 1681303),
  (322328, 1686471), (322737, 1691645), (323146, 1696826), (323555, 1702012), (323964, 1707206), (324372, 1712405), (324781, 1717611), (325188, 1722823),
  (325596, 1728042), (326004, 1733267), (326411, 1738498), (326818, 1743735), (327225, 1748979), (327631, 1754229), (328038, 1759486), (328444, 1764748),
  (328850, 1770017), (329255, 1775293), (329661, 1780574), (330066, 1785862), (330471, 1791156), (330876, 1796456), (331280, 1801763), (331685, 1807076),
  (332089, 1812395), (332493, 1817721), (332896, 1823052), (333300, 1828390), (333703, 1833735), (334106, 1839085), (334509, 1844442), (334911, 1849805),
  (335314, 1855174), (335716, 1860549), (336118, 1865931), (336520, 1871319), (336921, 1876713), (337322, 1882113), (337723, 1887519), (338124, 1892932),
  (338525, 1898351), (338925, 1903776), (339326, 1909207), (339726, 1914645), (340125, 1920089), (340525, 1925538), (340924, 1930995), (341324, 1936457),
  (341723, 1941925), (342121, 1947400), (342520, 1952881), (342918, 1958367), (343316, 1963861), (343714, 1969360), (344112, 1974865), (344510, 1980377),
  (344907, 1985895), (345304, 1991418), (345701, 1996948), (346098, 2002485), (346494, 2008027), (346890, 2013575), (347287, 2019130), (347682, 2024690),
  (348078, 2030257), (348474, 2035830), (348869, 2041409), (349264, 2046994), (349659, 2052586), (350054, 2058183), (350448, 2063786), (350842, 2069396),
  (351237, 2075012), (351630, 2080633), (352024, 2086261), (352418, 2091895), (352811, 2097535), (353204, 2103181), (353597, 2108833), (353990, 2114492),
  (354382, 2120156), (354775, 2125826), (355167, 2131503), (355559, 2137185), (355950, 2142874), (356342, 2148568), (356733, 2154269), (357125, 2159976),
  (357516, 2165688), (357906, 2171407), (358297, 2177132), (358687, 2182863), (359078, 2188600), (359468, 2194343), (359857, 2200092), (360247, 2205847),
  (360637, 2211608), (361026, 2217375), (361415, 2223148), (361804, 2228927), (362193, 2234712), (362581, 2240503), (362969, 2246300), (363358, 2252103),
  (363746, 2257912), (364133, 2263727), (364521, 2269548), (364908, 2275375), (365296, 2281208), (365683, 2287047), (366070, 2292892), (366456, 2298743),
  (366843, 2304600), (367229, 2310463), (367615, 2316331), (368001, 2322206), (368387, 2328087), (368773, 2333974), (369158, 2339866), (369543, 2345765),
  (369928, 2351669), (370313, 2357580), (370698, 2363496), (371082, 2369419), (371467, 2375347), (371851, 2381281), (372235, 2387221), (372619, 2393167),
  (373002, 2399119), (373386, 2405077), (373769, 2411041), (374152, 2417011), (374535, 2422987), (374918, 2428968), (375300, 2434956), (375683, 2440949),
  (376065, 2446948), (376447, 2452953), (376829, 2458964), (377211, 2464981), (377592, 2471004), (377974, 2477033), (378355, 2483068), (378736, 2489108),
  (379117, 2495154), (379497, 2501207), (379878, 2507265), (380258, 2513329), (380639, 2519399), (381019, 2525474), (381398, 2531556), (381778, 2537643),
  (382158, 2543737), (382537, 2549836), (382916, 2555941), (383295, 2562051), (383674, 2568168), (384052, 2574291), (384431, 2580419), (384809, 2586553),
  (385187, 2592693), (385565, 2598839), (385943, 2604991), (386321, 2611148), (386698, 2617311), (387076, 2623480), (387453, 2629655), (387830, 2635836),
  (388207, 2642023), (388583, 2648215), (388960, 2654413), (389336, 2660617), (389713, 2666827), (390089, 2673043), (390464, 2679264), (390840, 2685491),
  (391216, 2691724), (391591, 2697963), (391966, 2704207), (392341, 2710457), (392716, 2716714), (393091, 2722975), (393465, 2729243), (393840, 2735516),
  (394214, 2741796), (394588, 2748080), (394962, 2754371), (395336, 2760668), (395710, 2766970), (396083, 2773278), (396456, 2779591), (396830, 2785911),
  (397203, 2792236), (397575, 2798567), (397948, 2804904), (398321, 2811246), (398693, 2817594), (399065, 2823948), (399437, 2830308), (399809, 2836673),
  (400181, 2843044), (400552, 2849421), (400924, 2855803), (401295, 2862192), (401666, 2868585), (402037, 2874985), (402408, 2881390), (402779, 2887802),
  (403149, 2894218), (403520, 2900641), (403890, 2907069), (404260, 2913503), (404630, 2919942), (405000, 2926388), (405369, 2932839), (405739, 2939295),
  (406108, 2945758), (406477, 2952226), (406846, 2958699), (407215, 2965179), (407584, 2971664), (407952, 2978154), (408321, 2984651), (408689, 2991153),
  (409057, 2997660), (409425, 3004174), (409793, 3010693), (410161, 3017218), (410528, 3023748), (410896, 3030284), (411263, 3036826), (411630, 3043373),
  (411997, 3049926), (412364, 3056484), (412730, 3063049), (413097, 3069619), (413463, 3076194), (413829, 3082775), (414195, 3089362), (414561, 3095954),
  (414927, 3102552), (415293, 3109156), (415658, 3115765), (416024, 3122380), (416389, 3129001), (416754, 3135627), (417119, 3142259), (417484, 3148896),
  (417848, 3155539), (418213, 3162187), (418577, 3168842), (418941, 3175501), (419305, 3182167), (419669, 3188838), (420033, 3195514), (420397, 3202196),
  (420760, 3208884), (421124, 3215577), (421487, 3222276), (421850, 3228981), (422213, 3235691), (422576, 3242407), (422938, 3249128), (423301, 3255855),
  (423663, 3262587), (424025, 3269325), (424388, 3276068), (424750, 3282817), (425111, 3289572), (425473, 3296332), (425835, 3303098), (426196, 3309869),
  (426557, 3316646), (426918, 3323428), (427279, 3330216), (427640, 3337010), (428001, 3343809), (428362, 3350613), (428722, 3357424), (429082, 3364239),
  (429443, 3371060), (429803, 3377887), (430163, 3384719), (430522, 3391557), (430882, 3398400), (431242, 3405249), (431601, 3412103), (431960, 3418963),
  (432319, 3425829), (432678, 3432700), (433037, 3439576), (433396, 3446458), (433755, 3453345), (434113, 3460238), (434471, 3467137), (434830, 3474041),
  (435188, 3480950), (435546, 3487865), (435903, 3494785), (436261, 3501711), (436618, 3508643), (436976, 3515580), (437333, 3522522), (437690, 3529470),
  (438047, 3536423), (438404, 3543382), (438761, 3550346), (439118, 3557316), (439474, 3564291), (439830, 3571272), (440187, 3578258), (440543, 3585250),
  (440899, 3592247), (441255, 3599249), (441610, 3606258), (441966, 3613271), (442321, 3620290), (442677, 3627314), (443032, 3634344), (443387, 3641380),
  (443742, 3648420), (444097, 3655466), (444451, 3662518), (444806, 3669575), (445161, 3676638), (445515, 3683706), (445869, 3690779), (446223, 3697858),
  (446577, 3704942), (446931, 3712032), (447285, 3719127), (447638, 3726228), (447992, 3733334), (448345, 3740445), (448698, 3747562), (449051, 3754684),
  (449404, 3761812), (449757, 3768945), (450110, 3776083), (450462, 3783227), (450815, 3790376), (451167, 3797531), (451519, 3804691), (451871, 3811856),
  (452223, 3819027), (452575, 3826204), (452927, 3833385), (453278, 3840572), (453630, 3847765), (453981, 3854963), (454332, 3862166), (454684, 3869375),
  (455035, 3876589), (455385, 3883808), (455736, 3891033), (456087, 3898263), (456437, 3905498), (456788, 3912739), (457138, 3919985), (457488, 3927237),
  (457838, 3934494), (458188, 3941756), (458538, 3949024), (458887, 3956297), (459237, 3963576), (459586, 3970859), (459936, 3978148), (460285, 3985443),
  (460634, 3992743), (460983, 4000048), (461332, 4007359), (461680, 4014674), (462029, 4021996), (462378, 4029322), (462726, 4036654), (463074, 4043991),
  (463422, 4051334), (463770, 4058682), (464118, 4066035), (464466, 4073394), (464814, 4080758), (465161, 4088127), (465509, 4095501), (465856, 4102881),
  (466203, 4110266), (466550, 4117657), (466897, 4125053), (467244, 4132454), (467591, 4139860), (467937, 4147272), (468284, 4154689), (468630, 4162112),
  (468977, 4169539), (469323, 4176972), (469669, 4184410), (470015, 4191854), (470361, 4199303), (470706, 4206757), (471052, 4214217), (471397, 4221681),
  (471743, 4229151), (472088, 4236627), (472433, 4244107), (472778, 4251593), (473123, 4259084), (473468, 4266581), (473813, 4274083), (474157, 4281590),
  (474502, 4289102), (474846, 4296620), (475190, 4304142), (475534, 4311671), (475878, 4319204), (476222, 4326743), (476566, 4334287), (476910, 4341836),
  (477253, 4349390), (477597, 4356950), (477940, 4364515), (478283, 4372085), (478627, 4379660), (478970, 4387241), (479312, 4394827), (479655, 4402418),
  (479998, 4410015), (480341, 4417616), (480683, 4425223), (481025, 4432836), (481368, 4440453), (481710, 4448076), (482052, 4455704), (482394, 4463337),
  (482736, 4470975), (483077, 4478619), (483419, 4486267), (483760, 4493921), (484102, 4501581), (484443, 4509245), (484784, 4516915), (485125, 4524590),
  (485466, 4532270), (485807, 4539955), (486148, 4547646), (486489, 4555342), (486829, 4563043), (487170, 4570749), (487510, 4578460), (487850, 4586177),
  (488190, 4593899), (488530, 4601626), (488870, 4609358), (489210, 4617095), (489550, 4624838), (489889, 4632586), (490229, 4640339), (490568, 4648097),
  (490907, 4655860), (491247, 4663629), (491586, 4671403), (491925, 4679182), (492263, 4686966), (492602, 4694755), (492941, 4702550), (493279, 4710349),
  (493618, 4718154), (493956, 4725964), (494294, 4733779), (494632, 4741600), (494970, 4749425), (495308, 4757256), (495646, 4765092), (495984, 4772933),
  (496322, 4780779), (496659, 4788630), (496996, 4796487), (497334, 4804348), (497671, 4812215), (498008, 4820087), (498345, 4827964), (498682, 4835847),
  (499019, 4843734), (499355, 4851627), (499692, 4859524), (500028, 4867427), (500365, 4875335), (500701, 4883248), (501037, 4891166), (501373, 4899090),
  (501709, 4907018), (502045, 4914952), (502381, 4922891), (502717, 4930835), (503052, 4938784), (503388, 4946738), (503723, 4954697), (504058, 4962662),
  (504394, 4970631), (504729, 4978606), (505064, 4986586), (505399, 4994571), (505733, 5002561), (506068, 5010556), (506403, 5018556), (506737, 5026562),
  (507072, 5034572), (507406, 5042588), (507740, 5050609), (508074, 5058634), (508408, 5066665), (508742, 5074701), (509076, 5082742), (509409, 5090789),
  (509743, 5098840), (510077, 5106896), (510410, 5114958), (510743, 5123024), (511077, 5131096), (511410, 5139173), (511743, 5147255), (512076, 5155342),
  (512408, 5163434), (512741, 5171531), (513074, 5179633), (513406, 5187740), (513739, 5195852), (514071, 5203970), (514403, 5212092), (514735, 5220220),
  (515068, 5228353), (515399, 5236490), (515731, 5244633), (516063, 5252781), (516395, 5260934), (516726, 5269092), (517058, 5277255), (517389, 5285423),
  (517721, 5293596), (518052, 5301774), (518383, 5309957), (518714, 5318146), (519045, 5326339), (519376, 5334537), (519706, 5342741), (520037, 5350949),
  (520367, 5359163), (520698, 5367381), (521028, 5375605), (521359, 5383834), (521689, 5392068), (522019, 5400306), (522349, 5408550), (522679, 5416799),
  (523008, 5425053), (523338, 5433312), (523668, 5441576), (523997, 5449845), (524327, 5458118), (524656, 5466397), (524985, 5474682), (525314, 5482971),
  (525643, 5491265), (525972, 5499564), (526301, 5507868), (526630, 5516177), (526959, 5524491), (527287, 5532810), (527616, 5541134), (527944, 5549464),
  (528272, 5557798), (528601, 5566137), (528929, 5574481), (529257, 5582830), (529585, 5591185), (529913, 5599544), (530240, 5607908), (530568, 5616277),
  (530896, 5624652), (531223, 5633031), (531551, 5641415), (531878, 5649804), (532205, 5658198), (532532, 5666598), (532859, 5675002), (533186, 5683411),
  (533513, 5691825), (533840, 5700244), (534167, 5708668), (534493, 5717097), (534820, 5725531), (535146, 5733970), (535473, 5742414), (535799, 5750863),
  (536125, 5759317), (536451, 5767776), (536777, 5776240), (537103, 5784709), (537429, 5793183), (537754, 5801662), (538080, 5810146), (538406, 5818634),
  (538731, 5827128), (539056, 5835627), (539382, 5844130), (539707, 5852639), (540032, 5861153), (540357, 5869671), (540682, 5878195), (541007, 5886723),
  (541331, 5895256), (541656, 5903795), (541981, 5912338), (542305, 5920886), (542630, 5929439), (542954, 5937997), (543278, 5946560), (543602, 5955128),
  (543926, 5963701), (544250, 5972279), (544574, 5980862), (544898, 5989450), (545222, 5998042), (545545, 6006640), (545869, 6015243), (546192, 6023850),
  (546516, 6032462), (546839, 6041080), (547162, 6049702), (547485, 6058329), (547808, 6066961), (548131, 6075598), (548454, 6084240), (548777, 6092887),
  (549100, 6101539), (549422, 6110195), (549745, 6118857), (550067, 6127524), (550389, 6136195), (550712, 6144871), (551034, 6153553), (551356, 6162239),
  (551678, 6170930), (552000, 6179626), (552322, 6188327), (552643, 6197032), (552965, 6205743), (553287, 6214459), (553608, 6223179), (553930, 6231904),
  (554251, 6240635), (554572, 6249370), (554893, 6258110), (555215, 6266855), (555536, 6275605), (555856, 6284359), (556177, 6293119), (556498, 6301883),
  (556819, 6310653)]

end Naima.Props
