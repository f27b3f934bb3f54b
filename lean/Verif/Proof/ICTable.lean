import Mathlib.Data.Nat.Notation

/-!
# Table for the quadrature of the thermal inverse Compton function (generated)

Entry `i` of the table is `(A, B)`: `A / 10^5` is `(i / 100)^0.461` and `B / 10^5` is `(i / 100)^1.457`, rounded down.
The entries are checked by the kernel where they are used (`Verif/Proof/ICQuad.lean`); nothing depends on how they were found.
-/

namespace Naima.Props

set_option maxRecDepth 20000 in
/-- powers of `i / 100`, `i = 0 … 1200` -/
def icTable : List (ℕ × ℕ) := [
  (0, 0), (11967, 121), (16473, 334), (19858, 604), (22675, 918), (25131, 1271), (27335, 1658), (29348, 2076),
  (31212, 2522), (32953, 2994), (34593, 3491), (36147, 4011), (37627, 4553), (39041, 5117), (40398, 5700), (41704, 6303),
  (42963, 6924), (44181, 7564), (45360, 8221), (46505, 8894), (47618, 9585), (48701, 10291), (49757, 11013), (50787, 11749),
  (51793, 12501), (52777, 13267), (53740, 14048), (54683, 14842), (55608, 15649), (56515, 16470), (57405, 17304), (58279, 18151),
  (59139, 19010), (59983, 19882), (60815, 20766), (61633, 21662), (62438, 22570), (63232, 23489), (64014, 24419), (64785, 25361),
  (65546, 26314), (66296, 27278), (67037, 28253), (67768, 29239), (68490, 30235), (69203, 31241), (69908, 32258), (70605, 33284),
  (71293, 34321), (71974, 35368), (72648, 36424), (73314, 37491), (73973, 38567), (74626, 39652), (75272, 40747), (75911, 41851),
  (76544, 42964), (77171, 44086), (77792, 45218), (78408, 46358), (79018, 47507), (79622, 48665), (80221, 49832), (80815, 51008),
  (81404, 52192), (81988, 53384), (82567, 54585), (83142, 55794), (83711, 57011), (84277, 58237), (84837, 59471), (85394, 60713),
  (85946, 61963), (86495, 63221), (87039, 64486), (87579, 65760), (88116, 67041), (88648, 68330), (89177, 69627), (89702, 70932),
  (90224, 72244), (90742, 73563), (91257, 74890), (91768, 76224), (92276, 77566), (92781, 78915), (93283, 80272), (93781, 81635),
  (94277, 83006), (94769, 84384), (95258, 85769), (95745, 87161), (96229, 88560), (96709, 89966), (97187, 91379), (97663, 92798),
  (98135, 94225), (98605, 95659), (99072, 97099), (99537, 98546), (100000, 100000), (100459, 101460), (100917, 102927), (101371, 104400),
  (101824, 105880), (102274, 107367), (102722, 108860), (103168, 110360), (103611, 111866), (104052, 113378), (104491, 114897), (104928, 116422),
  (105363, 117953), (105795, 119491), (106226, 121034), (106655, 122584), (107081, 124141), (107506, 125703), (107928, 127271), (108349, 128846),
  (108768, 130426), (109185, 132013), (109600, 133606), (110013, 135204), (110424, 136809), (110834, 138419), (111242, 140036), (111648, 141658),
  (112053, 143286), (112455, 144920), (112856, 146560), (113256, 148205), (113653, 149856), (114050, 151513), (114444, 153176), (114837, 154844),
  (115228, 156518), (115618, 158198), (116007, 159883), (116393, 161574), (116779, 163270), (117162, 164972), (117545, 166680), (117926, 168393),
  (118305, 170111), (118683, 171835), (119060, 173564), (119435, 175299), (119809, 177039), (120181, 178785), (120553, 180536), (120922, 182292),
  (121291, 184054), (121658, 185821), (122024, 187593), (122389, 189370), (122752, 191153), (123114, 192941), (123475, 194734), (123835, 196533),
  (124193, 198336), (124550, 200145), (124906, 201959), (125261, 203778), (125615, 205602), (125967, 207431), (126319, 209265), (126669, 211104),
  (127018, 212949), (127366, 214798), (127713, 216652), (128059, 218512), (128404, 220376), (128747, 222245), (129090, 224119), (129431, 225998),
  (129772, 227883), (130111, 229771), (130449, 231665), (130787, 233564), (131123, 235468), (131458, 237376), (131793, 239289), (132126, 241207),
  (132458, 243130), (132790, 245058), (133120, 246990), (133450, 248927), (133778, 250869), (134106, 252816), (134432, 254767), (134758, 256723),
  (135083, 258684), (135407, 260649), (135730, 262619), (136052, 264594), (136373, 266573), (136693, 268557), (137013, 270546), (137331, 272539),
  (137649, 274536), (137966, 276539), (138282, 278546), (138597, 280557), (138911, 282573), (139225, 284593), (139538, 286618), (139849, 288648),
  (140161, 290682), (140471, 292720), (140780, 294763), (141089, 296810), (141397, 298862), (141704, 300918), (142010, 302979), (142316, 305044),
  (142620, 307113), (142924, 309187), (143228, 311265), (143530, 313348), (143832, 315434), (144133, 317526), (144433, 319621), (144733, 321721),
  (145032, 323825), (145330, 325934), (145627, 328046), (145924, 330163), (146220, 332285), (146515, 334410), (146810, 336540), (147104, 338674),
  (147397, 340812), (147689, 342955), (147981, 345102), (148273, 347252), (148563, 349407), (148853, 351567), (149142, 353730), (149431, 355898),
  (149719, 358069), (150006, 360245), (150293, 362425), (150579, 364609), (150864, 366798), (151149, 368990), (151433, 371186), (151716, 373387),
  (151999, 375591), (152281, 377800), (152563, 380013), (152844, 382229), (153124, 384450), (153404, 386675), (153683, 388904), (153962, 391137),
  (154240, 393373), (154518, 395614), (154794, 397859), (155071, 400108), (155346, 402361), (155622, 404618), (155896, 406878), (156170, 409143),
  (156444, 411411), (156717, 413684), (156989, 415960), (157261, 418241), (157532, 420525), (157803, 422813), (158073, 425105), (158342, 427401),
  (158612, 429701), (158880, 432005), (159148, 434312), (159416, 436624), (159683, 438939), (159949, 441258), (160215, 443581), (160480, 445908),
  (160745, 448238), (161010, 450572), (161274, 452911), (161537, 455253), (161800, 457598), (162062, 459948), (162324, 462301), (162586, 464658),
  (162847, 467019), (163107, 469383), (163367, 471752), (163626, 474124), (163885, 476499), (164144, 478879), (164402, 481262), (164659, 483649),
  (164917, 486040), (165173, 488434), (165429, 490832), (165685, 493233), (165940, 495639), (166195, 498048), (166449, 500460), (166703, 502877),
  (166957, 505297), (167209, 507720), (167462, 510147), (167714, 512578), (167966, 515013), (168217, 517451), (168468, 519893), (168718, 522338),
  (168968, 524787), (169217, 527239), (169466, 529695), (169715, 532155), (169963, 534618), (170211, 537085), (170458, 539555), (170705, 542029),
  (170951, 544507), (171198, 546988), (171443, 549472), (171688, 551960), (171933, 554452), (172178, 556947), (172422, 559445), (172665, 561947),
  (172909, 564453), (173151, 566962), (173394, 569475), (173636, 571991), (173878, 574510), (174119, 577033), (174360, 579560), (174600, 582090),
  (174840, 584623), (175080, 587160), (175319, 589700), (175558, 592244), (175797, 594791), (176035, 597342), (176273, 599896), (176510, 602453),
  (176747, 605014), (176984, 607578), (177220, 610146), (177456, 612717), (177692, 615291), (177927, 617869), (178162, 620450), (178396, 623035),
  (178630, 625622), (178864, 628214), (179097, 630808), (179330, 633406), (179563, 636008), (179796, 638612), (180028, 641220), (180259, 643832),
  (180490, 646446), (180721, 649064), (180952, 651685), (181182, 654310), (181412, 656938), (181642, 659569), (181871, 662204), (182100, 664842),
  (182329, 667483), (182557, 670127), (182785, 672775), (183012, 675426), (183240, 678080), (183466, 680737), (183693, 683398), (183919, 686062),
  (184145, 688729), (184371, 691399), (184596, 694073), (184821, 696750), (185046, 699430), (185270, 702114), (185494, 704800), (185718, 707490),
  (185941, 710183), (186164, 712879), (186387, 715579), (186609, 718281), (186832, 720987), (187053, 723696), (187275, 726408), (187496, 729124),
  (187717, 731842), (187938, 734564), (188158, 737289), (188378, 740017), (188598, 742748), (188817, 745483), (189036, 748220), (189255, 750961),
  (189474, 753705), (189692, 756451), (189910, 759202), (190127, 761955), (190345, 764711), (190562, 767470), (190778, 770233), (190995, 772999),
  (191211, 775767), (191427, 778539), (191643, 781314), (191858, 784092), (192073, 786874), (192288, 789658), (192502, 792445), (192717, 795236),
  (192931, 798029), (193144, 800826), (193358, 803625), (193571, 806428), (193784, 809234), (193996, 812042), (194208, 814854), (194420, 817669),
  (194632, 820487), (194844, 823308), (195055, 826132), (195266, 828959), (195476, 831789), (195687, 834622), (195897, 837458), (196107, 840298),
  (196317, 843140), (196526, 845985), (196735, 848833), (196944, 851684), (197152, 854538), (197361, 857396), (197569, 860256), (197777, 863119),
  (197984, 865985), (198192, 868854), (198399, 871726), (198605, 874601), (198812, 877479), (199018, 880360), (199224, 883244), (199430, 886131),
  (199636, 889021), (199841, 891913), (200046, 894809), (200251, 897708), (200455, 900609), (200660, 903514), (200864, 906421), (201068, 909332),
  (201271, 912245), (201475, 915161), (201678, 918081), (201881, 921003), (202083, 923928), (202286, 926855), (202488, 929786), (202690, 932720),
  (202891, 935657), (203093, 938596), (203294, 941538), (203495, 944484), (203696, 947432), (203896, 950383), (204097, 953337), (204297, 956294),
  (204497, 959253), (204696, 962216), (204896, 965181), (205095, 968149), (205294, 971120), (205492, 974094), (205691, 977071), (205889, 980051),
  (206087, 983033), (206285, 986019), (206483, 989007), (206680, 991998), (206877, 994992), (207074, 997988), (207271, 1000988), (207467, 1003990),
  (207664, 1006995), (207860, 1010003), (208056, 1013014), (208251, 1016028), (208447, 1019044), (208642, 1022063), (208837, 1025085), (209032, 1028110),
  (209226, 1031138), (209421, 1034168), (209615, 1037201), (209809, 1040237), (210002, 1043276), (210196, 1046317), (210389, 1049361), (210582, 1052409),
  (210775, 1055458), (210968, 1058511), (211160, 1061566), (211353, 1064624), (211545, 1067685), (211737, 1070749), (211928, 1073815), (212120, 1076884),
  (212311, 1079956), (212502, 1083031), (212693, 1086108), (212884, 1089188), (213074, 1092271), (213264, 1095357), (213454, 1098445), (213644, 1101536),
  (213834, 1104630), (214023, 1107726), (214213, 1110825), (214402, 1113927), (214591, 1117032), (214779, 1120139), (214968, 1123249), (215156, 1126362),
  (215344, 1129477), (215532, 1132595), (215720, 1135716), (215907, 1138840), (216095, 1141966), (216282, 1145095), (216469, 1148226), (216656, 1151360),
  (216842, 1154497), (217029, 1157637), (217215, 1160779), (217401, 1163924), (217587, 1167072), (217772, 1170222), (217958, 1173375), (218143, 1176530),
  (218328, 1179689), (218513, 1182850), (218698, 1186013), (218883, 1189179), (219067, 1192348), (219251, 1195520), (219435, 1198694), (219619, 1201871),
  (219803, 1205050), (219986, 1208232), (220169, 1211417), (220353, 1214604), (220535, 1217794), (220718, 1220986), (220901, 1224182), (221083, 1227379),
  (221265, 1230580), (221448, 1233783), (221629, 1236988), (221811, 1240197), (221993, 1243407), (222174, 1246621), (222355, 1249837), (222536, 1253056),
  (222717, 1256277), (222898, 1259501), (223078, 1262727), (223259, 1265956), (223439, 1269188), (223619, 1272422), (223799, 1275659), (223978, 1278898),
  (224158, 1282140), (224337, 1285384), (224516, 1288631), (224695, 1291881), (224874, 1295133), (225053, 1298388), (225231, 1301645), (225410, 1304905),
  (225588, 1308167), (225766, 1311432), (225943, 1314700), (226121, 1317970), (226299, 1321243), (226476, 1324518), (226653, 1327796), (226830, 1331076),
  (227007, 1334359), (227184, 1337644), (227360, 1340932), (227537, 1344222), (227713, 1347515), (227889, 1350811), (228065, 1354109), (228241, 1357409),
  (228416, 1360712), (228592, 1364018), (228767, 1367326), (228942, 1370636), (229117, 1373949), (229292, 1377265), (229466, 1380583), (229641, 1383903),
  (229815, 1387226), (229989, 1390552), (230163, 1393880), (230337, 1397211), (230511, 1400544), (230684, 1403879), (230858, 1407217), (231031, 1410558),
  (231204, 1413901), (231377, 1417246), (231550, 1420594), (231723, 1423945), (231895, 1427298), (232067, 1430653), (232240, 1434011), (232412, 1437371),
  (232584, 1440734), (232755, 1444099), (232927, 1447467), (233098, 1450837), (233270, 1454210), (233441, 1457585), (233612, 1460962), (233783, 1464342),
  (233954, 1467725), (234124, 1471110), (234295, 1474497), (234465, 1477887), (234635, 1481279), (234805, 1484674), (234975, 1488071), (235145, 1491470),
  (235314, 1494872), (235484, 1498277), (235653, 1501683), (235822, 1505093), (235991, 1508504), (236160, 1511918), (236329, 1515335), (236497, 1518754),
  (236666, 1522175), (236834, 1525599), (237002, 1529025), (237170, 1532454), (237338, 1535885), (237506, 1539318), (237673, 1542754), (237841, 1546192),
  (238008, 1549633), (238175, 1553076), (238342, 1556521), (238509, 1559969), (238676, 1563419), (238843, 1566872), (239009, 1570326), (239176, 1573784),
  (239342, 1577244), (239508, 1580706), (239674, 1584170), (239840, 1587637), (240005, 1591106), (240171, 1594578), (240336, 1598052), (240502, 1601528),
  (240667, 1605007), (240832, 1608488), (240997, 1611971), (241162, 1615457), (241326, 1618945), (241491, 1622436), (241655, 1625929), (241819, 1629424),
  (241983, 1632922), (242147, 1636422), (242311, 1639924), (242475, 1643429), (242639, 1646936), (242802, 1650445), (242965, 1653957), (243129, 1657471),
  (243292, 1660987), (243455, 1664506), (243618, 1668027), (243780, 1671550), (243943, 1675076), (244105, 1678604), (244268, 1682134), (244430, 1685667),
  (244592, 1689202), (244754, 1692739), (244916, 1696279), (245077, 1699821), (245239, 1703365), (245400, 1706912), (245562, 1710460), (245723, 1714012),
  (245884, 1717565), (246045, 1721121), (246206, 1724679), (246366, 1728240), (246527, 1731802), (246687, 1735367), (246848, 1738935), (247008, 1742504),
  (247168, 1746076), (247328, 1749651), (247488, 1753227), (247648, 1756806), (247807, 1760387), (247967, 1763970), (248126, 1767556), (248285, 1771144),
  (248445, 1774734), (248604, 1778327), (248762, 1781922), (248921, 1785519), (249080, 1789118), (249238, 1792720), (249397, 1796323), (249555, 1799930),
  (249713, 1803538), (249871, 1807149), (250029, 1810762), (250187, 1814377), (250345, 1817994), (250503, 1821614), (250660, 1825236), (250817, 1828860),
  (250975, 1832487), (251132, 1836116), (251289, 1839747), (251446, 1843380), (251603, 1847015), (251759, 1850653), (251916, 1854293), (252072, 1857935),
  (252229, 1861580), (252385, 1865226), (252541, 1868875), (252697, 1872527), (252853, 1876180), (253009, 1879836), (253164, 1883494), (253320, 1887154),
  (253475, 1890816), (253631, 1894481), (253786, 1898147), (253941, 1901816), (254096, 1905488), (254251, 1909161), (254406, 1912837), (254560, 1916515),
  (254715, 1920195), (254869, 1923877), (255024, 1927562), (255178, 1931248), (255332, 1934937), (255486, 1938629), (255640, 1942322), (255794, 1946017),
  (255947, 1949715), (256101, 1953415), (256254, 1957117), (256408, 1960822), (256561, 1964528), (256714, 1968237), (256867, 1971948), (257020, 1975661),
  (257173, 1979377), (257326, 1983094), (257478, 1986814), (257631, 1990536), (257783, 1994260), (257936, 1997986), (258088, 2001714), (258240, 2005445),
  (258392, 2009178), (258544, 2012913), (258696, 2016650), (258847, 2020389), (258999, 2024131), (259150, 2027875), (259302, 2031620), (259453, 2035368),
  (259604, 2039119), (259755, 2042871), (259906, 2046625), (260057, 2050382), (260208, 2054141), (260358, 2057902), (260509, 2061665), (260659, 2065430),
  (260810, 2069198), (260960, 2072967), (261110, 2076739), (261260, 2080513), (261410, 2084289), (261560, 2088067), (261710, 2091848), (261859, 2095630),
  (262009, 2099415), (262158, 2103202), (262308, 2106990), (262457, 2110782), (262606, 2114575), (262755, 2118370), (262904, 2122167), (263053, 2125967),
  (263201, 2129769), (263350, 2133573), (263499, 2137379), (263647, 2141187), (263795, 2144997), (263944, 2148809), (264092, 2152624), (264240, 2156440),
  (264388, 2160259), (264536, 2164080), (264684, 2167903), (264831, 2171728), (264979, 2175555), (265126, 2179384), (265274, 2183216), (265421, 2187049),
  (265568, 2190885), (265715, 2194723), (265862, 2198563), (266009, 2202405), (266156, 2206249), (266303, 2210095), (266449, 2213943), (266596, 2217793),
  (266742, 2221646), (266889, 2225500), (267035, 2229357), (267181, 2233216), (267327, 2237077), (267473, 2240939), (267619, 2244804), (267765, 2248672),
  (267910, 2252541), (268056, 2256412), (268202, 2260285), (268347, 2264161), (268492, 2268038), (268638, 2271918), (268783, 2275800), (268928, 2279683),
  (269073, 2283569), (269218, 2287457), (269362, 2291347), (269507, 2295239), (269652, 2299133), (269796, 2303029), (269940, 2306928), (270085, 2310828),
  (270229, 2314730), (270373, 2318635), (270517, 2322541), (270661, 2326450), (270805, 2330361), (270949, 2334273), (271093, 2338188), (271236, 2342105),
  (271380, 2346024), (271523, 2349945), (271666, 2353868), (271810, 2357793), (271953, 2361720), (272096, 2365649), (272239, 2369580), (272382, 2373513),
  (272525, 2377449), (272667, 2381386), (272810, 2385325), (272953, 2389267), (273095, 2393210), (273237, 2397156), (273380, 2401103), (273522, 2405053),
  (273664, 2409004), (273806, 2412958), (273948, 2416914), (274090, 2420871), (274232, 2424831), (274373, 2428793), (274515, 2432757), (274656, 2436722),
  (274798, 2440690), (274939, 2444660), (275080, 2448632), (275222, 2452606), (275363, 2456582), (275504, 2460560), (275645, 2464540), (275785, 2468522),
  (275926, 2472506), (276067, 2476492), (276207, 2480480), (276348, 2484470), (276488, 2488462), (276629, 2492456), (276769, 2496452), (276909, 2500450),
  (277049, 2504450), (277189, 2508452), (277329, 2512456), (277469, 2516462), (277609, 2520471), (277748, 2524481), (277888, 2528493), (278027, 2532507),
  (278167, 2536523), (278306, 2540541), (278445, 2544561), (278585, 2548583), (278724, 2552607), (278863, 2556633), (279002, 2560661), (279141, 2564691),
  (279279, 2568723), (279418, 2572757), (279557, 2576793), (279695, 2580831), (279834, 2584871), (279972, 2588913), (280110, 2592957), (280249, 2597003),
  (280387, 2601051), (280525, 2605101), (280663, 2609152), (280801, 2613206), (280938, 2617262), (281076, 2621320), (281214, 2625379), (281351, 2629441),
  (281489, 2633505), (281626, 2637570), (281764, 2641638), (281901, 2645708), (282038, 2649779), (282175, 2653853), (282312, 2657928), (282449, 2662005),
  (282586, 2666085), (282723, 2670166), (282860, 2674249), (282996, 2678335), (283133, 2682422), (283269, 2686511), (283406, 2690602), (283542, 2694695),
  (283678, 2698790), (283815, 2702887), (283951, 2706986), (284087, 2711087), (284223, 2715190), (284359, 2719294), (284494, 2723401), (284630, 2727510),
  (284766, 2731620), (284901, 2735733), (285037, 2739847), (285172, 2743964), (285308, 2748082), (285443, 2752202), (285578, 2756324), (285713, 2760448),
  (285848, 2764575), (285983, 2768703), (286118, 2772832), (286253, 2776964), (286388, 2781098), (286522, 2785234), (286657, 2789372), (286792, 2793511),
  (286926, 2797653), (287060, 2801796), (287195, 2805941), (287329, 2810089), (287463, 2814238), (287597, 2818389), (287731, 2822542), (287865, 2826697),
  (287999, 2830854), (288133, 2835013), (288267, 2839173), (288400, 2843336), (288534, 2847500), (288667, 2851667), (288801, 2855835), (288934, 2860005),
  (289067, 2864177), (289201, 2868352), (289334, 2872527), (289467, 2876705), (289600, 2880885), (289733, 2885067), (289866, 2889250), (289999, 2893436),
  (290131, 2897623), (290264, 2901813), (290397, 2906004), (290529, 2910197), (290661, 2914392), (290794, 2918589), (290926, 2922787), (291058, 2926988),
  (291191, 2931191), (291323, 2935395), (291455, 2939601), (291587, 2943810), (291718, 2948020), (291850, 2952232), (291982, 2956446), (292114, 2960661),
  (292245, 2964879), (292377, 2969098), (292508, 2973320), (292640, 2977543), (292771, 2981768), (292902, 2985995), (293033, 2990224), (293165, 2994455),
  (293296, 2998688), (293427, 3002922), (293558, 3007159), (293688, 3011397), (293819, 3015637), (293950, 3019879), (294081, 3024123), (294211, 3028369),
  (294342, 3032617), (294472, 3036866), (294602, 3041117), (294733, 3045371), (294863, 3049626), (294993, 3053883), (295123, 3058142), (295253, 3062402),
  (295383, 3066665), (295513, 3070929), (295643, 3075196), (295773, 3079464), (295902, 3083734), (296032, 3088006), (296162, 3092279), (296291, 3096555),
  (296421, 3100832), (296550, 3105111), (296679, 3109393), (296808, 3113675), (296938, 3117960), (297067, 3122247), (297196, 3126535), (297325, 3130826),
  (297454, 3135118), (297583, 3139412), (297711, 3143708), (297840, 3148006), (297969, 3152305), (298097, 3156607), (298226, 3160910), (298354, 3165215),
  (298483, 3169522), (298611, 3173830), (298739, 3178141), (298867, 3182453), (298996, 3186768), (299124, 3191084), (299252, 3195402), (299380, 3199721),
  (299507, 3204043), (299635, 3208366), (299763, 3212692), (299891, 3217019), (300018, 3221348), (300146, 3225678), (300273, 3230011), (300401, 3234345),
  (300528, 3238681), (300655, 3243019), (300783, 3247359), (300910, 3251701), (301037, 3256044), (301164, 3260390), (301291, 3264737), (301418, 3269086),
  (301545, 3273436), (301672, 3277789), (301798, 3282143), (301925, 3286500), (302052, 3290857), (302178, 3295217), (302305, 3299579), (302431, 3303942),
  (302558, 3308308), (302684, 3312675), (302810, 3317043), (302936, 3321414), (303062, 3325786), (303189, 3330161), (303315, 3334537), (303440, 3338915),
  (303566, 3343294), (303692, 3347676), (303818, 3352059), (303944, 3356444), (304069, 3360831), (304195, 3365220), (304320, 3369610), (304446, 3374002),
  (304571, 3378396), (304697, 3382792), (304822, 3387190), (304947, 3391589), (305072, 3395990), (305197, 3400393), (305322, 3404798), (305447, 3409205),
  (305572, 3413613), (305697, 3418023), (305822, 3422435), (305947, 3426849), (306071, 3431264), (306196, 3435682), (306320, 3440101), (306445, 3444522),
  (306569, 3448944), (306694, 3453369), (306818, 3457795), (306942, 3462223), (307066, 3466652), (307191, 3471084), (307315, 3475517), (307439, 3479952),
  (307563, 3484389), (307687, 3488828), (307810, 3493268), (307934, 3497710), (308058, 3502154), (308182, 3506600), (308305, 3511047), (308429, 3515497),
  (308552, 3519948), (308676, 3524400), (308799, 3528855), (308923, 3533311), (309046, 3537769), (309169, 3542229), (309292, 3546691), (309415, 3551154),
  (309538, 3555619), (309661, 3560086), (309784, 3564555), (309907, 3569025), (310030, 3573497), (310153, 3577971), (310275, 3582447), (310398, 3586924),
  (310521, 3591403), (310643, 3595884), (310766, 3600367), (310888, 3604851), (311010, 3609337), (311133, 3613825), (311255, 3618315), (311377, 3622806),
  (311499, 3627299), (311621, 3631794), (311743, 3636291), (311865, 3640789), (311987, 3645290), (312109, 3649791), (312231, 3654295), (312353, 3658800),
  (312474, 3663307), (312596, 3667816), (312718, 3672327), (312839, 3676839), (312961, 3681353), (313082, 3685869), (313203, 3690387), (313325, 3694906),
  (313446, 3699427), (313567, 3703950), (313688, 3708474), (313809, 3713000), (313930, 3717528), (314051, 3722058), (314172, 3726589), (314293, 3731122),
  (314414, 3735657)]

end Naima.Props
