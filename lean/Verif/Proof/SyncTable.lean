import Mathlib.Data.Nat.Notation

/-!
# Table for the quadrature of the synchrotron function (generated)

Entry `i` of the table is `(c, a)`: `c / 10^5` is `(i / 100)^(1/3)` rounded down and `a / 10^6` is the value there of the
function multiplying `exp (-x)`, rounded down. The entries are checked by the kernel where they are used
(`Verif/Proof/SyncQuad.lean`); nothing depends on how they were found.
-/

namespace Naima.Props

/-- cube roots and function values, `i = 0 … 800` -/
def syncTable : List (ℕ × ℕ) := [
  (0, 0), (21544, 375635), (27144, 464316), (31072, 523575), (34199, 568958), (36840, 606039), (39148, 637509), (41212, 664916),
  (43088, 689228), (44814, 711096), (46415, 730957), (47914, 749185), (49324, 766010), (50657, 781632), (51924, 796228), (53132, 809917),
  (54288, 822810), (55396, 834980), (56462, 846516), (57488, 857462), (58480, 867900), (59439, 877854), (60368, 887372), (61269, 896485),
  (62144, 905226), (62996, 913634), (63825, 921718), (64633, 929507), (65421, 937016), (66191, 944273), (66943, 951282), (67678, 958061),
  (68399, 964640), (69104, 971008), (69795, 977185), (70472, 983178), (71137, 989006), (71790, 994675), (72431, 1000186), (73061, 1005552),
  (73680, 1010777), (74289, 1015870), (74888, 1020835), (75478, 1025682), (76059, 1030413), (76630, 1035023), (77194, 1039539), (77749, 1043945),
  (78297, 1048259), (78837, 1052476), (79370, 1056604), (79895, 1060638), (80414, 1064595), (80926, 1068468), (81432, 1072266), (81932, 1075990),
  (82425, 1079635), (82913, 1083215), (83395, 1086726), (83872, 1090174), (84343, 1093555), (84809, 1096876), (85270, 1100137), (85726, 1103341),
  (86177, 1106488), (86623, 1109578), (87065, 1112619), (87503, 1115613), (87936, 1118553), (88365, 1121446), (88790, 1124293), (89211, 1127095),
  (89628, 1129852), (90041, 1132565), (90450, 1135235), (90856, 1137869), (91258, 1140460), (91656, 1143009), (92051, 1145524), (92443, 1148004),
  (92831, 1150444), (93216, 1152851), (93599, 1155230), (93977, 1157565), (94353, 1159874), (94726, 1162150), (95096, 1164396), (95464, 1166616),
  (95828, 1168799), (96190, 1170959), (96548, 1173082), (96905, 1175187), (97258, 1177257), (97610, 1179310), (97958, 1181329), (98304, 1183324),
  (98648, 1185298), (98989, 1187244), (99328, 1189168), (99665, 1191070), (100000, 1192951), (100332, 1194806), (100662, 1196639), (100990, 1198452),
  (101315, 1200239), (101639, 1202012), (101961, 1203764), (102280, 1205492), (102598, 1207205), (102914, 1208899), (103228, 1210574), (103539, 1212225),
  (103849, 1213862), (104158, 1215486), (104464, 1217086), (104768, 1218668), (105071, 1220238), (105372, 1221789), (105672, 1223328), (105969, 1224845),
  (106265, 1226349), (106560, 1227841), (106852, 1229311), (107144, 1230774), (107433, 1232216), (107721, 1233645), (108008, 1235064), (108293, 1236466),
  (108576, 1237852), (108858, 1239226), (109139, 1240590), (109418, 1241938), (109696, 1243275), (109972, 1244597), (110247, 1245908), (110520, 1247204),
  (110793, 1248495), (111064, 1249770), (111333, 1251030), (111601, 1252281), (111868, 1253521), (112134, 1254752), (112399, 1255972), (112662, 1257179),
  (112924, 1258375), (113185, 1259562), (113444, 1260736), (113703, 1261904), (113960, 1263058), (114216, 1264204), (114471, 1265340), (114725, 1266467),
  (114977, 1267581), (115229, 1268690), (115480, 1269790), (115729, 1270878), (115977, 1271956), (116225, 1273030), (116471, 1274092), (116716, 1275145),
  (116960, 1276189), (117203, 1277226), (117446, 1278258), (117687, 1279278), (117927, 1280289), (118166, 1281293), (118404, 1282288), (118642, 1283280),
  (118878, 1284260), (119113, 1285232), (119348, 1286200), (119581, 1287156), (119814, 1288109), (120046, 1289054), (120277, 1289992), (120507, 1290922),
  (120736, 1291844), (120964, 1292760), (121191, 1293668), (121418, 1294572), (121644, 1295470), (121868, 1296356), (122092, 1297239), (122316, 1298119),
  (122538, 1298988), (122760, 1299854), (122980, 1300709), (123200, 1301561), (123420, 1302410), (123638, 1303248), (123856, 1304084), (124073, 1304912),
  (124289, 1305734), (124504, 1306550), (124719, 1307362), (124933, 1308168), (125146, 1308968), (125358, 1309761), (125570, 1310551), (125781, 1311335),
  (125992, 1312117), (126201, 1312888), (126410, 1313657), (126618, 1314419), (126826, 1315179), (127033, 1315933), (127239, 1316681), (127445, 1317426),
  (127650, 1318165), (127854, 1318899), (128057, 1319626), (128260, 1320351), (128463, 1321073), (128664, 1321786), (128865, 1322497), (129066, 1323206),
  (129266, 1323908), (129465, 1324605), (129663, 1325297), (129861, 1325986), (130059, 1326673), (130255, 1327350), (130452, 1328030), (130647, 1328700),
  (130842, 1329368), (131037, 1330034), (131230, 1330691), (131424, 1331349), (131616, 1331999), (131809, 1332650), (132000, 1333292), (132191, 1333933),
  (132382, 1334571), (132572, 1335204), (132761, 1335832), (132950, 1336458), (133138, 1337079), (133326, 1337698), (133513, 1338312), (133700, 1338924),
  (133886, 1339531), (134072, 1340136), (134257, 1340736), (134442, 1341335), (134626, 1341928), (134809, 1342516), (134993, 1343106), (135175, 1343688),
  (135357, 1344268), (135539, 1344847), (135720, 1345420), (135901, 1345992), (136081, 1346559), (136261, 1347125), (136440, 1347685), (136619, 1348244),
  (136798, 1348802), (136975, 1349352), (137153, 1349903), (137330, 1350450), (137506, 1350992), (137682, 1351532), (137858, 1352071), (138033, 1352606),
  (138208, 1353139), (138382, 1353667), (138556, 1354194), (138730, 1354720), (138902, 1355238), (139075, 1355757), (139247, 1356273), (139419, 1356786),
  (139590, 1357296), (139761, 1357804), (139931, 1358308), (140101, 1358810), (140271, 1359311), (140440, 1359808), (140609, 1360303), (140777, 1360794),
  (140945, 1361284), (141113, 1361773), (141280, 1362257), (141447, 1362740), (141613, 1363219), (141779, 1363696), (141945, 1364173), (142110, 1364645),
  (142275, 1365116), (142440, 1365586), (142604, 1366051), (142768, 1366516), (142931, 1366976), (143094, 1367436), (143256, 1367891), (143419, 1368348),
  (143581, 1368801), (143742, 1369250), (143903, 1369698), (144064, 1370144), (144224, 1370587), (144385, 1371032), (144544, 1371469), (144704, 1371909),
  (144863, 1372345), (145021, 1372776), (145180, 1373210), (145338, 1373639), (145495, 1374065), (145653, 1374493), (145809, 1374914), (145966, 1375336),
  (146122, 1375755), (146278, 1376173), (146434, 1376590), (146589, 1377003), (146744, 1377416), (146899, 1377827), (147053, 1378234), (147207, 1378641),
  (147361, 1379046), (147514, 1379448), (147667, 1379849), (147820, 1380249), (147972, 1380646), (148124, 1381041), (148276, 1381436), (148428, 1381829),
  (148579, 1382219), (148730, 1382608), (148880, 1382994), (149030, 1383379), (149180, 1383763), (149330, 1384146), (149479, 1384525), (149628, 1384904),
  (149777, 1385281), (149925, 1385656), (150074, 1386031), (150221, 1386401), (150369, 1386773), (150516, 1387141), (150663, 1387509), (150810, 1387876),
  (150956, 1388239), (151102, 1388601), (151248, 1388963), (151394, 1389324), (151539, 1389681), (151684, 1390038), (151829, 1390394), (151973, 1390746),
  (152118, 1391100), (152262, 1391451), (152405, 1391799), (152549, 1392149), (152692, 1392495), (152834, 1392838), (152977, 1393182), (153119, 1393524),
  (153261, 1393865), (153403, 1394205), (153545, 1394544), (153686, 1394880), (153827, 1395215), (153968, 1395550), (154108, 1395881), (154248, 1396212),
  (154388, 1396542), (154528, 1396871), (154668, 1397200), (154807, 1397526), (154946, 1397850), (155084, 1398172), (155223, 1398496), (155361, 1398816),
  (155499, 1399136), (155637, 1399455), (155774, 1399771), (155912, 1400088), (156049, 1400403), (156185, 1400715), (156322, 1401028), (156458, 1401338),
  (156594, 1401648), (156730, 1401957), (156866, 1402265), (157001, 1402571), (157136, 1402876), (157271, 1403180), (157406, 1403483), (157540, 1403784),
  (157674, 1404084), (157808, 1404384), (157942, 1404682), (158075, 1404978), (158209, 1405276), (158342, 1405571), (158475, 1405865), (158607, 1406156),
  (158740, 1406449), (158872, 1406739), (159004, 1407028), (159135, 1407315), (159267, 1407603), (159398, 1407889), (159529, 1408174), (159660, 1408458),
  (159791, 1408742), (159921, 1409023), (160052, 1409306), (160182, 1409585), (160311, 1409863), (160441, 1410141), (160570, 1410418), (160700, 1410695),
  (160829, 1410970), (160957, 1411242), (161086, 1411516), (161214, 1411788), (161342, 1412058), (161470, 1412328), (161598, 1412598), (161726, 1412867),
  (161853, 1413133), (161980, 1413399), (162107, 1413665), (162234, 1413929), (162360, 1414192), (162487, 1414456), (162613, 1414717), (162739, 1414977),
  (162865, 1415238), (162990, 1415495), (163116, 1415754), (163241, 1416011), (163366, 1416267), (163490, 1416521), (163615, 1416776), (163740, 1417031),
  (163864, 1417283), (163988, 1417534), (164112, 1417786), (164235, 1418034), (164359, 1418284), (164482, 1418532), (164605, 1418779), (164728, 1419026),
  (164851, 1419272), (164973, 1419516), (165096, 1419762), (165218, 1420004), (165340, 1420247), (165462, 1420489), (165584, 1420730), (165705, 1420970),
  (165826, 1421208), (165948, 1421448), (166068, 1421684), (166189, 1421922), (166310, 1422158), (166430, 1422393), (166551, 1422629), (166671, 1422862),
  (166791, 1423096), (166910, 1423326), (167030, 1423559), (167149, 1423789), (167268, 1424018), (167387, 1424247), (167506, 1424476), (167625, 1424704),
  (167744, 1424932), (167862, 1425158), (167980, 1425383), (168098, 1425608), (168216, 1425832), (168334, 1426056), (168451, 1426277), (168569, 1426501),
  (168686, 1426721), (168803, 1426942), (168920, 1427162), (169037, 1427381), (169153, 1427599), (169270, 1427818), (169386, 1428034), (169502, 1428250),
  (169618, 1428466), (169734, 1428681), (169849, 1428895), (169965, 1429109), (170080, 1429322), (170195, 1429534), (170310, 1429745), (170425, 1429957),
  (170540, 1430168), (170654, 1430376), (170769, 1430587), (170883, 1430795), (170997, 1431002), (171111, 1431209), (171225, 1431416), (171338, 1431621),
  (171452, 1431827), (171565, 1432031), (171678, 1432235), (171791, 1432438), (171904, 1432641), (172017, 1432844), (172130, 1433046), (172242, 1433246),
  (172354, 1433446), (172466, 1433645), (172578, 1433844), (172690, 1434043), (172802, 1434242), (172914, 1434440), (173025, 1434636), (173136, 1434831),
  (173247, 1435027), (173358, 1435222), (173469, 1435416), (173580, 1435610), (173690, 1435803), (173801, 1435996), (173911, 1436188), (174021, 1436379),
  (174131, 1436570), (174241, 1436761), (174351, 1436951), (174460, 1437139), (174570, 1437329), (174679, 1437517), (174788, 1437704), (174897, 1437891),
  (175006, 1438078), (175115, 1438264), (175224, 1438450), (175332, 1438634), (175441, 1438820), (175549, 1439003), (175657, 1439186), (175765, 1439369),
  (175873, 1439552), (175980, 1439732), (176088, 1439914), (176195, 1440094), (176303, 1440275), (176410, 1440455), (176517, 1440634), (176624, 1440813),
  (176731, 1440991), (176837, 1441168), (176944, 1441346), (177050, 1441522), (177156, 1441697), (177263, 1441875), (177369, 1442050), (177475, 1442224),
  (177580, 1442397), (177686, 1442572), (177791, 1442744), (177897, 1442918), (178002, 1443090), (178107, 1443261), (178212, 1443432), (178317, 1443603),
  (178422, 1443774), (178527, 1443945), (178631, 1444113), (178736, 1444283), (178840, 1444451), (178944, 1444619), (179048, 1444786), (179152, 1444954),
  (179256, 1445121), (179359, 1445286), (179463, 1445452), (179566, 1445617), (179670, 1445783), (179773, 1445947), (179876, 1446111), (179979, 1446274),
  (180082, 1446437), (180184, 1446599), (180287, 1446762), (180390, 1446924), (180492, 1447085), (180594, 1447245), (180696, 1447406), (180798, 1447566),
  (180900, 1447725), (181002, 1447885), (181104, 1448044), (181205, 1448201), (181307, 1448360), (181408, 1448517), (181509, 1448674), (181611, 1448832),
  (181712, 1448988), (181812, 1449143), (181913, 1449298), (182014, 1449454), (182114, 1449608), (182215, 1449763), (182315, 1449916), (182415, 1450069),
  (182516, 1450223), (182616, 1450376), (182716, 1450528), (182815, 1450679), (182915, 1450831), (183015, 1450982), (183114, 1451132), (183213, 1451282),
  (183313, 1451433), (183412, 1451582), (183511, 1451731), (183610, 1451880), (183709, 1452029), (183807, 1452176), (183906, 1452324), (184004, 1452470),
  (184103, 1452618), (184201, 1452764), (184299, 1452910), (184397, 1453055), (184495, 1453201), (184593, 1453346), (184691, 1453491), (184789, 1453635),
  (184886, 1453779), (184984, 1453923), (185081, 1454065), (185178, 1454208), (185275, 1454350), (185372, 1454492), (185469, 1454634), (185566, 1454775),
  (185663, 1454917), (185760, 1455058), (185856, 1455197), (185953, 1455338), (186049, 1455477), (186145, 1455616), (186241, 1455755), (186337, 1455893),
  (186433, 1456032), (186529, 1456170), (186625, 1456308), (186721, 1456445), (186816, 1456582), (186912, 1456719), (187007, 1456855), (187102, 1456990),
  (187198, 1457127), (187293, 1457262), (187388, 1457397), (187482, 1457530), (187577, 1457665), (187672, 1457799), (187767, 1457933), (187861, 1458066),
  (187955, 1458198), (188050, 1458332), (188144, 1458464), (188238, 1458595), (188332, 1458727), (188426, 1458859), (188520, 1458990), (188614, 1459121),
  (188707, 1459250), (188801, 1459381), (188894, 1459510), (188988, 1459641), (189081, 1459769), (189174, 1459898), (189267, 1460026), (189360, 1460155),
  (189453, 1460283), (189546, 1460411), (189639, 1460538), (189731, 1460664), (189824, 1460792), (189916, 1460918), (190009, 1461045), (190101, 1461170),
  (190193, 1461295), (190285, 1461420), (190377, 1461545), (190469, 1461670), (190561, 1461795), (190653, 1461919), (190744, 1462042), (190836, 1462166),
  (190928, 1462290), (191019, 1462413), (191110, 1462535), (191201, 1462657), (191293, 1462780), (191384, 1462902), (191475, 1463024), (191566, 1463145),
  (191656, 1463265), (191747, 1463386), (191838, 1463507), (191928, 1463626), (192019, 1463747), (192109, 1463866), (192199, 1463985), (192289, 1464104),
  (192380, 1464224), (192470, 1464342), (192559, 1464459), (192649, 1464577), (192739, 1464695), (192829, 1464813), (192918, 1464930), (193008, 1465047),
  (193097, 1465163), (193187, 1465281), (193276, 1465396), (193365, 1465512), (193454, 1465627), (193543, 1465743), (193632, 1465858), (193721, 1465973),
  (193810, 1466088), (193899, 1466203), (193987, 1466316), (194076, 1466430), (194164, 1466543), (194253, 1466657), (194341, 1466770), (194429, 1466883),
  (194517, 1466995), (194605, 1467107), (194693, 1467219), (194781, 1467331), (194869, 1467443), (194957, 1467555), (195044, 1467665), (195132, 1467776),
  (195220, 1467887), (195307, 1467997), (195394, 1468107), (195482, 1468218), (195569, 1468327), (195656, 1468436), (195743, 1468546), (195830, 1468655),
  (195917, 1468763), (196004, 1468872), (196090, 1468979), (196177, 1469088), (196263, 1469195), (196350, 1469303), (196436, 1469410), (196523, 1469518),
  (196609, 1469624), (196695, 1469730), (196781, 1469837), (196867, 1469943), (196953, 1470049), (197039, 1470154), (197125, 1470260), (197211, 1470366),
  (197296, 1470470), (197382, 1470575), (197468, 1470680), (197553, 1470784), (197638, 1470888), (197724, 1470993), (197809, 1471096), (197894, 1471199),
  (197979, 1471302), (198064, 1471405), (198149, 1471508), (198234, 1471611), (198319, 1471714), (198403, 1471815), (198488, 1471917), (198573, 1472020),
  (198657, 1472121), (198742, 1472222), (198826, 1472323), (198910, 1472424), (198994, 1472524), (199079, 1472626), (199163, 1472726), (199247, 1472826),
  (199331, 1472926), (199414, 1473024), (199498, 1473124), (199582, 1473224), (199666, 1473323), (199749, 1473421), (199833, 1473520), (199916, 1473618),
  (200000, 1473717)]

end Naima.Props
