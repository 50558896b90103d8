import Verif.Lemmas.JTree
import Verif.Gen.Jacobian5

/-!
# Generated by tools/gen_jacobian.py
-/

namespace BP.EL

def jac143 : JTree := .node (.node (.node (.node (.node (.leaf (.atom 547)) (.leaf (.adef 33739 [(28234813, .ofNat 1), (30707113, .ofNat 1), (31004657, .ofNat 1), (2308967189, .ofNat 1), (5589194539, .ofNat 2), (6253613629, .ofNat 2), (8853135661, .ofNat 1), (1265738137073, .negSucc 0), (1399593983201, .ofNat 2), (1562714343013, .ofNat 2), (1599019296397, .negSucc 1), (116768846323937, .ofNat 1), (128366262299137, .negSucc 0)] 0))) (.node (.leaf (.adef 37087 [(9223589, .negSucc 0), (13422029, .ofNat 1), (24319927, .negSucc 0)] 0)) .nil)) (.node (.node (.leaf (.adef 2579 [(85039, .negSucc 0), (111901, .ofNat 1)] 0)) .nil) (.node (.leaf (.adef 25633 [(4187639, .ofNat 1), (4449451, .negSucc 0)] 0)) .nil))) (.node (.node (.node (.leaf (.atom 3313)) (.leaf (.mult 7079 4629 (.negSucc 0) 0))) (.node (.leaf (.adef 18959 [(18914297, .ofNat 1), (26413279, .negSucc 0), (68772661, .negSucc 0), (1832131451, .ofNat 1), (1944166969, .negSucc 0)] 0)) .nil)) (.node (.node (.leaf (.adef 23291 [(21742979, .negSucc 0), (81051809, .negSucc 0), (127699337, .ofNat 1), (128056757, .negSucc 0), (144752257109, .ofNat 1), (145269684101, .negSucc 0)] 0)) .nil) (.node (.leaf (.adef 26417 [(41957, .ofNat 1), (11509583, .ofNat 1), (12940679, .negSucc 0), (13618757, .ofNat 1), (17387723, .ofNat 1), (18126343, .negSucc 0), (18173249, .negSucc 0), (19921273, .ofNat 1), (26506861, .negSucc 0), (68711663, .negSucc 0), (1522968744701, .ofNat 1)] 0)) .nil)))) (.node (.node (.node (.node (.leaf (.atom 5851)) (.leaf (.adef 44563 [(97351717, .ofNat 1), (10165334089, .ofNat 1)] 0))) (.node (.leaf (.adef 24551 [(1368869923, .negSucc 3), (1963185767, .ofNat 1), (681854855947, .ofNat 2), (12792072876521, .ofNat 2), (18576051656737, .negSucc 1)] 1)) .nil)) (.node (.node (.leaf (.adef 17443 [(6127727, .negSucc 0), (6134081, .ofNat 1), (385630813, .ofNat 1), (1005179951, .ofNat 1), (1026221281, .ofNat 1), (1027436623, .ofNat 1), (1459675447, .negSucc 0), (1496052769, .ofNat 1), (1497824527, .ofNat 1), (92408590243, .ofNat 1), (95925425017, .negSucc 0)] 0)) (.leaf (.trans [] 0))) (.node (.leaf (.adef 16183 [(32923778347, .negSucc 0), (39002933273, .ofNat 1), (40096865351, .ofNat 1), (42072017161, .negSucc 0), (174406867529, .negSucc 0), (176095412741, .negSucc 0), (5290732330901, .negSucc 0), (5991151860511, .negSucc 0), (6159188278657, .negSucc 0), (6760821284663, .negSucc 0), (7260271149137, .ofNat 1), (8221430282707, .ofNat 1), (8452020280909, .ofNat 1), (9277618417931, .ofNat 1), (9348042261953, .negSucc 0), (11537048457107, .negSucc 0), (12177939474401, .negSucc 0), (13183615826209, .negSucc 0), (13670096114999, .negSucc 0), (15029615173619, .negSucc 0), (16775881718909, .negSucc 0), (28026554031607, .negSucc 0), (28297897151803, .negSucc 0), (38459776250059, .ofNat 1), (38832130114111, .ofNat 1), (2025105238434263, .ofNat 1), (2099832369003793, .ofNat 1), (2576905030923163, .ofNat 1), (2778975048633131, .negSucc 0), (2881520253379741, .negSucc 0), (3536188958342431, .negSucc 0)] 0)) .nil))) (.node (.node (.node (.leaf (.atom 9619)) (.leaf (.adef 46279 [(23264627, .negSucc 0), (23319851, .negSucc 0), (23511821, .ofNat 1), (25983193, .ofNat 1), (26550443, .negSucc 0)] 0))) (.node (.leaf (.adef 39317 [(23277, .negSucc 3), (72716967, .negSucc 1), (118250343, .negSucc 1), (147923883, .negSucc 0), (239164209, .negSucc 0), (244396701, .negSucc 0), (6455289033, .negSucc 1), (9410692617, .negSucc 1), (266440360203, .ofNat 2), (309478703049, .ofNat 2), (331052674671, .negSucc 1), (352052870373, .ofNat 2), (358883507547, .ofNat 1), (417186045891, .ofNat 1), (12799142750349, .ofNat 3), (18658931857101, .ofNat 3), (528281257006359, .negSucc 3)] 0)) .nil)) (.node (.node (.leaf (.adef 11197 [(36107, .ofNat 1), (10411537, .ofNat 1), (2383089407, .negSucc 0), (2412850927, .negSucc 0), (4355826793, .negSucc 0), (4355942531, .negSucc 0), (7349687453, .negSucc 0), (7486536817, .negSucc 0), (7777206391, .negSucc 0), (7824509153, .negSucc 0), (10140997003, .ofNat 1), (10895073641, .negSucc 0), (11318113921, .negSucc 0), (12325357067, .negSucc 0)] 0)) .nil) (.node (.leaf (.adef 11423 [(4030459, .negSucc 0), (535877857, .ofNat 1), (538432841, .negSucc 0), (881870383, .ofNat 1), (937825381, .negSucc 0), (1906301129, .ofNat 1), (2051994709, .ofNat 1), (2364439697, .negSucc 0), (2400406159, .ofNat 1), (2404703183, .negSucc 0), (2765028901, .negSucc 0), (3132519563, .ofNat 1)] 0)) .nil))))

def jac144 : JTree := .node (.node (.node (.node (.node (.leaf (.atom 47543)) (.leaf (.adef 43987 [(23520767, .negSucc 0), (23711851, .negSucc 0), (23770841, .ofNat 1), (26977579, .ofNat 1), (27172969, .negSucc 0), (33851813, .negSucc 1)] 0))) (.node (.leaf (.adef 13633 [(37199, .ofNat 1), (7876703, .negSucc 0), (9889211, .ofNat 1), (12032791, .ofNat 1), (14498411, .ofNat 1), (17368613, .negSucc 0), (19565279, .negSucc 0), (20868781, .ofNat 1), (22648117, .negSucc 0), (26952719, .ofNat 1), (43910723, .negSucc 0)] 0)) .nil)) (.node (.node (.leaf (.adef 9679 [(35491, .ofNat 4), (30619751, .ofNat 4), (238686191, .negSucc 3), (241401899, .ofNat 4), (934498003, .negSucc 3), (958063501, .negSucc 3), (980814619, .negSucc 3), (29834641363, .ofNat 4), (30203511487, .ofNat 4), (30247769291, .negSucc 3), (49464914623, .negSucc 1), (122937282031, .ofNat 4), (126172356911, .negSucc 3), (11115841866827, .negSucc 1)] 1)) (.leaf (.trans [(1231, .ofNat 1)] 0))) (.node (.leaf (.adef 5801 [(22179, .ofNat 2), (49895649, .negSucc 0)] 0)) .nil))) (.node (.node (.node (.leaf (.atom 12791)) (.leaf (.adef 16741 [(45433, .ofNat 1), (3004721, .ofNat 1), (509838541, .ofNat 1), (622965487, .ofNat 1), (903366601, .negSucc 0), (1108790461, .negSucc 0), (118502475709, .negSucc 0), (146731433543, .ofNat 1), (157274182493, .negSucc 0), (201870782807, .ofNat 1), (204935573261, .negSucc 0), (252614898889, .ofNat 1), (19717110803057, .ofNat 1), (21675403130257, .negSucc 0), (26168166227089, .ofNat 1), (28767173741489, .negSucc 0), (34098337450753, .ofNat 1), (37484965099553, .negSucc 0)] 0))) (.node (.leaf (.adef 9803 [(6605839, .ofNat 1), (6648799, .ofNat 1), (8828947, .ofNat 1), (10238861, .ofNat 1), (739149049, .negSucc 0), (1101059719, .ofNat 1)] 0)) .nil)) (.node (.node (.leaf (.adef 2389 [(17838167, .negSucc 0), (21374239, .negSucc 0), (50826961, .negSucc 0)] 0)) .nil) (.node (.leaf (.adef 33023 [(21735607, .negSucc 0), (21868939, .ofNat 1), (22781531, .ofNat 1), (22848461, .negSucc 0)] 0)) .nil)))) (.node (.node (.node (.node (.leaf (.atom 35281)) (.leaf (.adef 34217 [(38804893, .ofNat 4), (57039761, .ofNat 4), (5313184703, .negSucc 1), (740322413977, .negSucc 1), (1029456476977, .ofNat 2)] 1))) (.node (.leaf (.adef 37897 [(3863597, .negSucc 0), (10816979, .negSucc 0), (29139499, .negSucc 0), (33077711, .negSucc 0), (36924491, .negSucc 0), (846740177, .negSucc 0), (848439841, .ofNat 1), (858202927, .negSucc 0), (877228637, .negSucc 0), (1188731231, .negSucc 0), (1219831637, .ofNat 1), (1590926101, .negSucc 0), (1619496929, .ofNat 1), (1656038513, .ofNat 1), (2351757913, .negSucc 0), (2414217137, .ofNat 1), (43526252113, .ofNat 1)] 0)) .nil)) (.node (.node (.leaf (.adef 13337 [(10525271, .ofNat 4), (3472093663, .negSucc 1), (497753382887, .negSucc 1), (692151735887, .ofNat 2)] 1)) .nil) (.node (.leaf (.adef 9839 [(6782873, .ofNat 1), (6975047, .ofNat 1), (7017343, .ofNat 1), (9312319, .ofNat 1), (740832041, .negSucc 0), (893251813, .ofNat 1)] 0)) .nil))) (.node (.node (.node (.leaf (.atom 13033)) (.leaf (.adef 46747 [(47309903, .negSucc 0), (50091023, .negSucc 0), (50193691, .ofNat 1), (66078293, .ofNat 1), (66859339, .negSucc 0)] 0))) (.node (.leaf (.adef 39667 [(3039227, .negSucc 0), (3351853, .negSucc 0), (3545621, .ofNat 1), (5231221, .ofNat 1), (5734483, .negSucc 0), (7392037, .ofNat 1), (9931081, .negSucc 0), (11794297, .ofNat 1), (12813491, .negSucc 0)] 0)) .nil)) (.node (.node (.leaf (.adef 23917 [(36319, .ofNat 1), (7885529, .negSucc 0), (36766278973, .negSucc 0)] 0)) .nil) (.node (.leaf (.adef 20809 [(11760893, .ofNat 1), (960516119, .negSucc 0), (992511467, .ofNat 1), (1704664471, .negSucc 0), (1768612423, .ofNat 1), (1789133063, .ofNat 1), (13168756207, .ofNat 1), (19784126951, .negSucc 1)] 0)) .nil))))

def jac145 : JTree := .node (.node jac143 (.node (.node (.node (.node (.node (.leaf (.atom 1153)) (.leaf (.adef 21211 [(26578333, .ofNat 1), (101737091, .negSucc 0), (44114170391, .negSucc 0), (73551192739, .ofNat 1)] 0))) (.node (.leaf (.adef 8573 [(5395139, .ofNat 1), (5459351, .ofNat 1), (5492213, .ofNat 1), (1075326701, .negSucc 0), (1386809141, .ofNat 1)] 0)) .nil)) (.node (.node (.leaf (.adef 10903 [(7003981, .negSucc 1), (27943273, .ofNat 4)] 1)) (.leaf (.trans [] 0))) (.node (.leaf (.adef 40763 [(11345773, .negSucc 0), (11346479, .ofNat 1), (27657823, .negSucc 0), (37792913, .ofNat 1), (1703069387, .ofNat 1), (1703201413, .ofNat 1), (1740032149, .ofNat 1), (1741517567, .ofNat 1), (2473117939, .negSucc 0), (2473309661, .negSucc 0), (2536665301, .ofNat 1), (2538830783, .ofNat 1), (234077903491, .ofNat 1)] 0)) .nil))) (.node (.node (.node (.leaf (.atom 4357)) (.leaf (.adef 28403 [(3921202759, .ofNat 4), (3983961937, .negSucc 3), (4165939189, .negSucc 3), (4247728627, .negSucc 3), (258692316923, .negSucc 3), (270508724231, .negSucc 3), (645189111971, .ofNat 2), (743978012341, .negSucc 1), (38949514508701, .ofNat 4), (42192913234753, .negSucc 3), (42513184454989, .negSucc 3), (46053336624817, .ofNat 4), (105230833853881, .ofNat 2), (107122542787511, .ofNat 2), (114858886084009, .negSucc 1), (116923676155079, .negSucc 1)] 1))) (.node (.leaf (.adef 25097 [(3504881, .negSucc 0), (4168873, .ofNat 1), (4176343, .ofNat 1), (4406239, .negSucc 0), (825294077, .negSucc 0)] 0)) .nil)) (.node (.node (.leaf (.adef 10159 [(1436503, .ofNat 1), (2240989, .negSucc 0), (40499603, .ofNat 1)] 0)) .nil) (.node (.leaf (.adef 33107 [(20324761, .ofNat 1), (21815219, .negSucc 0), (23270993, .negSucc 0), (23308487, .ofNat 1)] 0)) .nil)))) (.node (.node (.node (.node (.leaf (.atom 2819)) (.leaf (.adef 12569 [(130465607, .ofNat 1), (2855461009, .ofNat 1), (150809618903, .negSucc 0), (1198042790719, .negSucc 0)] 0))) (.node (.leaf (.adef 38273 [(3247721, .ofNat 1), (4081289, .negSucc 0), (166488767, .ofNat 1), (447720701, .negSucc 0)] 0)) .nil)) (.node (.node (.leaf (.adef 15413 [(153599, .ofNat 1), (23593993, .negSucc 0), (32377141, .ofNat 1)] 0)) .nil) (.node (.leaf (.adef 41507 [(6979417, .negSucc 0), (8200187, .ofNat 1)] 0)) .nil))) (.node (.node (.node (.leaf (.atom 6131)) (.leaf (.adef 22271 [(22543, .negSucc 0), (6798367, .ofNat 1), (8652967, .negSucc 0)] 0))) (.node (.leaf (.adef 39979 [(3813969529, .negSucc 0), (4129637429, .ofNat 1), (4804064071, .negSucc 0), (4993870927, .ofNat 1), (5184151543, .negSucc 0), (8213525891, .ofNat 1), (11205142667, .negSucc 0), (1162501082059, .ofNat 1), (1282196407081, .ofNat 1)] 0)) .nil)) (.node (.node (.leaf (.adef 36637 [(36679873, .ofNat 4), (231336272723, .negSucc 3), (596380177427, .ofNat 2), (123632334492313, .ofNat 2), (180234516453337, .ofNat 2)] 1)) .nil) (.node (.leaf (.adef 33563 [(1851617, .negSucc 0), (2843713, .ofNat 1), (338120759, .negSucc 0), (463990283, .ofNat 1)] 0)) .nil)))))) (.node jac144 (.node (.node (.node (.node (.node (.leaf (.atom 1733)) (.leaf (.adef 44279 [(4247041, .ofNat 1), (13174566563, .ofNat 1)] 0))) (.node (.leaf (.adef 37397 [(13598041, .ofNat 1), (15563693, .negSucc 0), (24610519, .negSucc 0)] 0)) .nil)) (.node (.node (.leaf (.adef 13267 [(87441, .ofNat 2), (235237581, .negSucc 0)] 0)) (.leaf (.trans [(46381, .ofNat 1)] 0))) (.node (.leaf (.adef 32401 [(2485957, .negSucc 0), (2992309, .ofNat 1)] 0)) .nil))) (.node (.node (.node (.leaf (.atom 28729)) (.leaf (.adef 45989 [(886385461, .ofNat 1), (952642613, .ofNat 1), (995663461, .negSucc 0), (1339255567, .negSucc 0)] 0))) (.node (.leaf (.adef 3541 [(3839249, .ofNat 2), (4751603, .ofNat 2), (6696029, .ofNat 2), (7334479, .ofNat 2)] 0)) .nil)) (.node (.node (.leaf (.adef 36011 [(11509054441, .ofNat 1)] 0)) .nil) (.node (.leaf (.adef 12479 [(3158677, .ofNat 1), (4777589, .ofNat 1), (119030501, .negSucc 0), (12638118629, .negSucc 0), (4185941233457, .ofNat 1), (4388457842393, .ofNat 1)] 0)) .nil)))) (.node (.node (.node (.node (.leaf (.atom 5903)) (.leaf (.adef 34367 [(34491757, .ofNat 1), (50465449, .ofNat 1)] 0))) (.node (.leaf (.adef 6841 [(111728599, .ofNat 1), (112169017, .negSucc 0), (112319399, .ofNat 1), (139475137, .ofNat 1), (139952867, .negSucc 0), (140189279, .ofNat 1), (190789619, .ofNat 1), (191164783, .negSucc 0), (191181637, .ofNat 1), (191304709, .ofNat 1), (191338249, .negSucc 0), (191349061, .ofNat 1)] 0)) .nil)) (.node (.node (.leaf (.adef 23131 [(23794139, .ofNat 1), (130505897, .negSucc 0), (135769789, .ofNat 1), (141110063, .ofNat 1), (160917437, .negSucc 0), (2948271560083, .negSucc 0)] 0)) .nil) (.node (.leaf (.adef 32717 [(7281433, .ofNat 4), (559920379, .ofNat 2), (2483821829, .ofNat 1), (7189419383, .ofNat 2)] 1)) .nil))) (.node (.node (.node (.leaf (.atom 1951)) (.leaf (.atom 337))) (.node (.leaf (.adef 5641 [(11875735873, .ofNat 1)] 0)) .nil)) (.node (.node (.leaf (.adef 30293 [(19297321, .ofNat 1), (20725147, .negSucc 0), (20802433, .negSucc 0), (20999707, .ofNat 1)] 0)) .nil) (.node (.leaf (.adef 33679 [(37752251, .ofNat 1), (990851479, .negSucc 0), (1081509031, .ofNat 1), (114490730957, .negSucc 0), (122399137027, .ofNat 1), (451571568367, .negSucc 0), (492887924863, .ofNat 1)] 0)) .nil))))))

def jac146 : JTree := .node (.node (.node (.node (.node .nil (.leaf (.adef 14447 [(43889, .ofNat 1), (43891, .ofNat 1), (4351614341, .ofNat 1), (4391381699, .ofNat 1), (6286458707, .ofNat 1), (7294262363, .ofNat 1), (1051243543001, .ofNat 1), (1071579357997, .ofNat 1), (1231820437097, .ofNat 1), (1255649427709, .ofNat 1), (1546651332179, .ofNat 2), (1636617434713, .ofNat 2), (2292734251463, .ofNat 2), (2381757875503, .ofNat 2), (348560303822881, .ofNat 1), (408434095665457, .ofNat 1)] 0))) (.node (.leaf (.adef 24133 [(3426158017, .negSucc 0), (3757168853, .negSucc 0), (3836388791, .ofNat 1), (4056174799, .negSucc 0), (13046008711, .ofNat 1), (13445062991, .ofNat 1), (16707785587, .ofNat 1)] 0)) .nil)) (.node (.node (.leaf (.adef 3037 [(22699, .negSucc 0), (30961603, .negSucc 0)] 0)) .nil) (.node (.leaf (.adef 40277 [(40253, .ofNat 1), (11366051, .ofNat 1), (13436911, .ofNat 1), (18223991, .negSucc 0), (22607801, .ofNat 1), (26498429, .ofNat 1), (28830779, .negSucc 0), (30473273, .negSucc 0), (31566533, .ofNat 1), (37448153, .ofNat 1), (69022843, .ofNat 1)] 0)) .nil))) (.node (.node (.node (.leaf (.atom 22391)) (.leaf (.adef 45319 [(5517709, .ofNat 1), (8587223, .negSucc 0)] 0))) (.node (.leaf (.adef 31193 [(25791677, .negSucc 0), (27085451, .ofNat 1), (30284519, .ofNat 1), (8461868321, .negSucc 0)] 0)) .nil)) (.node (.node (.leaf (.adef 613 [(5247089, .negSucc 0), (6289267, .negSucc 0)] 0)) .nil) (.node (.leaf (.adef 14173 [(42071, .ofNat 1), (8032501, .negSucc 0), (11637407, .negSucc 0), (14754403, .negSucc 0), (19680361, .ofNat 1), (22985311, .ofNat 1), (25169239, .negSucc 0), (29909843, .negSucc 0), (43732121, .negSucc 0)] 0)) .nil)))) (.node (.node (.node (.node (.leaf (.atom 3271)) (.leaf (.adef 44651 [(641145839, .negSucc 3), (146914750597, .negSucc 3), (475932394453, .negSucc 1), (1305494404633, .ofNat 2)] 1))) (.node (.leaf (.adef 30727 [(38672561, .negSucc 3), (56379053, .negSucc 3), (4471407511, .ofNat 2), (15351084061, .negSucc 1), (19549989077, .ofNat 2), (357176387747, .negSucc 1), (520701269603, .negSucc 1), (651232719421, .ofNat 2), (664587212477, .ofNat 1), (924142775477, .negSucc 0)] 1)) .nil)) (.node (.node (.leaf (.adef 3733 [(289494541, .ofNat 1), (544710686821, .ofNat 1), (151067659740949, .ofNat 1), (182263504285387, .ofNat 1), (2680004199581303, .negSucc 0), (3233431680565289, .negSucc 0)] 0)) (.leaf (.trans [] 0))) (.node (.leaf (.adef 32537 [(25916641, .negSucc 0), (27290687, .ofNat 1), (31589543, .ofNat 1), (8525986877, .negSucc 0)] 0)) .nil))) (.node (.node (.node (.leaf (.atom 6719)) (.leaf (.adef 46507 [(43288697, .negSucc 0), (49878431, .ofNat 1), (49957261, .negSucc 0), (60276973, .ofNat 1), (60978893, .negSucc 0)] 0))) (.node (.leaf (.adef 39451 [(9829, .ofNat 1), (2110987, .ofNat 1), (2877499, .ofNat 1), (3436351, .negSucc 0), (4450217, .negSucc 0), (5153627, .negSucc 0)] 0)) .nil)) (.node (.node (.leaf (.adef 36229 [(27609749, .ofNat 1), (28324741, .negSucc 0), (96214889, .ofNat 1)] 0)) .nil) (.node (.leaf (.adef 7433 [(3962753, .negSucc 0), (4308719, .ofNat 1), (2947986307619, .negSucc 0), (3084029510411, .negSucc 0), (4280928232843, .ofNat 1), (4495980520139, .negSucc 0)] 0)) .nil))))

def jac147 : JTree := .node (.node (.node (.node (.node (.leaf (.atom 47581)) (.leaf (.adef 21319 [(216143, .negSucc 0), (231073, .ofNat 1), (565711, .ofNat 1), (78914041, .negSucc 0), (86134249, .ofNat 1)] 0))) (.node (.leaf (.adef 8623 [(1642351, .ofNat 1), (1648327, .ofNat 1), (2449771, .ofNat 1), (404963963, .negSucc 0), (437262359, .ofNat 1), (37359366347, .ofNat 1), (41069877547, .negSucc 0)] 0)) .nil)) (.node (.node (.leaf (.adef 4703 [(5473731947, .ofNat 1)] 0)) (.leaf (.trans [] 0))) (.node (.leaf (.adef 40897 [(2818021, .negSucc 0), (3207349, .ofNat 1)] 0)) .nil))) (.node (.node (.node (.leaf (.atom 22543)) (.leaf (.adef 34721 [(149834169, .ofNat 2), (168968907, .ofNat 1), (275086020753, .negSucc 1)] 0))) (.node (.leaf (.adef 25117 [(698965097, .negSucc 0), (724757167, .negSucc 0), (754864267, .ofNat 1), (782719037, .ofNat 1), (1639406099, .ofNat 1), (1699900789, .ofNat 1), (3262650029, .ofNat 1), (3380128487, .ofNat 1), (3534579647, .negSucc 0), (5815019317, .ofNat 1), (5866551401, .ofNat 1), (7545912637, .ofNat 1), (8073072919, .negSucc 0), (9273347287, .ofNat 1), (9707556959, .ofNat 1), (13564230791, .ofNat 1), (15001150937, .ofNat 1), (16985036911, .ofNat 1), (124159754867, .ofNat 1), (128741295637, .ofNat 1), (149368992203, .ofNat 1), (154880763133, .ofNat 1), (170379718679, .negSucc 0), (176666793169, .negSucc 0), (184346331857, .ofNat 1), (191148779527, .ofNat 1), (268588149593, .ofNat 1), (278795243371, .ofNat 1), (317150809219, .negSucc 0), (325898572147, .ofNat 1), (329866557821, .negSucc 0), (331482722267, .ofNat 1), (344079984049, .ofNat 1), (364679507369, .negSucc 0), (378913219501, .negSucc 0), (398029925081, .negSucc 0), (410368652303, .ofNat 1), (411497672087, .negSucc 0), (472435162531, .ofNat 1), (483017390939, .ofNat 1), (583064048089, .ofNat 1), (662826430943, .negSucc 0), (50964990178877, .negSucc 0), (53008365077443, .negSucc 0), (56017589594383, .ofNat 1), (58203997737707, .ofNat 1), (69937321465049, .ofNat 1), (72741367274791, .ofNat 1), (76870811853571, .negSucc 0), (79871136755759, .negSucc 0), (153865217187827, .ofNat 1), (189895425888713, .ofNat 1), (200163228145211, .ofNat 1), (274676400076607, .negSucc 0)] 0)) .nil)) (.node (.node (.leaf (.adef 29753 [(20602667, .negSucc 0), (20739463, .ofNat 1), (21216667, .ofNat 1), (21251227, .negSucc 0)] 0)) .nil) (.node (.leaf (.adef 20551 [(117321073, .ofNat 1), (117478633, .negSucc 0), (88825651727, .negSucc 0), (89003452171, .ofNat 1)] 0)) .nil)))) (.node (.node (.node (.node (.leaf (.atom 8017)) (.leaf (.adef 45061 [(1006394519233, .ofNat 1)] 0))) (.node (.leaf (.adef 31079 [(1688441, .negSucc 0), (2518909, .ofNat 1)] 0)) .nil)) (.node (.node (.leaf (.adef 5573 [(201217, .negSucc 0), (248581, .negSucc 0)] 0)) .nil) (.node (.leaf (.adef 26237 [(90622489, .negSucc 0), (101090147, .ofNat 1)] 0)) .nil))) (.node (.node (.node (.leaf (.atom 48859)) (.leaf (.atom 421))) (.node (.leaf (.adef 25453 [(10099283, .negSucc 0), (12899147, .ofNat 1), (17083711, .negSucc 0), (17290759, .negSucc 0), (68637587, .ofNat 1)] 0)) .nil)) (.node (.node (.leaf (.adef 18059 [(110553253, .negSucc 0), (168447871, .ofNat 1), (208769233, .ofNat 1), (5579892251, .ofNat 1), (5641977283, .ofNat 1), (8230347703, .ofNat 1), (8321923199, .ofNat 1), (10003239209, .ofNat 1), (10117847293, .ofNat 1), (14693914681, .negSucc 0), (14857407473, .negSucc 0), (15274986889, .ofNat 1), (15731975641, .ofNat 1), (23203868333, .ofNat 1), (31253094391, .ofNat 1), (41457637883, .negSucc 0), (74887287539, .ofNat 1), (75774150761, .ofNat 1), (160121097833, .ofNat 1), (173265291887, .ofNat 1), (1137732161887, .negSucc 0), (1468192033019, .ofNat 1), (1485117630511, .ofNat 1), (2867364841223, .negSucc 0), (2901233756569, .negSucc 0), (3955805591117, .ofNat 1), (4001408871673, .ofNat 1), (4627287196813, .ofNat 1), (14973105513103, .ofNat 1)] 0)) .nil) (.node (.leaf (.adef 33589 [(1857787, .negSucc 0), (2836957, .negSucc 0), (340273823, .ofNat 1), (466944851, .negSucc 0)] 0)) .nil))))

def jac148 : JTree := .node (.node (.node (.node (.leaf (.atom 47819)) (.leaf (.adef 44417 [(13935673, .ofNat 1), (14642981, .ofNat 1), (15835559, .ofNat 1), (23983343, .ofNat 1), (25445587, .ofNat 1), (29096819, .ofNat 1), (31622009, .ofNat 1), (32663597, .ofNat 1), (36800143, .ofNat 1), (40425097, .ofNat 1), (67233151, .ofNat 1), (69713269, .ofNat 1), (794767933, .ofNat 1), (824095163, .ofNat 1), (1744044619, .negSucc 0), (1808400509, .negSucc 0), (2356594049, .ofNat 1), (2436486089, .ofNat 1), (2606705911, .ofNat 1), (2710649363, .negSucc 0), (2852795591, .negSucc 0), (2897886493, .ofNat 1), (2922360941, .negSucc 0), (3055577983, .ofNat 1), (3147955241, .negSucc 0), (3265254563, .negSucc 0), (4345030003, .ofNat 1), (4829177189, .ofNat 1), (5149221949, .negSucc 0), (5195905249, .ofNat 1), (5276625587, .negSucc 0), (7020607679, .negSucc 0), (7670094023, .negSucc 0), (7865187277, .ofNat 1), (8975885407, .negSucc 0), (9560520107, .ofNat 1), (9689428079, .ofNat 1), (10228572469, .ofNat 1), (10388621827, .ofNat 1), (10717387927, .ofNat 1), (10887096797, .ofNat 1), (11032130741, .ofNat 1), (11784022513, .ofNat 1), (12539555807, .ofNat 1), (12696140377, .negSucc 0), (13037111567, .ofNat 1), (14841651101, .ofNat 1), (16552298363, .ofNat 1), (18271705343, .ofNat 1), (20574007931, .ofNat 1), (22687943923, .ofNat 1), (24186261089, .ofNat 1), (25563222589, .ofNat 1), (33625821689, .ofNat 1), (49663421233, .ofNat 1), (59646488497, .ofNat 1), (339474678119, .ofNat 1), (356608539841, .ofNat 1), (363282828653, .ofNat 1), (368419240219, .ofNat 1), (376001210411, .ofNat 1), (376973216857, .ofNat 1), (397509927637, .ofNat 1), (413206038901, .negSucc 0), (426891220759, .negSucc 0), (440280891553, .ofNat 1), (441600490997, .ofNat 1), (458381749337, .ofNat 1), (1168103560187, .negSucc 0), (1248789893557, .ofNat 1), (2286075979861, .ofNat 1), (2998082290031, .ofNat 1), (3630932770327, .negSucc 0), (4249079133743, .negSucc 0), (4761799402517, .negSucc 0), (5183826259103, .negSucc 0), (5572469599453, .negSucc 0), (5807440922989, .ofNat 1), (30546950099663, .negSucc 0)] 0))) (.node (.leaf (.adef 37501 [(27663463, .negSucc 0), (28269743, .negSucc 0), (114166853, .negSucc 0)] 0)) .nil)) (.node (.node (.leaf (.adef 6529 [(1266703, .ofNat 1), (1350149, .ofNat 1)] 0)) .nil) (.node (.leaf (.adef 41213 [(12663421, .negSucc 0), (12707809, .ofNat 1), (13501889, .ofNat 1), (13638577, .negSucc 0)] 0)) .nil))) (.node (.node (.node (.leaf (.atom 12893)) (.leaf (.adef 46093 [(22362517, .negSucc 0), (23833427, .negSucc 0), (24094349, .ofNat 1), (24174181, .ofNat 1), (24560687, .negSucc 0), (30060031, .negSucc 0)] 0))) (.node (.leaf (.adef 19249 [(12038987, .ofNat 1), (14507971, .ofNat 1), (25382551, .ofNat 1), (63131207, .ofNat 1), (75658511, .negSucc 0), (94887103, .ofNat 1), (109488289, .ofNat 1), (109588891, .ofNat 1), (148769557, .ofNat 1), (161890369, .ofNat 1), (164283697, .ofNat 1), (272143687, .ofNat 1)] 0)) .nil)) (.node (.node (.leaf (.adef 17881 [(783103, .ofNat 1), (1288471, .ofNat 1), (2428277, .ofNat 1)] 0)) .nil) (.node (.leaf (.adef 42641 [(17391743, .ofNat 1), (26664251, .ofNat 1), (33660317, .ofNat 1)] 0)) .nil)))

def jac149 : JTree := .node (.node (.node (.node (.node (.node (.leaf (.atom 571)) (.leaf (.adef 44119 [(11773703, .negSucc 0), (13827881, .ofNat 1), (24287251, .ofNat 1), (26312683, .negSucc 0)] 0))) (.node (.leaf (.adef 18311 [(27035693, .ofNat 1), (109376503, .negSucc 0), (44873287111, .negSucc 0), (79074132887, .ofNat 1)] 0)) .nil)) (.node (.node (.leaf (.adef 13183 [(148289, .negSucc 0), (4213537, .ofNat 1)] 0)) (.leaf (.trans [] 0))) (.node (.leaf (.adef 32203 [(121629, .ofNat 2), (684844119, .negSucc 0)] 0)) .nil))) (.node (.node (.node (.leaf (.atom 28607)) (.leaf (.adef 34519 [(35534329, .ofNat 1), (38021297, .negSucc 0), (46924643, .negSucc 0), (9229867417, .ofNat 1)] 0))) (.node (.leaf (.adef 25037 [(5934191, .ofNat 1), (6311839, .ofNat 1), (512477701, .negSucc 0), (558911473, .ofNat 1), (789094391, .ofNat 1), (838610677, .negSucc 1)] 0)) .nil)) (.node (.node (.leaf (.adef 23561 [(101507891, .ofNat 1), (101686867, .negSucc 0), (125444827, .ofNat 1), (141274337, .ofNat 1), (146479009, .negSucc 0), (147032651, .ofNat 1)] 0)) .nil) (.node (.leaf (.adef 16333 [(35437697, .ofNat 1), (35993351, .negSucc 0), (36126977, .negSucc 0), (36242057, .ofNat 1)] 0)) .nil)))) (.node (.node (.node (.node (.leaf (.atom 48157)) (.leaf (.adef 34267 [(260761089577, .ofNat 1)] 0))) (.node (.leaf (.adef 30893 [(546037, .negSucc 0), (1345391, .ofNat 1), (2508169, .ofNat 1), (3149617, .negSucc 0), (3779887, .ofNat 1), (227731109, .negSucc 1), (322346839, .negSucc 0), (397829941, .negSucc 0), (25287108703, .ofNat 1), (26844578261, .ofNat 1)] 0)) .nil)) (.node (.node (.leaf (.mult 1307 1348 (.negSucc 0) 0)) .nil) (.node (.leaf (.adef 26141 [(6260119, .ofNat 1), (6657403, .ofNat 1), (516332527, .negSucc 0), (563115571, .ofNat 1), (799489877, .ofNat 1), (848035571, .negSucc 0)] 0)) .nil))) (.node (.node (.node (.leaf (.atom 48677)) (.leaf (.adef 47111 [(45595103, .negSucc 0), (50038927, .ofNat 1), (50579411, .negSucc 0), (103332223, .negSucc 0), (103425139, .ofNat 1), (104858137, .negSucc 0)] 0))) (.node (.leaf (.adef 39839 [(3708557, .ofNat 1), (202226639, .ofNat 1)] 0)) .nil)) (.node (.node (.leaf (.adef 15619 [(56275997, .ofNat 4), (4325970809, .negSucc 1), (418149770089, .negSucc 3), (651127985239, .negSucc 1), (905427026239, .ofNat 2)] 1)) .nil) (.node (.leaf (.adef 33547 [(56731223, .negSucc 1), (5103214913, .negSucc 0), (425049768623, .negSucc 1), (725608146257, .negSucc 0), (1008995529257, .ofNat 1)] 1)) .nil))))) (.node jac148 (.node (.node (.node (.node (.leaf (.atom 12043)) (.leaf (.adef 14629 [(7137572293, .ofNat 1), (7482889357, .ofNat 1)] 0))) (.node (.leaf (.adef 4271 [(1726001, .ofNat 1), (2196301, .ofNat 1), (12080246723, .negSucc 0)] 0)) .nil)) (.node (.node (.leaf (.adef 23201 [(21674077, .negSucc 0), (99689509, .ofNat 1), (101355763, .negSucc 0), (97961790917, .ofNat 1), (97971515069, .negSucc 0)] 0)) .nil) (.node (.leaf (.adef 41777 [(22233, .ofNat 4), (67323339, .negSucc 1), (76311531, .negSucc 1), (118620081, .negSucc 1), (153803889, .negSucc 0), (241543773, .negSucc 0), (244026423, .negSucc 0), (1317529989, .ofNat 2), (133539202449, .ofNat 3), (266743616589, .ofNat 2), (308806326099, .ofNat 2), (352598006853, .ofNat 2), (362454218559, .ofNat 1), (418107378123, .ofNat 1), (529099274438199, .negSucc 3)] 0)) .nil))) (.node (.node (.node (.leaf (.atom 7237)) .nil) (.node (.leaf (.adef 25577 [(6088447, .ofNat 1), (6488593, .negSucc 0), (482719583, .negSucc 0), (596345819, .negSucc 0)] 0)) .nil)) (.node (.node (.leaf (.adef 37039 [(11876419, .negSucc 0), (12098819, .ofNat 1), (12685067, .ofNat 1), (12932357, .negSucc 0)] 0)) .nil) (.node (.leaf (.adef 3797 [(273191, .negSucc 0), (113238757, .negSucc 0), (158857373, .negSucc 0)] 0)) .nil)))))

def jac150 : JTree := .node (.node (.node (.node (.leaf (.atom 283)) (.leaf (.adef 27043 [(6946782863, .ofNat 1), (7270313647, .ofNat 1)] 0))) (.node (.leaf (.adef 8461 [(1936391627, .negSucc 0), (5963202587, .ofNat 2), (6715651609, .negSucc 1)] 0)) .nil)) (.node (.node (.leaf (.atom 4691)) .nil) (.node (.leaf (.adef 40127 [(19455531829, .ofNat 1), (25309697197, .ofNat 1)] 0)) .nil))) (.node (.node (.node (.leaf (.atom 11621)) (.leaf (.adef 21817 [(21659707, .negSucc 0), (33430559, .negSucc 0), (1157554921, .ofNat 1), (6520176437, .ofNat 1)] 0))) (.node (.leaf (.adef 24851 [(8649271, .ofNat 1), (8678477, .ofNat 1), (9454891, .negSucc 0), (9457909, .negSucc 0), (9486077, .negSucc 0), (18642677, .ofNat 1), (18652261, .ofNat 1), (29256967, .negSucc 0), (35446511, .negSucc 0), (35493541, .negSucc 0), (269101103, .negSucc 1), (279031033, .negSucc 1), (956474263, .ofNat 2), (987297173, .ofNat 2), (1112419603, .ofNat 1), (1524773963, .ofNat 1), (1592054857, .negSucc 0), (4018819697, .ofNat 2), (4231091279, .ofNat 2), (4378353323, .negSucc 1), (4432210183, .ofNat 2), (4527914813, .ofNat 2), (9633658121, .negSucc 0), (9933318523, .negSucc 0), (10897332473, .ofNat 1), (13074219923, .ofNat 1), (13198515797, .ofNat 1), (13489383343, .negSucc 0), (13524638861, .negSucc 0), (16798871669, .ofNat 1), (23753741177, .negSucc 0), (27408738619, .negSucc 0), (38025714319, .negSucc 1), (39428877209, .negSucc 1), (65042796449, .negSucc 1), (67442899639, .negSucc 1), (68090549711, .ofNat 2), (73731959963, .ofNat 2), (75930389429, .ofNat 2), (84422546629, .ofNat 2), (86643833011, .ofNat 2), (109462238573, .negSucc 1), (118466925617, .negSucc 1), (123237738103, .ofNat 2), (123962776891, .negSucc 1), (126427414063, .negSucc 1), (136264368179, .negSucc 0), (136508825111, .negSucc 0), (142599324941, .negSucc 1), (146014517377, .ofNat 2), (146882050363, .negSucc 1), (148246200721, .ofNat 2), (161649379967, .ofNat 2), (189212041541, .ofNat 2), (192103955093, .ofNat 2), (209751020023, .ofNat 2), (214836651979, .negSucc 1), (263015287421, .ofNat 1), (264278314903, .negSucc 0), (268337741417, .ofNat 1), (269336749529, .negSucc 0), (815833029217, .ofNat 1), (887109913891, .ofNat 1), (976399066739, .negSucc 0), (1107731486341, .negSucc 0), (1642568063671, .negSucc 0), (1706157063157, .ofNat 1), (3508168938311, .negSucc 0), (4062658401569, .ofNat 1), (4266549126109, .negSucc 0), (11192053053689, .ofNat 2), (11605043941279, .ofNat 2), (12918327397277, .ofNat 2), (13863389701573, .negSucc 1), (14141436516199, .negSucc 1), (14241658790389, .ofNat 2), (14374953897203, .negSucc 1), (14422597611307, .negSucc 1), (16016879019103, .ofNat 2), (17640880083473, .negSucc 1)] 0)) .nil)) (.node (.node (.leaf (.adef 2953 [(375127067, .ofNat 1), (759473331407, .negSucc 0)] 0)) .nil) (.node (.leaf (.adef 41851 [(16941, .ofNat 4), (38715759, .negSucc 1), (64357929, .negSucc 1), (117018009, .negSucc 3), (154000827, .negSucc 1), (240462153, .negSucc 1), (244508391, .negSucc 1), (6339822507, .negSucc 1), (9206394579, .ofNat 2), (263141001621, .ofNat 4), (304635616011, .ofNat 4), (347835850317, .ofNat 4), (360831168099, .ofNat 2), (418933167291, .ofNat 2), (12575354309937, .ofNat 3), (18261343061289, .negSucc 2), (521953307872911, .negSucc 7)] 0)) .nil)))

def jac151 : JTree := .node (.node (.node (.node (.node (.leaf (.atom 2713)) (.leaf (.adef 5153 [(71033, .ofNat 1), (29828191, .negSucc 0)] 0))) (.node (.leaf (.adef 7001 [(1830097, .negSucc 0), (23989151, .ofNat 1), (30564019, .negSucc 0), (33358151, .negSucc 0), (14142031003, .ofNat 1)] 0)) .nil)) (.node (.node (.leaf (.adef 15053 [(325529, .ofNat 1), (99998867, .ofNat 1)] 0)) (.leaf (.trans [] 0))) (.node (.leaf (.adef 32257 [(121791, .ofNat 2), (688291803, .negSucc 0)] 0)) .nil))) (.node (.node (.node (.leaf (.atom 35423)) (.leaf (.adef 28279 [(128081, .ofNat 1), (165973, .ofNat 1), (9293681, .negSucc 0), (1118214869, .negSucc 0), (24462564439, .ofNat 1)] 0))) (.node (.leaf (.adef 2677 [(1382963, .ofNat 1), (39919764637, .ofNat 1), (41132659889, .ofNat 1), (41851090213, .ofNat 1), (43122665561, .ofNat 1)] 0)) .nil)) (.node (.node (.leaf (.adef 2411 [(17954303, .negSucc 0), (21528719, .negSucc 0), (51230969, .negSucc 0)] 0)) .nil) (.node (.leaf (.adef 42457 [(12862429, .negSucc 0), (13107851, .ofNat 1), (13659787, .ofNat 1), (14082961, .negSucc 0)] 0)) .nil)))) (.node (.node (.node (.node (.leaf (.atom 48221)) (.leaf (.adef 27737 [(114853183, .negSucc 0), (128670029, .ofNat 1), (867638339, .negSucc 0), (14811852113, .negSucc 0), (16282956913, .ofNat 1), (19095753167, .negSucc 0), (37243666277, .negSucc 0)] 0))) (.node (.leaf (.adef 13709 [(38153, .ofNat 1), (8615837, .negSucc 0), (10690919, .ofNat 1), (11677417, .ofNat 1), (12732991, .ofNat 1), (13778087, .ofNat 1), (15112987, .ofNat 1), (18754399, .negSucc 0), (26238571, .negSucc 0)] 0)) .nil)) (.node (.node (.leaf (.adef 15377 [(104234527, .ofNat 4), (107942827, .negSucc 3), (109437539, .ofNat 4), (443599733, .negSucc 3), (453028549, .negSucc 3), (614447749, .negSucc 3), (629959549, .ofNat 4), (947367121, .ofNat 4), (28946106383, .negSucc 3), (29868312511, .negSucc 3), (30237598939, .negSucc 3), (40428284111, .ofNat 2), (52063104461, .negSucc 1), (58937431439, .ofNat 2)] 1)) .nil) (.node (.leaf (.adef 9059 [(1877537, .ofNat 1), (365376997, .negSucc 0), (33707327893, .ofNat 1), (37055120693, .negSucc 0)] 0)) .nil))) (.node (.node (.node (.leaf (.atom 48787)) (.leaf (.adef 47237 [(48047267, .negSucc 0), (50239547, .ofNat 1), (50683019, .negSucc 0), (107248819, .negSucc 0), (107467691, .ofNat 1), (108717163, .negSucc 0)] 0))) (.node (.leaf (.adef 19427 [(39877, .ofNat 1), (45374551, .negSucc 0), (45564731, .ofNat 1), (53778451, .negSucc 0), (53791427, .ofNat 1), (75376703, .negSucc 0), (83558623, .ofNat 1), (104874293, .ofNat 1), (110627197, .ofNat 1)] 0)) .nil)) (.node (.node (.leaf (.adef 36523 [(55982711, .negSucc 3), (4329529619, .ofNat 2), (415726197923, .negSucc 3), (651733866851, .negSucc 1), (906269535851, .ofNat 2)] 1)) .nil) (.node (.leaf (.adef 20857 [(380268623, .ofNat 1), (525406441, .ofNat 1), (646267643, .negSucc 0), (70355312503, .negSucc 0), (84346735249, .ofNat 1), (129163404923, .negSucc 0), (322215101805401287, .negSucc 0), (453909853236046963, .negSucc 0), (587533383387953989, .ofNat 1), (56629126880271608803, .ofNat 1), (68500343809924472299, .negSucc 0)] 0)) .nil))))

def jac152 : JTree := .node (.node (.node (.node (.node (.leaf (.trans [(67591, .negSucc 0), (93623, .negSucc 0)] 0)) (.leaf (.adef 43961 [(28946887, .ofNat 1), (32402927, .ofNat 1), (32716903, .ofNat 1), (3106905811, .ofNat 1), (5936072683, .ofNat 1), (6641643517, .ofNat 1), (7040445947, .ofNat 1), (8318338489, .ofNat 1), (10737762977, .ofNat 1), (910660731689, .ofNat 1), (1434891347699, .ofNat 1), (1446385825523, .negSucc 0), (1639346110903, .negSucc 0), (1649015939027, .ofNat 1), (1692625068907, .negSucc 0), (1835901898081, .ofNat 1), (1968477888149, .ofNat 1), (2126959634377, .negSucc 0)] 0))) (.node (.leaf (.adef 37159 [(11742403, .negSucc 0), (13644919, .negSucc 0), (30532387, .ofNat 1), (30572897, .ofNat 1), (33860263, .ofNat 1), (37070563, .ofNat 1), (716943119, .ofNat 1), (984523217, .ofNat 1), (1205461057, .negSucc 0), (1252835981, .negSucc 0), (109447904201, .ofNat 1), (141827413933, .ofNat 1), (147829681309, .ofNat 1), (157194240779, .negSucc 0), (160295680903, .negSucc 0), (179798312297, .ofNat 1), (183345730429, .ofNat 1), (191564210897, .ofNat 1), (709588457899, .ofNat 2), (710861452591, .ofNat 2), (1030431266003, .negSucc 1), (1032279849527, .negSucc 1), (1076015390761, .ofNat 1), (8614160646877, .ofNat 1), (12557953266973, .ofNat 1), (19596492895123, .ofNat 1), (28568290291027, .ofNat 1), (29845546644587, .negSucc 1), (29899089260783, .negSucc 1), (41340261477211, .negSucc 1), (41414425498399, .negSucc 1), (43340310952339, .ofNat 2), (43418063042551, .ofNat 2), (60032399761667, .ofNat 2), (60140097294503, .ofNat 2), (147959849106001, .negSucc 0), (161365961967373, .ofNat 1)] 0)) .nil)) (.node (.node (.leaf (.adef 6427 [(544135621, .negSucc 3), (727819117, .negSucc 3), (793255429, .negSucc 3), (3425829133, .ofNat 2), (491564734993, .negSucc 1), (683546101993, .ofNat 2)] 1)) .nil) (.node (.leaf (.adef 40427 [(10146173, .ofNat 1), (282073177, .negSucc 0)] 0)) .nil))) (.node (.node (.node (.leaf (.atom 641)) (.leaf (.adef 22003 [(43151051, .ofNat 1), (51276221, .negSucc 0), (51351143, .ofNat 1), (2009013049, .ofNat 1), (2287564403, .negSucc 0)] 0))) (.node (.leaf (.adef 19013 [(8648281, .ofNat 1), (10236799, .negSucc 0), (1636771261, .negSucc 0), (2623679341, .ofNat 1), (3813455651, .ofNat 1)] 0)) .nil)) (.node (.node (.leaf (.adef 11047 [(294638197, .negSucc 0), (350558369, .ofNat 1), (353049053, .ofNat 1), (540005426639, .ofNat 1), (541161511961, .negSucc 0), (549454482857, .negSucc 0)] 0)) .nil) (.node (.leaf (.adef 42139 [(4139, .ofNat 1), (1508497, .ofNat 1), (1575059, .ofNat 1), (1849819, .negSucc 0)] 0)) .nil)))) (.node (.node (.node (.node (.leaf (.atom 6599)) (.leaf (.adef 34129 [(134097, .ofNat 2), (689477967, .negSucc 0)] 0))) (.node (.leaf (.adef 30803 [(1582253, .ofNat 1), (6534224743, .ofNat 1), (9050816279, .ofNat 1), (13842199957, .negSucc 0), (20100997229, .ofNat 1)] 0)) .nil)) (.node (.node (.leaf (.adef 15307 [(131003, .negSucc 0), (162271, .ofNat 1), (140543017, .negSucc 0)] 0)) (.leaf (.trans [(47441, .ofNat 1)] 0))) (.node (.leaf (.adef 20071 [(6781507, .negSucc 0), (9027899, .ofNat 1), (2737070927, .negSucc 0), (3093725177, .ofNat 1)] 0)) .nil))) (.node (.node (.node (.leaf (.atom 6791)) (.leaf (.adef 46601 [(22755193, .negSucc 0), (22805411, .negSucc 0), (22929433, .ofNat 1), (25224179, .ofNat 1), (25566721, .negSucc 0)] 0))) (.node (.leaf (.adef 31649 [(4241, .ofNat 1), (1412449, .ofNat 1), (1797251, .ofNat 1), (2573213, .negSucc 0), (2975587, .negSucc 0)] 0)) .nil)) (.node (.node (.leaf (.adef 29921 [(3014987, .negSucc 0), (29678611, .ofNat 1), (32206249, .negSucc 0), (44195413, .ofNat 1), (52773209, .negSucc 0), (102606461, .negSucc 0), (150125177, .negSucc 0), (13419378617, .negSucc 0)] 0)) .nil) (.node (.leaf (.adef 42829 [(5217983, .negSucc 0), (9236011, .ofNat 1), (14680933, .negSucc 0), (14686403, .negSucc 0), (18801521, .ofNat 1), (18809933, .ofNat 1), (939041827, .ofNat 1), (217080899843, .negSucc 0), (222764139313, .ofNat 1)] 0)) .nil))))

def jac153 : JTree := .node (.leaf (.adef 24809 [(353559337, .negSucc 0), (366605807, .negSucc 0), (833726351, .negSucc 0), (864491161, .negSucc 0), (997496329, .ofNat 1), (1015036733, .ofNat 1), (1085421137, .ofNat 1), (1088215771, .ofNat 1), (1225691171, .negSucc 0), (1232524729, .negSucc 0), (1264361611, .negSucc 0), (1273001711, .ofNat 1), (1361184899, .ofNat 1), (1363755739, .negSucc 0), (1397010889, .negSucc 0), (1462458919, .ofNat 1), (1744881031, .ofNat 1), (2848373813, .ofNat 1), (3014469599, .ofNat 1), (3147664657, .ofNat 1), (3168700903, .ofNat 1), (3316994533, .ofNat 1), (3544282069, .ofNat 1), (4200534211, .ofNat 1), (4408162537, .ofNat 1), (4523571557, .ofNat 1), (4799795519, .ofNat 1), (5307833239, .ofNat 1), (5520777859, .ofNat 1), (5592222821, .ofNat 1), (5705301149, .ofNat 1), (5820638051, .ofNat 1), (6197597489, .ofNat 1), (6626725363, .ofNat 1), (6882813523, .ofNat 1), (6891350117, .ofNat 1), (6957610441, .ofNat 1), (7117239989, .ofNat 1), (7434802567, .negSucc 0), (8236644547, .ofNat 1), (9897798133, .ofNat 1), (10866757337, .ofNat 1), (11941776647, .ofNat 1), (13060624723, .ofNat 1), (13211656847, .ofNat 1), (13449198979, .ofNat 1), (13507102811, .ofNat 1), (14495691181, .ofNat 1), (15540292871, .negSucc 0), (16751291399, .ofNat 1), (23696660089, .ofNat 1), (27307157863, .negSucc 0), (58873415189, .ofNat 1), (64720689589, .negSucc 0), (77919686107, .ofNat 1), (86066029033, .ofNat 1), (89241897263, .ofNat 1), (96609270473, .ofNat 1), (99151208207, .ofNat 1), (125263539601, .negSucc 0), (141027586211, .ofNat 1), (142202851159, .negSucc 0), (143183119577, .negSucc 0), (148828013041, .ofNat 1), (149579769587, .ofNat 1), (151018224491, .negSucc 0), (152276909791, .ofNat 1), (152411394841, .ofNat 1), (152859235891, .negSucc 0), (158499798101, .negSucc 0), (158640369949, .negSucc 0), (160440274531, .negSucc 0), (163184093617, .negSucc 0), (163894461391, .negSucc 0), (165114524177, .negSucc 0), (173279927617, .ofNat 1), (176375112131, .ofNat 1), (176835703393, .negSucc 0), (178446529711, .ofNat 1), (181452390607, .ofNat 1), (184984098379, .ofNat 1), (187462005013, .ofNat 1), (190696271177, .negSucc 0), (193341850771, .negSucc 0), (194713991203, .ofNat 1), (194908776367, .negSucc 0), (195332929091, .ofNat 1), (197327125403, .ofNat 1), (197501397053, .ofNat 1), (216965449009, .ofNat 1), (218061379763, .ofNat 1), (268843621153, .ofNat 1), (269552805971, .ofNat 1), (275050531981, .negSucc 0), (276329142961, .negSucc 0), (282754577291, .negSucc 0), (283653370027, .negSucc 0), (1274006451101, .ofNat 1), (1414847522537, .negSucc 0), (1646604493993, .negSucc 0), (1879305204253, .ofNat 1), (12807669559693, .ofNat 1), (13280277292523, .ofNat 1), (15864624070601, .negSucc 0), (16297497777593, .ofNat 1), (16450034552911, .negSucc 0), (20187409920901, .negSucc 0), (37889022920887, .ofNat 1), (39646749255101, .ofNat 1), (40435008879593, .ofNat 1), (46976971368893, .ofNat 1), (1964075541964973, .ofNat 1), (2299846135464679, .ofNat 1), (2417004037244603, .ofNat 1), (2499245989366873, .ofNat 1), (2852138904886981, .negSucc 0), (3148694459239451, .ofNat 1), (3339729301679663, .negSucc 0), (3509860542837091, .negSucc 0), (3629288470251281, .negSucc 0), (3905859436297547, .ofNat 1), (4572387250346947, .negSucc 0), (5150431114471639, .ofNat 1), (5671906918681459, .negSucc 0), (7479215867546783, .negSucc 0), (332732864120524471, .ofNat 1), (345010829586226481, .ofNat 1), (423395769875435771, .ofNat 1), (483179147856597887, .negSucc 0), (501008636707394857, .negSucc 0), (614835591414253987, .negSucc 0)] 0)) .nil

def jac154 : JTree := .node (.node (.node jac150 (.node (.node (.node (.node (.leaf (.atom 4903)) (.leaf (.adef 44497 [(148289, .negSucc 0), (4213537, .ofNat 1), (6897229, .ofNat 1), (11434187, .ofNat 1)] 0))) (.node (.leaf (.adef 30637 [(3770267, .negSucc 0), (66471413, .negSucc 0), (125716807, .negSucc 0), (183938299, .negSucc 0), (7912381181, .negSucc 0)] 0)) .nil)) (.node (.node (.leaf (.adef 919 [(78391, .ofNat 1), (29165131, .negSucc 0), (48089341, .negSucc 0)] 0)) .nil) (.node (.leaf (.adef 4289 [(140543017, .ofNat 1), (178838117, .ofNat 1)] 0)) .nil))) (.node (.node (.node (.leaf (.atom 12953)) (.leaf (.adef 34877 [(20988463, .negSucc 0), (21421469, .ofNat 1), (22173751, .ofNat 1), (22509271, .negSucc 0)] 0))) (.node (.leaf (.adef 39227 [(591187, .negSucc 1), (2432891, .negSucc 1), (3828829, .ofNat 2), (5165669, .ofNat 2), (7725673, .ofNat 2), (52300093, .ofNat 2), (145920553, .negSucc 1), (157849193, .negSucc 1), (346770937, .negSucc 1)] 0)) .nil)) (.node (.node (.leaf (.adef 36073 [(23274649939, .negSucc 0), (43075050497, .ofNat 1)] 0)) .nil) (.node (.leaf (.adef 42649 [(12316537, .ofNat 1), (15679357, .ofNat 1)] 0)) .nil))))) jac151) (.node jac152 (.node (.node (.node (.node (.node (.leaf (.atom 2477)) (.leaf (.adef 27337 [(6619013, .ofNat 1), (7032757, .ofNat 1), (312455063, .negSucc 0), (340765499, .ofNat 1)] 0))) (.node (.leaf (.adef 37339 [(6627499, .negSucc 0), (13872389, .ofNat 1)] 0)) .nil)) (.node (.node (.leaf (.adef 13217 [(87177, .ofNat 2), (236157633, .negSucc 0)] 0)) (.leaf (.trans [] 0))) (.node (.leaf (.adef 40939 [(12743959, .ofNat 1), (14726359, .ofNat 1), (26164459, .ofNat 1), (2306243333, .ofNat 1), (2355350149, .ofNat 1), (2658330841, .negSucc 0), (2899192693, .ofNat 1), (4281593023, .ofNat 1), (5206362323, .ofNat 1), (9390628523, .ofNat 1), (9740264977, .ofNat 1), (11272306333, .ofNat 1), (350103880769, .ofNat 1), (357011425333, .ofNat 1), (405160322069, .negSucc 0), (413154129433, .negSucc 0), (1145371385803, .negSucc 0), (1249149391519, .ofNat 1)] 0)) .nil))) (.node (.node (.node (.leaf (.atom 28669)) (.leaf (.adef 45853 [(12185207, .negSucc 0), (38172751, .negSucc 0), (857038573, .negSucc 0), (858758909, .ofNat 1), (1866649601, .ofNat 1), (1905993851, .ofNat 1), (2710661497, .negSucc 0), (2778608699, .ofNat 1), (22157505061, .ofNat 1)] 0))) (.node (.leaf (.adef 39019 [(30964173049, .negSucc 0), (40026834403, .ofNat 1), (46515413239, .negSucc 0), (52334150443, .negSucc 0), (79046513653, .negSucc 0), (974792412691, .ofNat 1), (1087389116993, .negSucc 0), (1650122346091, .ofNat 1), (1840725325193, .negSucc 0), (3176259480041, .ofNat 1), (3558363719083, .negSucc 0)] 0)) .nil)) (.node (.node (.leaf (.adef 15569 [(15069864049, .ofNat 1), (16566594449, .negSucc 0), (16756076527, .ofNat 1), (28965166753, .negSucc 0)] 0)) .nil) (.node (.leaf (.adef 20611 [(2142487, .negSucc 0), (3643313, .ofNat 1), (2813477426663, .negSucc 0), (2949593983487, .negSucc 0)] 0)) .nil)))) (.node (.node (.node (.node (.leaf (.atom 1597)) (.leaf (.adef 45121 [(117056265041, .negSucc 0), (117354279443, .ofNat 1), (149330922343, .ofNat 1)] 0))) jac153) (.node (.node (.leaf (.adef 29401 [(21549467, .negSucc 0), (3748200761, .negSucc 0), (108565555127, .negSucc 0)] 0)) .nil) (.node (.leaf (.adef 26261 [(5886203, .ofNat 1), (7690979, .negSucc 0), (8596681, .ofNat 1), (68555947, .negSucc 0), (71863619, .negSucc 0), (22987721297, .negSucc 0)] 0)) .nil))) (.node (.node (.node (.leaf (.atom 2557)) (.leaf (.atom 1627))) (.node (.leaf (.adef 31963 [(10869707, .ofNat 1), (872780737, .negSucc 0)] 0)) .nil)) (.node (.node (.leaf (.adef 18061 [(36781, .ofNat 1), (71686319, .negSucc 0), (72070013, .negSucc 0), (72242141, .ofNat 1), (76906601, .negSucc 0), (76940263, .ofNat 1), (78644719, .ofNat 1), (96340301, .negSucc 0), (97956673, .ofNat 1), (105007459, .ofNat 1), (105305539, .ofNat 1)] 0)) .nil) (.node (.leaf (.adef 33629 [(20504563, .ofNat 1), (22137421, .negSucc 0), (22919971, .negSucc 0), (23198843, .ofNat 1)] 0)) .nil))))))

def jac155 : JTree := .node (.node (.node (.node (.node (.leaf (.atom 47521)) (.leaf (.adef 43789 [(6217487, .negSucc 0), (443481011, .ofNat 1), (921147989, .negSucc 0), (45832581902147, .negSucc 0), (50384648093347, .ofNat 1)] 0))) (.node (.leaf (.adef 4253 [(7260385589, .ofNat 1), (9238692289, .ofNat 1), (10584383861, .ofNat 1), (12636938519, .ofNat 1), (13468412161, .ofNat 1)] 0)) .nil)) (.node (.node (.leaf (.adef 1549 [(100651, .ofNat 1), (173989, .negSucc 0)] 0)) .nil) (.node (.leaf (.adef 13967 [(25609, .ofNat 1), (13901779, .ofNat 1), (954199751, .negSucc 0), (955412537, .negSucc 0), (1563642581, .negSucc 0), (2705881807, .negSucc 0), (2905658269, .negSucc 0), (3016584019, .negSucc 0), (3251883931, .negSucc 0), (3722709343, .negSucc 0), (4658484161, .negSucc 0), (8441812877, .negSucc 0)] 0)) .nil))) (.node (.node (.node (.leaf (.atom 1459)) (.leaf (.adef 9463 [(2914943, .ofNat 1), (5794553, .ofNat 1), (5829347, .ofNat 1), (414988499, .negSucc 0), (1093839613, .negSucc 0)] 0))) (.node (.leaf (.adef 38729 [(9876169, .negSucc 0), (19423211, .negSucc 0), (21350519, .ofNat 1), (22402153, .ofNat 1), (23400329, .ofNat 1), (30146923, .ofNat 1)] 0)) .nil)) (.node (.node (.leaf (.adef 3181 [(293705279, .ofNat 1), (441881893033, .negSucc 0)] 0)) .nil) (.node (.leaf (.adef 26431 [(1493407, .negSucc 0), (286099087, .negSucc 0), (314514287, .ofNat 1)] 0)) .nil)))) (.node (.node (.node (.node (.leaf (.atom 881)) (.leaf (.adef 44617 [(498686879, .negSucc 0), (760136639, .negSucc 0)] 0))) (.node (.leaf (.adef 37619 [(8497529, .ofNat 1), (8500853, .negSucc 0), (13473157, .negSucc 0), (13488473, .negSucc 0), (17252311, .ofNat 1), (17260723, .ofNat 1), (28209427, .negSucc 0), (28216943, .negSucc 0), (34593359, .ofNat 1), (34625713, .ofNat 1), (1160489327, .ofNat 1), (1699088701, .ofNat 1), (1699483769, .negSucc 0), (266420988017, .negSucc 0), (276560289923, .ofNat 1)] 0)) .nil)) (.node (.node (.leaf (.adef 4099 [(198383, .negSucc 0), (20179727, .ofNat 1), (6683839091, .negSucc 0), (6752273309, .ofNat 1), (7007204459, .negSucc 0), (7080356341, .ofNat 1)] 0)) (.leaf (.trans [] 0))) (.node (.leaf (.adef 41299 [(41281, .ofNat 1), (11244577, .negSucc 0), (13291273, .ofNat 1), (18392867, .ofNat 1), (22801651, .negSucc 0), (23009641, .ofNat 1), (24976253, .ofNat 1), (26726471, .negSucc 0), (30401737, .negSucc 0)] 0)) .nil))) (.node (.node (.node (.leaf (.atom 7529)) (.leaf (.adef 46349 [(48055841, .negSucc 0), (49888957, .negSucc 0), (50441267, .ofNat 1), (66095521, .ofNat 1), (67063433, .negSucc 0)] 0))) (.node (.leaf (.adef 19267 [(12043111, .ofNat 1), (14559917, .ofNat 1), (25459127, .ofNat 1), (63505423, .ofNat 1), (76048573, .ofNat 1), (95400779, .ofNat 1), (110199743, .ofNat 1), (110323277, .ofNat 1), (149712701, .ofNat 1), (162348679, .ofNat 1), (164748607, .ofNat 1), (273769753, .ofNat 1)] 0)) .nil)) (.node (.node (.leaf (.adef 6229 [(23801, .ofNat 1), (3516613, .negSucc 0), (226924979, .ofNat 1), (442288043, .ofNat 1), (121222612421, .negSucc 0), (123680186027, .negSucc 0), (1033692668923, .negSucc 0)] 0)) .nil) (.node (.leaf (.adef 20771 [(42727, .ofNat 1), (10745419, .negSucc 0), (11738171, .ofNat 1), (13865129, .ofNat 1), (14430707, .ofNat 1), (18345113, .ofNat 1), (26645323, .negSucc 0), (69187039, .negSucc 0)] 0)) .nil))))

def jac156 : JTree := .node (.node (.node (.node (.node (.leaf (.atom 1021)) (.leaf (.adef 7919 [(69133, .ofNat 1), (96133, .negSucc 0), (8014738007, .negSucc 0)] 0))) (.node (.leaf (.adef 18433 [(309563, .ofNat 1), (341101, .ofNat 1), (986371, .ofNat 1), (1578677, .ofNat 1), (2434391, .ofNat 1), (6943709431, .ofNat 1), (10083331007, .negSucc 0)] 0)) .nil)) (.node (.node (.leaf (.adef 15107 [(104234527, .ofNat 4), (107942827, .negSucc 3), (109437539, .ofNat 4), (424265551, .ofNat 4), (435430031, .negSucc 3), (979708927, .ofNat 4), (1001146177, .negSucc 3), (28946106383, .negSucc 3), (29868312511, .negSucc 3), (30237598939, .negSucc 3), (40217523683, .ofNat 2), (120742737443, .negSucc 3), (123076028107, .negSucc 3), (11128387120919, .ofNat 2)] 1)) (.leaf (.trans [] 0))) (.node (.leaf (.adef 19843 [(291101951, .negSucc 0), (371497091, .negSucc 0), (375645739, .ofNat 1), (496026937, .negSucc 0), (611481773, .ofNat 1), (106372746697, .ofNat 1), (127463179123, .negSucc 0), (547735177031, .negSucc 0), (768328419523, .negSucc 0), (996664320281, .ofNat 1), (153605427240097, .ofNat 1), (185805876881401, .negSucc 0), (2725025268729659, .negSucc 0), (3296274869174147, .ofNat 1)] 0)) .nil))) (.node (.node (.node (.leaf (.adef 4651 [(429859, .ofNat 1), (649067, .negSucc 0)] 0)) (.leaf (.adef 34631 [(57007187, .negSucc 3), (5418525479, .negSucc 1), (285417582091, .ofNat 4), (748977865577, .negSucc 1), (1041492328577, .ofNat 2)] 1))) (.node (.leaf (.adef 38917 [(13986827, .ofNat 1), (15914903, .negSucc 0), (25312783, .negSucc 0)] 0)) .nil)) (.node (.node (.leaf (.adef 13441 [(6986803, .negSucc 0), (10963559, .negSucc 0), (14364349, .negSucc 0), (17099359, .negSucc 0), (19470551, .ofNat 1), (19848949, .ofNat 1), (21767489, .negSucc 0), (25902839, .negSucc 0), (43863119, .negSucc 0)] 0)) .nil) (.node (.leaf (.adef 14251 [(42499, .ofNat 1), (8867407, .negSucc 0), (10861813, .ofNat 1), (11836241, .ofNat 1), (14955799, .ofNat 1), (17727851, .negSucc 0), (19888933, .negSucc 0), (23529893, .ofNat 1), (25575773, .negSucc 0), (30335323, .ofNat 1), (44315357, .negSucc 0)] 0)) .nil)))) (.node (.node (.node (.node (.leaf (.atom 1777)) (.leaf (.adef 34327 [(424108351, .ofNat 1), (628876981, .ofNat 1)] 0))) (.node (.leaf (.adef 31019 [(20991541, .negSucc 0), (21134471, .ofNat 1), (21612209, .ofNat 1), (21675443, .negSucc 0)] 0)) .nil)) (.node (.node (.leaf (.adef 6581 [(1287229, .ofNat 1), (1374643, .ofNat 1)] 0)) .nil) (.node (.leaf (.adef 4523 [(2986147, .negSucc 0), (4778771, .ofNat 1), (413353649, .ofNat 1), (2318820299, .ofNat 1), (182456158933, .negSucc 0), (233505593701, .negSucc 0), (648428395211, .negSucc 0)] 0)) .nil))) (.node (.node (.node (.leaf (.atom 8237)) (.leaf (.adef 47507 [(26494169, .negSucc 0), (28017041, .negSucc 0), (28035943, .ofNat 1), (9673049503, .negSucc 0), (10077517463, .negSucc 0), (1506258708461, .ofNat 1), (1569241264981, .ofNat 1), (1655859474061, .negSucc 0), (1725097422581, .negSucc 0)] 0))) (.node (.leaf (.adef 25423 [(22660250527, .ofNat 1), (511861929599, .negSucc 0), (998316993269, .negSucc 0), (3346672275361, .ofNat 1), (79678386472889, .negSucc 0), (155401842982259, .negSucc 0)] 0)) .nil)) (.node (.node (.leaf (.adef 18047 [(292369651, .ofNat 1), (361416587, .ofNat 1), (377512261, .ofNat 1), (451636507, .ofNat 1), (506079413, .negSucc 0), (555099769, .negSucc 0), (92384050087, .negSucc 0), (95634764351, .negSucc 0), (111750605071, .ofNat 1), (114550062739, .ofNat 1), (541036979833, .negSucc 0), (760589655581, .negSucc 0), (984324836971, .ofNat 1), (150189554100719, .ofNat 1), (181673931055127, .negSucc 0)] 0)) .nil) (.node (.leaf (.adef 14347 [(8845843, .negSucc 0), (11874901, .ofNat 1), (18459151, .ofNat 1), (26781949, .negSucc 0)] 0)) .nil))))

def jac157 : JTree := .node (.node (.node (.node .nil (.leaf (.adef 21157 [(44027, .ofNat 1), (91544927, .ofNat 1), (91627363, .negSucc 0), (93528863, .ofNat 1), (120682189, .ofNat 1)] 0))) (.node (.leaf (.adef 11813 [(425947, .negSucc 0), (496781, .negSucc 0), (990221, .negSucc 0), (1274327, .ofNat 1), (30745241, .negSucc 0), (33798841, .ofNat 1)] 0)) .nil)) (.node (.node (.leaf (.adef 29009 [(21241607, .negSucc 3), (83945383, .negSucc 3), (127261619, .ofNat 4), (141113803, .negSucc 3), (9403608629, .negSucc 1), (115837393159, .ofNat 2)] 1)) (.leaf (.trans [] 0))) (.node (.leaf (.adef 25801 [(3572384537, .ofNat 4), (3630065707, .negSucc 3), (3795877879, .negSucc 3), (3869863661, .negSucc 3), (464050197953, .negSucc 3), (485246831141, .negSucc 3), (708391001581, .ofNat 2), (817962365083, .negSucc 1), (72406599712423, .ofNat 4), (77408059550153, .negSucc 3), (78436032331219, .negSucc 3), (83853973058909, .ofNat 4), (119735709085463, .ofNat 2), (122053086692249, .ofNat 2), (128006410133593, .negSucc 1), (130483859765239, .negSucc 1)] 1)) .nil))) (.node (.node (.node (.leaf (.atom 48533)) (.leaf (.adef 45491 [(14328779, .ofNat 1), (15075547, .ofNat 1), (16266499, .ofNat 1), (24404489, .ofNat 1), (26185403, .ofNat 1), (29929751, .ofNat 1), (32532571, .ofNat 1), (33581161, .ofNat 1), (37856837, .ofNat 1), (41552177, .ofNat 1), (69078467, .ofNat 1), (71707777, .ofNat 1), (798601499, .ofNat 1), (828070189, .ofNat 1), (1746240803, .negSucc 0), (1810677733, .negSucc 0), (2367296381, .ofNat 1), (2454914069, .ofNat 1), (2622753989, .ofNat 1), (2726211659, .negSucc 0), (2856387967, .negSucc 0), (2914523749, .ofNat 1), (2926040917, .negSucc 0), (3075017563, .ofNat 1), (3162230437, .negSucc 0), (3281195131, .negSucc 0), (4351182569, .ofNat 1), (4856889053, .ofNat 1), (5172572393, .negSucc 0), (5213906653, .ofNat 1), (5302385419, .negSucc 0), (7228468771, .negSucc 0), (7714108271, .negSucc 0), (8098054073, .ofNat 1), (9027392839, .negSucc 0), (9593642879, .ofNat 1), (9703148317, .ofNat 1), (10287213823, .ofNat 1), (10439444123, .ofNat 1), (10767963733, .ofNat 1), (10916306749, .ofNat 1), (11104955093, .ofNat 1), (11874687521, .ofNat 1), (12788628239, .negSucc 0), (12891510407, .ofNat 1), (13130304199, .ofNat 1), (14911689479, .ofNat 1), (16657917623, .ofNat 1), (18396148159, .ofNat 1), (20714131003, .ofNat 1), (22832714383, .ofNat 1), (24325011551, .ofNat 1), (25631808413, .ofNat 1), (33844158053, .ofNat 1), (51041694661, .ofNat 1), (60040384273, .ofNat 1), (341112135457, .ofNat 1), (358328642423, .ofNat 1), (364932656057, .ofNat 1), (370196311757, .ofNat 1), (376874447207, .ofNat 1), (379824394597, .ofNat 1), (399427318211, .ofNat 1), (414165681337, .negSucc 0), (427882646083, .negSucc 0), (441303413461, .ofNat 1), (444319186303, .ofNat 1), (461297972957, .ofNat 1), (1174810909763, .negSucc 0), (1255960550893, .ofNat 1), (2299190619499, .ofNat 1), (3015270573677, .ofNat 1), (3651762513193, .negSucc 0), (4273455025937, .negSucc 0), (4789099239839, .negSucc 0), (5337435606091, .negSucc 0), (5604417084151, .negSucc 0), (5979529485233, .ofNat 1), (30628824829807, .ofNat 1)] 0))) (.node (.leaf (.adef 31247 [(4219037, .ofNat 1), (8835839, .ofNat 1)] 0)) .nil)) (.node (.node (.leaf (.adef 35831 [(66524023, .ofNat 1), (76124501, .ofNat 1), (100835941, .negSucc 0), (102566521, .negSucc 0)] 0)) .nil) (.node (.leaf (.adef 33037 [(1446877, .negSucc 0), (2147531, .ofNat 1), (2890193, .ofNat 1)] 0)) .nil)))

def jac158 : JTree := .node (.node (.node (.node (.node (.leaf (.atom 22279)) (.leaf (.adef 44351 [(36060149, .ofNat 1), (61368751, .ofNat 1), (64574729, .negSucc 0)] 0))) (.node (.leaf (.adef 37423 [(3577883, .negSucc 0), (4552783, .negSucc 0), (6074099, .ofNat 1)] 0)) .nil)) (.node (.node (.leaf (.adef 15187 [(384918923, .negSucc 3), (92064281689, .ofNat 4), (214705870937, .ofNat 2), (49121295066533, .ofNat 2), (71610334790117, .ofNat 2)] 1)) (.leaf (.trans [(46727, .negSucc 0)] 0))) (.node (.leaf (.adef 41143 [(2128117, .negSucc 0), (2880961, .negSucc 0), (4049741, .negSucc 0)] 0)) .nil))) (.node (.node (.node (.leaf (.atom 22619)) (.leaf (.adef 46049 [(38049589, .ofNat 1), (38053031, .ofNat 1), (72098857, .ofNat 1), (4863817019, .ofNat 1), (4865356567, .ofNat 1), (4939991099, .ofNat 1), (7725111833, .negSucc 0), (7727557069, .negSucc 0), (9040269697, .negSucc 0), (9043131221, .negSucc 0), (10481191009, .ofNat 1), (11150470313, .ofNat 1), (13184069179, .ofNat 1), (60245538323, .ofNat 1), (1447953746401, .ofNat 1), (2299758518107, .negSucc 0), (2691279775763, .negSucc 0)] 0))) (.node (.leaf (.adef 25243 [(5831263, .ofNat 1), (255593131, .ofNat 1), (1339395923, .ofNat 1)] 0)) .nil)) (.node (.node (.leaf (.adef 10169 [(5974541, .ofNat 1), (6172783, .ofNat 1), (6209059, .ofNat 1), (8244641, .ofNat 1), (587218001, .ofNat 1), (4395315265949, .negSucc 0)] 0)) .nil) (.node (.leaf (.adef 12487 [(4045187, .ofNat 1), (9244427, .ofNat 1), (9299803, .ofNat 1), (12347747, .ofNat 1), (2085761813, .ofNat 1), (2806494347, .ofNat 1)] 0)) .nil)))) (.node (.node (.node (.node (.leaf (.atom 7487)) (.leaf (.adef 27947 [(3880986727, .negSucc 0), (3946440409, .negSucc 0), (4126703773, .negSucc 0), (4204163731, .ofNat 1), (277434320159, .ofNat 1), (290106814523, .ofNat 1), (43989768574133, .negSucc 0), (47652878657849, .ofNat 1), (47975524208609, .ofNat 1), (51970535598677, .negSucc 0)] 0))) (.node (.leaf (.adef 24821 [(3939756127, .ofNat 1), (4244871209, .negSucc 0), (4582141483, .negSucc 0), (490856902163, .ofNat 2), (2997298768151, .negSucc 1)] 0)) .nil)) (.node (.node (.leaf (.adef 12211 [(14917909, .ofNat 1), (57239773, .ofNat 1)] 0)) .nil) (.node (.leaf (.adef 41681 [(9063163, .ofNat 1), (9071473, .negSucc 0), (14433689, .negSucc 0), (14436971, .negSucc 0), (18476257, .ofNat 1), (18486071, .ofNat 1), (27627739, .negSucc 0), (28938479, .negSucc 0), (35550113, .ofNat 1), (35568601, .ofNat 1), (35698787, .ofNat 1), (948151031, .negSucc 0), (948448747, .negSucc 0), (967802551, .negSucc 0), (968411567, .negSucc 0), (1047433091, .ofNat 1), (1727533597, .negSucc 0), (37418569319, .negSucc 0)] 0)) .nil))) (.node (.node (.node (.leaf (.atom 2903)) (.leaf (.atom 349))) (.node (.leaf (.adef 40111 [(11099359807, .ofNat 1)] 0)) .nil)) (.node (.node (.leaf (.adef 36943 [(2747377, .negSucc 0), (2777279, .ofNat 1), (6612719, .negSucc 0), (101283719, .ofNat 1), (138987803, .negSucc 0), (326817173, .negSucc 0), (448478801, .ofNat 1)] 0)) .nil) (.node (.leaf (.adef 9277 [(8845843, .negSucc 0), (11736911, .ofNat 1), (11874901, .ofNat 1), (17686561, .negSucc 0)] 0)) .nil))))

def jac159 : JTree := .node (.node (.node (.node (.node (.leaf (.atom 2063)) (.leaf (.adef 9319 [(8346131, .negSucc 0), (23728193, .ofNat 1), (26000503, .negSucc 0)] 0))) (.node (.leaf (.adef 24097 [(22699, .negSucc 0), (151719209, .ofNat 1)] 0)) .nil)) (.node (.node (.leaf (.adef 22691 [(9053203, .ofNat 1), (201710490703, .ofNat 1), (211469281447, .ofNat 1)] 0)) .nil) (.node (.leaf (.adef 16063 [(10574461, .ofNat 1), (774757339879, .ofNat 1)] 0)) .nil))) (.node (.node (.node (.leaf (.atom 3299)) (.leaf (.adef 7079 [(67591, .negSucc 0), (3162851, .ofNat 1)] 0))) (.node (.leaf (.adef 18919 [(18917, .negSucc 0), (5956781, .negSucc 0), (6486331, .ofNat 1), (8778229, .ofNat 1), (11106349, .negSucc 0), (14138239, .negSucc 0), (15802079, .ofNat 1), (22524757, .ofNat 1), (31033903, .negSucc 0)] 0)) .nil)) (.node (.node (.leaf (.adef 1103 [(4769641, .negSucc 0), (5721553, .negSucc 0), (12813481, .negSucc 0)] 0)) .nil) (.node (.leaf (.adef 41953 [(37054651, .ofNat 2), (37796489, .negSucc 3), (262899624409, .negSucc 3), (602459945141, .ofNat 1), (1179411466063, .ofNat 2), (1614232549057, .ofNat 2), (125182853231809, .ofNat 1), (182494904048641, .ofNat 1)] 1)) .nil)))) (.node (.node (.node (.node (.leaf (.atom 47881)) (.leaf (.adef 33967 [(3971059, .ofNat 1), (35631341, .negSucc 0), (39741973, .ofNat 1), (54536401, .negSucc 0)] 0))) (.node (.leaf (.adef 30661 [(37573, .ofNat 1), (37579, .negSucc 0), (1314953821, .ofNat 1)] 0)) .nil)) (.node (.node (.leaf (.adef 22907 [(3035347639, .negSucc 1), (9661853189, .ofNat 1), (20273747653, .negSucc 0)] 0)) .nil) (.node (.leaf (.adef 19991 [(43617721813, .negSucc 0), (44478298841, .negSucc 0), (45722179901, .negSucc 0), (46624277857, .negSucc 0), (144224341123, .negSucc 0), (144513843059, .ofNat 1), (176358062689, .negSucc 0), (176712066737, .ofNat 1)] 0)) .nil))) (.node (.node (.node (.leaf (.atom 14813)) (.leaf (.adef 46271 [(802964539, .negSucc 0), (803853713, .ofNat 1), (859271309, .negSucc 0), (860221687, .ofNat 1), (898287143, .ofNat 1), (898647919, .negSucc 0), (1172252497, .negSucc 0), (1185932813, .ofNat 1), (1189333483, .negSucc 0), (1194967891, .ofNat 1), (1211152813, .ofNat 1), (7055738321593, .ofNat 1), (7649633172259, .ofNat 1), (7961517595499, .negSucc 0), (10800854664977, .negSucc 0)] 0))) (.node (.leaf (.adef 31543 [(38664767, .ofNat 4), (56700863, .ofNat 4), (4662159727, .ofNat 1), (15476438057, .ofNat 2), (19668729383, .negSucc 1), (623066419081, .ofNat 2), (682503997289, .negSucc 1), (949056988289, .ofNat 2), (99036829930799, .ofNat 2)] 1)) .nil)) (.node (.node (.leaf (.adef 23789 [(23773, .ofNat 1), (18435071, .ofNat 1), (1452088721, .ofNat 1), (1592565259, .ofNat 1), (2747285897, .negSucc 0), (3131776981, .ofNat 1), (4496379541, .ofNat 1), (4628605309, .ofNat 1), (4903867123, .negSucc 0), (4951472749, .ofNat 1), (7540574761, .ofNat 1), (8394946363, .negSucc 0)] 0)) .nil) (.node (.leaf (.adef 4547 [(2992673, .negSucc 0), (4796453, .ofNat 1), (370989439, .ofNat 1), (2335547587, .ofNat 1), (183772344029, .negSucc 0), (235190034413, .negSucc 0), (653105967043, .negSucc 0)] 0)) .nil))))

def jac160 : JTree := .node (.node (.node (.node (.node .nil (.leaf (.adef 16519 [(36090757, .negSucc 0), (36504613, .ofNat 1), (36774323, .ofNat 1), (36935929, .negSucc 0)] 0))) (.node (.leaf (.adef 24169 [(37189, .ofNat 1), (10457383, .negSucc 0), (12446279, .ofNat 1), (12726097, .ofNat 1), (17166091, .negSucc 0), (18046529, .ofNat 1), (18736381, .ofNat 1), (19588067, .negSucc 0), (26194919, .negSucc 0), (68328937, .negSucc 0), (1588925669791, .ofNat 1)] 0)) .nil)) (.node (.node (.leaf (.adef 13171 [(86847, .ofNat 2), (233481879, .negSucc 0)] 0)) (.leaf (.trans [(15287, .ofNat 1)] 0))) (.node (.leaf (.adef 40459 [(1353589973, .ofNat 4), (1825909601, .ofNat 2)] 1)) .nil))) (.node (.node (.node (.leaf (.atom 12757)) (.leaf (.adef 14653 [(45427, .ofNat 1), (13272131, .negSucc 0), (1594868467, .negSucc 0), (1619591329, .ofNat 1), (1693935259, .negSucc 0), (1759313207, .ofNat 1), (7812625703, .negSucc 0), (7884021617, .negSucc 0), (11286328481, .negSucc 0), (13095678329, .negSucc 0), (408529794359, .negSucc 0), (426972469831, .negSucc 0), (465172794973, .ofNat 1), (486172562957, .ofNat 1), (553379956781, .ofNat 1), (630106554607, .negSucc 0), (672577416109, .negSucc 0), (765830842223, .ofNat 1)] 0))) (.node (.leaf (.adef 7349 [(25975721, .negSucc 0), (34499519, .ofNat 1), (75109381, .negSucc 0)] 0)) .nil)) (.node (.node (.leaf (.adef 23447 [(23471603, .ofNat 1), (37124509, .negSucc 0), (37425173, .ofNat 1), (139478497, .negSucc 0), (139573783, .ofNat 1), (236882161, .ofNat 1), (267068777, .ofNat 1), (267709283, .negSucc 0), (288940423, .ofNat 1), (384621773, .negSucc 0), (388753283, .ofNat 1), (509587361, .ofNat 1)] 0)) .nil) (.node (.leaf (.adef 42223 [(2858047, .ofNat 1), (3241247, .negSucc 0), (129538889, .ofNat 1), (37760908553, .negSucc 0)] 0)) .nil)))) (.node (.node (.node (.node (.leaf (.atom 9533)) (.leaf (.adef 44777 [(2947297, .ofNat 1), (491862863, .ofNat 1), (714260311, .negSucc 0)] 0))) (.node (.leaf (.adef 37871 [(37813, .ofNat 4), (1175214881, .negSucc 3), (2187424403, .negSucc 3), (2246797691, .negSucc 3), (2299396667, .negSucc 3), (10376997871, .ofNat 4), (10459728581, .negSucc 3), (22158046319, .ofNat 4), (47082197741, .ofNat 2), (81810821779, .ofNat 4), (84803967439, .ofNat 4), (85105844861, .negSucc 3), (86074156529, .ofNat 4), (125109456299, .negSucc 0), (140093910821, .ofNat 4), (143442832639, .negSucc 3), (182340787571, .negSucc 3), (189011940911, .negSucc 3), (192297815989, .negSucc 3), (196339069573, .negSucc 3), (301480395533, .ofNat 4), (308475663113, .negSucc 3), (316700282363, .negSucc 3), (333204203113, .negSucc 3), (341606706871, .negSucc 3), (349718835649, .negSucc 3), (443988161119, .negSucc 3), (453703174369, .ofNat 4), (10191534574153, .negSucc 3), (10235934785927, .ofNat 4), (10317540869197, .negSucc 3), (10332659366321, .ofNat 4), (10600093554227, .negSucc 3), (10746875767339, .ofNat 4), (11309713484021, .ofNat 2), (13692344307791, .negSucc 3), (14128574440447, .negSucc 3), (14303257586203, .negSucc 3), (17574627972767, .ofNat 2), (17637188529133, .negSucc 1), (21856833732103, .ofNat 4), (22634423450803, .negSucc 3), (22947848115371, .ofNat 4), (31043663582843, .negSucc 0), (41663301373751, .ofNat 4), (41995462423261, .negSucc 3), (42759664474231, .negSucc 3), (43100566288541, .ofNat 4), (57114801965411, .negSucc 3), (58218515836939, .negSucc 3), (3797179437426737, .ofNat 2), (3949401043194283, .ofNat 2), (5264048505656663, .ofNat 2)] 1)) .nil)) (.node (.node (.leaf (.adef 29251 [(1923799, .ofNat 1), (40266089, .ofNat 1)] 0)) .nil) (.node (.leaf (.adef 7411 [(26005037, .ofNat 1), (34460627, .negSucc 0), (49757233, .negSucc 0)] 0)) .nil))) (.node (.node (.node (.leaf (.atom 4481)) (.leaf (.adef 46703 [(47175577, .negSucc 0), (50048333, .negSucc 0), (50127773, .ofNat 1), (65183659, .ofNat 1), (65887813, .negSucc 0)] 0))) (.node (.leaf (.adef 39631 [(4093, .ofNat 2), (1548737, .ofNat 1), (1573423, .ofNat 1), (1825921, .negSucc 0), (8820820963, .ofNat 1)] 0)) .nil)) (.node (.node (.leaf (.adef 23909 [(8065427, .negSucc 0), (1092837553, .ofNat 1), (35946213271, .ofNat 1)] 0)) .nil) (.node (.leaf (.adef 26921 [(7574513, .negSucc 0), (9078959, .ofNat 1)] 0)) .nil))))

def jac161 : JTree := .node (.node jac159 (.node (.node (.node (.node (.node (.leaf (.atom 929)) (.leaf (.adef 21191 [(3164267, .ofNat 1), (21650393, .negSucc 0), (32847959, .negSucc 0), (1184288291, .negSucc 0), (6517372663, .ofNat 1)] 0))) (.node (.leaf (.adef 30539 [(4204231, .ofNat 1), (8816113, .ofNat 1)] 0)) .nil)) (.node (.node (.leaf (.adef 17299 [(42755429, .ofNat 2), (43100023, .negSucc 3), (58366673, .ofNat 4), (61991077, .ofNat 4)] 1)) (.leaf (.trans [] 0))) (.node (.leaf (.adef 16087 [(7095223, .ofNat 1), (65473283, .ofNat 1), (78609079, .ofNat 1), (98613677, .ofNat 1)] 0)) .nil))) (.node (.node (.node (.leaf (.atom 16979)) (.leaf (.adef 28387 [(7633271, .ofNat 4), (2383003277, .ofNat 2)] 1))) (.node (.leaf (.adef 11831 [(4190755853, .ofNat 1), (10775269507, .ofNat 1)] 0)) .nil)) (.node (.node (.leaf (.adef 10141 [(39222013, .ofNat 1), (48909613, .ofNat 1), (60362647, .ofNat 1), (90518399, .negSucc 0), (124214963, .ofNat 1)] 0)) .nil) (.node (.leaf (.adef 33091 [(37652009, .ofNat 1), (985201309, .negSucc 0), (1075341901, .ofNat 1), (19469911486343, .negSucc 0), (132167765447909, .negSucc 0), (144260401249301, .ofNat 1), (3336895188755941, .ofNat 1), (4640124762134941, .negSucc 0)] 0)) .nil)))) (.node (.node (.node (.node (.leaf (.atom 727)) (.leaf (.adef 27767 [(295990207, .ofNat 1), (365662651, .ofNat 1)] 0))) (.node (.leaf (.adef 24793 [(3325873, .negSucc 0), (3463003, .ofNat 1), (5304713, .ofNat 1), (6378809, .negSucc 0), (7659191, .ofNat 1), (10345259, .negSucc 0), (11718331, .ofNat 1), (12753539, .ofNat 1), (967842467, .negSucc 0)] 0)) .nil)) (.node (.node (.leaf (.adef 17539 [(38776807, .negSucc 0), (44225953, .negSucc 0), (59890403, .ofNat 1), (62503447, .ofNat 1)] 0)) .nil) (.node (.leaf (.adef 11353 [(41467, .ofNat 1), (10889251, .ofNat 1), (2708236381, .negSucc 0), (2742058541, .negSucc 0), (4090272577, .negSucc 0), (4090381259, .negSucc 0), (7924552717, .negSucc 0), (8055652337, .negSucc 0), (8385510599, .negSucc 0), (8419316833, .negSucc 0), (10911900683, .ofNat 1), (11747245849, .negSucc 0), (12203374769, .negSucc 0), (13262312587, .negSucc 0)] 0)) .nil))) (.node (.node (.node (.leaf (.atom 6091)) (.leaf (.adef 47363 [(765350651, .ofNat 1), (766702781, .ofNat 1)] 0))) (.node (.leaf (.adef 39937 [(12465667, .negSucc 0), (12509227, .ofNat 1), (13290611, .ofNat 1), (13434901, .negSucc 0)] 0)) .nil)) (.node (.node (.leaf (.adef 36587 [(10575527, .negSucc 0), (27218537, .negSucc 0), (37045681, .ofNat 1), (1578832921, .ofNat 1), (1579625077, .ofNat 1), (1614311771, .ofNat 1), (1614446809, .ofNat 1), (2292707537, .negSucc 0), (2293857869, .negSucc 0), (2353386779, .ofNat 1), (2353583641, .ofNat 1), (231592980257, .ofNat 1)] 0)) .nil) (.node (.leaf (.adef 43201 [(2152099, .ofNat 1), (2914427, .ofNat 1), (4354451, .ofNat 1), (5234077, .negSucc 0)] 0)) .nil)))))) (.node jac160 (.node (.node (.node (.node (.node (.leaf (.atom 1787)) (.leaf (.adef 14537 [(35281, .ofNat 1), (4851601, .ofNat 1), (15360649, .ofNat 1), (15449881, .ofNat 1), (1238152661, .ofNat 1), (4656944051, .ofNat 1)] 0))) (.node (.leaf (.adef 37369 [(32503351, .ofNat 1), (54660707, .ofNat 1), (57489587, .negSucc 0)] 0)) .nil)) (.node (.node (.leaf (.adef 29137 [(52742511, .negSucc 1), (58693917, .negSucc 1), (62124561, .negSucc 0), (2169121167, .negSucc 0), (3149896599, .ofNat 1), (90031655601, .ofNat 2)] 0)) (.leaf (.trans [(46153, .ofNat 1)] 0))) (.node (.leaf (.adef 32381 [(2527439, .negSucc 0), (3018077, .ofNat 1)] 0)) .nil))) (.node (.node (.node (.leaf (.atom 22567)) (.leaf (.adef 45971 [(45959, .ofNat 1), (11180711, .negSucc 0), (31818607, .ofNat 1), (34822787, .negSucc 0), (41454251, .negSucc 0)] 0))) (.node (.leaf (.adef 39097 [(6338351, .ofNat 1), (8675363, .ofNat 1), (13775101, .negSucc 0), (17644871, .ofNat 1), (35282549, .ofNat 1), (73568153, .negSucc 0), (222039253, .ofNat 1), (255905297, .ofNat 1), (854009633, .ofNat 1), (855723889, .negSucc 0), (924406339, .negSucc 0), (946091561, .ofNat 1), (1016461961, .ofNat 1), (1222271723, .ofNat 1)] 0)) .nil)) (.node (.node (.leaf (.adef 23677 [(26961631, .negSucc 0), (106011809, .ofNat 1), (44720942449, .ofNat 1), (76641615361, .negSucc 0)] 0)) .nil) (.node (.leaf (.adef 6337 [(348797, .ofNat 1), (561851, .ofNat 1)] 0)) .nil)))) (.node (.node (.node (.node (.leaf (.atom 5897)) (.leaf (.adef 45181 [(7928612849, .ofNat 1), (8312200601, .ofNat 1)] 0))) (.node (.leaf (.adef 38611 [(12199373, .negSucc 0), (12391151, .ofNat 1), (13010989, .ofNat 1), (13263053, .negSucc 0)] 0)) .nil)) (.node (.node (.leaf (.adef 29443 [(69876493, .ofNat 1), (72524383, .ofNat 1), (3539931061, .ofNat 1)] 0)) .nil) (.node (.leaf (.adef 41647 [(9055961, .ofNat 1), (14384459, .negSucc 0), (14391023, .negSucc 0), (18413167, .ofNat 1), (18431393, .ofNat 1), (27559927, .negSucc 0), (28761853, .negSucc 0), (28773127, .negSucc 0), (35332879, .ofNat 1), (35355989, .ofNat 1), (36024871, .ofNat 1), (954254209, .negSucc 0), (954403067, .negSucc 0), (974349473, .negSucc 0), (975110743, .negSucc 0), (1046273357, .ofNat 1), (1726150859, .ofNat 1)] 0)) .nil))) (.node (.node (.node (.leaf (.atom 1429)) (.leaf (.atom 389))) (.node (.leaf (.adef 32003 [(1476757, .negSucc 0), (79193981621, .negSucc 0), (87059483221, .ofNat 1)] 0)) .nil)) (.node (.node (.leaf (.adef 36877 [(3418057, .ofNat 1), (4081223, .negSucc 0)] 0)) .nil) (.node (.leaf (.adef 43613 [(34512239, .ofNat 1), (50589683, .ofNat 1), (6403718821, .ofNat 1), (7003621283, .negSucc 0), (7562619359, .negSucc 0), (9652998247, .ofNat 1), (22810025633, .ofNat 1), (43853539619, .ofNat 1)] 0)) .nil))))))

def jac162 : JTree := .node (.node (.node (.node (.leaf (.atom 4177)) (.leaf (.adef 11437 [(11159801, .ofNat 1), (4045166407, .negSucc 0), (4227781463, .negSucc 0), (5479438813, .ofNat 1), (6659704157, .negSucc 0), (8211985349, .negSucc 0), (8689662703, .negSucc 0), (12173331953, .negSucc 0), (12646005193, .negSucc 0), (1251701869841, .negSucc 0), (1275915457477, .negSucc 0), (1348482359747, .negSucc 0), (1414798441139, .negSucc 0), (2031441796177, .ofNat 2), (415026172528921, .negSucc 0), (539392186255397, .negSucc 0)] 0))) (.node (.leaf (.adef 18191 [(37123, .ofNat 1), (9572861, .negSucc 0), (10471723, .negSucc 0), (14145007, .ofNat 1), (15351013, .ofNat 1), (16839281, .negSucc 0), (18051689, .negSucc 0), (35481991, .negSucc 0), (68629129, .negSucc 0)] 0)) .nil)) (.node (.node (.leaf (.adef 6421 [(22348789, .ofNat 1), (22619341, .negSucc 0), (32580661, .ofNat 1)] 0)) .nil) (.node (.leaf (.adef 25657 [(9829123, .ofNat 1), (9907591, .ofNat 1), (15851401, .ofNat 1), (19151827, .negSucc 0), (20930347, .ofNat 1), (21028753, .ofNat 1), (21478517, .ofNat 1), (23522381, .ofNat 1), (27860867, .ofNat 1), (29276969, .ofNat 1), (30452777, .ofNat 1), (38160043, .ofNat 1), (40839991, .ofNat 1), (41667443, .ofNat 1), (51735121, .ofNat 1), (596404063, .ofNat 1), (618411593, .ofNat 1), (854929391, .negSucc 0), (886476601, .negSucc 0), (1763920843, .ofNat 1), (1809775127, .ofNat 1), (1829010173, .ofNat 1), (1848586319, .ofNat 1), (1928547923, .ofNat 1), (1999565641, .negSucc 0), (2059185703, .negSucc 0), (2392194869, .ofNat 1), (3169234703, .ofNat 1), (3288502817, .ofNat 1), (3328657327, .ofNat 1), (3592617461, .negSucc 0), (3702351187, .negSucc 0), (5936376697, .ofNat 1), (6829752283, .ofNat 1), (6983120899, .ofNat 1), (7300596827, .ofNat 1), (7862590679, .ofNat 1), (7976375153, .ofNat 1), (8137164593, .ofNat 1), (8950156769, .negSucc 0), (9068841413, .ofNat 1), (9468192229, .ofNat 1), (10134032747, .ofNat 1), (10679065741, .ofNat 1), (10766285869, .ofNat 1), (11475145637, .ofNat 1), (12414784237, .ofNat 1), (12882029473, .ofNat 1), (12910929839, .ofNat 1), (14039638999, .ofNat 1), (15728780077, .ofNat 1), (20141986031, .ofNat 1), (21113544523, .ofNat 1), (21426924241, .negSucc 0), (21475469969, .ofNat 1), (22711253623, .ofNat 1), (22758006461, .ofNat 1), (24181458773, .ofNat 1), (30776492287, .ofNat 1), (36262409191, .ofNat 1), (38154360863, .ofNat 1), (262556173057, .ofNat 1), (271744206379, .ofNat 1), (274736532011, .ofNat 1), (280198864223, .ofNat 1), (282203557001, .ofNat 1), (290441822653, .ofNat 1), (316995688277, .ofNat 1), (317940896711, .negSucc 0), (324262221323, .negSucc 0), (325532116523, .ofNat 1), (328840193519, .ofNat 1), (352138109207, .ofNat 1), (360106335167, .ofNat 1), (365691796333, .ofNat 1), (392656712689, .negSucc 0), (407328282883, .negSucc 0), (512287461703, .negSucc 0), (512925759859, .negSucc 0), (999146935693, .negSucc 0), (1000391849329, .negSucc 0)] 0)) .nil))) (.node (.node (.node (.leaf (.atom 11657)) (.leaf (.adef 28087 [(6804991, .ofNat 1), (7235329, .ofNat 1), (317166517, .negSucc 0), (345903841, .ofNat 1)] 0))) (.node (.leaf (.adef 4751 [(320731, .negSucc 1), (451447, .ofNat 1), (1083581, .ofNat 1), (2049133, .ofNat 1)] 0)) .nil)) (.node (.node (.leaf (.adef 3251 [(292985903, .negSucc 0), (294159131, .negSucc 0), (448102212047, .ofNat 1)] 0)) .nil) (.node (.leaf (.adef 42061 [(347549, .ofNat 1), (2829457, .negSucc 0), (3219313, .negSucc 0), (132706099, .ofNat 1), (38632984963, .ofNat 1)] 0)) .nil)))

def jac163 : JTree := .node (.node jac162 (.node (.node (.node (.node (.leaf (.atom 47933)) (.leaf (.adef 44641 [(7790309, .negSucc 0), (9340603, .ofNat 1)] 0))) (.node (.leaf (.adef 37691 [(4726627, .ofNat 1), (6315319, .ofNat 1), (30515830481, .negSucc 0)] 0)) .nil)) (.node (.node (.leaf (.adef 22963 [(135998003, .ofNat 1), (2446818430349, .negSucc 0), (5885848915021, .ofNat 1)] 0)) (.leaf (.trans [] 0))) (.node (.leaf (.adef 11351 [(2105689, .ofNat 1), (4124789, .ofNat 1), (551418089, .ofNat 1), (4995008862967, .negSucc 0)] 0)) .nil))) (.node (.node (.node (.leaf (.atom 7573)) (.leaf (.adef 35099 [(20470643, .negSucc 0), (20786387, .ofNat 1), (21184739, .ofNat 1), (21538093, .negSucc 0)] 0))) (.node (.leaf (.adef 25357 [(1542701, .negSucc 0), (17829283, .ofNat 1), (18691867, .ofNat 1), (283795409, .negSucc 0), (311981809, .ofNat 1), (9024535073, .negSucc 0)] 0)) .nil)) (.node (.node (.leaf (.adef 23833 [(700993261, .ofNat 1), (726860171, .ofNat 1), (771866807, .ofNat 1), (800348977, .ofNat 1), (1284612899, .ofNat 1), (1332015589, .ofNat 1), (2312468203, .ofNat 1), (2403358999, .ofNat 1), (2959441591, .ofNat 1), (3503037971, .ofNat 1), (3996095471, .ofNat 1), (5698040651, .ofNat 1), (5983117913, .negSucc 0), (7476232927, .ofNat 1), (7668000707, .negSucc 0), (7965624179, .ofNat 1), (9069872753, .ofNat 1), (9485663353, .ofNat 1), (14825681777, .ofNat 1), (16776590953, .ofNat 1), (29214543353, .negSucc 0), (30292570783, .negSucc 0), (33574431461, .ofNat 1), (34813340371, .ofNat 1), (46072917857, .negSucc 0), (47773025527, .negSucc 0), (55516625587, .ofNat 1), (57565209557, .ofNat 1), (68516806153, .ofNat 1), (71045101583, .ofNat 1), (110485937677, .ofNat 1), (114464212231, .ofNat 1), (136358135863, .ofNat 1), (141267992389, .ofNat 1), (255533761181, .ofNat 1), (260929198183, .ofNat 1), (313520884543, .negSucc 0), (314049887521, .negSucc 0), (314150215919, .ofNat 1), (315371422439, .ofNat 1), (325260147301, .negSucc 0), (325913042933, .ofNat 1), (337987185677, .ofNat 1), (350708681881, .ofNat 1), (354294315829, .ofNat 1), (358063234171, .negSucc 0), (367629595937, .ofNat 1), (1598292784247, .ofNat 1), (12734596476881, .negSucc 0), (14495134757501, .ofNat 1), (14867070199627, .negSucc 0), (15370112628229, .negSucc 0), (16035293310469, .negSucc 0), (17703352805623, .negSucc 0), (18252147826849, .ofNat 1), (18302363738521, .negSucc 0), (19891123213337, .negSucc 0), (24293639061451, .ofNat 1), (25046729637613, .negSucc 0), (25115639027077, .ofNat 1), (71059838312917, .ofNat 1), (87699731665423, .ofNat 1), (92441728469581, .ofNat 1), (126854275024297, .negSucc 0)] 0)) .nil) (.node (.leaf (.adef 26801 [(8766053, .ofNat 1), (23153547961, .negSucc 0)] 0)) .nil))))) (.node (.node (.node (.node (.node (.leaf (.atom 28493)) (.leaf (.adef 9403 [(12007, .ofNat 1), (2986213, .ofNat 1), (5762629, .ofNat 1), (5800031, .ofNat 1), (424572529, .ofNat 1), (1090684003, .negSucc 0)] 0))) (.node (.leaf (.adef 2671 [(1378711, .ofNat 1), (3468211, .ofNat 1), (208837271, .negSucc 0), (229578871, .ofNat 1)] 0)) .nil)) (.node (.node (.leaf (.adef 3511 [(18681679, .negSucc 0), (26303089, .negSucc 0), (27128663, .ofNat 1), (38940383, .negSucc 0), (5419405003, .ofNat 1)] 0)) (.leaf (.trans [(1471, .negSucc 0)] 0))) (.node (.leaf (.adef 40867 [(3462647, .ofNat 1), (4146713, .negSucc 0)] 0)) .nil))) (.node (.node (.node (.leaf (.adef 6659 [(472403, .negSucc 0), (532927, .ofNat 1)] 0)) (.leaf (.adef 34693 [(104037, .ofNat 2), (148808493, .negSucc 1), (168891003, .negSucc 0), (420491763, .negSucc 0), (273202944741, .ofNat 2)] 0))) (.node (.leaf (.adef 38933 [(3597701, .negSucc 0), (4509847, .ofNat 1)] 0)) .nil)) (.node (.node (.leaf (.adef 8317 [(35993, .ofNat 1), (7650677, .negSucc 0), (9663443, .ofNat 1), (11723671, .negSucc 0), (14639659, .negSucc 0), (17333269, .ofNat 1), (19762811, .ofNat 1), (20288677, .ofNat 1), (22056091, .negSucc 0), (26185561, .ofNat 1), (44265329, .ofNat 1)] 0)) .nil) (.node (.leaf (.adef 33181 [(7689541, .ofNat 1), (2022637909, .negSucc 0)] 0)) .nil)))) (.node (.node (.node (.node (.leaf (.atom 48409)) (.leaf (.adef 45007 [(36500231, .ofNat 1), (62295697, .ofNat 1), (65545813, .negSucc 0)] 0))) (.node (.leaf (.adef 31063 [(1205689, .negSucc 0), (3050449, .negSucc 0), (3767711, .ofNat 1), (322522457, .negSucc 0), (398046683, .negSucc 0), (25422213469, .negSucc 0), (26975421047, .negSucc 0)] 0)) .nil)) (.node (.node (.leaf (.adef 1723 [(8647775167, .ofNat 1), (529239357587, .ofNat 1), (768536713339, .negSucc 0)] 0)) .nil) (.node (.leaf (.adef 20233 [(41579, .ofNat 1), (10659889, .negSucc 0), (11492749, .ofNat 1), (13608701, .ofNat 1), (14344997, .ofNat 1), (15759059, .negSucc 0), (17296781, .ofNat 1), (18149497, .negSucc 0), (26448739, .negSucc 0), (37862509, .ofNat 1), (69001069, .negSucc 0)] 0)) .nil))) (.node (.node (.node (.leaf (.atom 2521)) (.leaf (.atom 49139))) (.node (.leaf (.adef 25439 [(22668751043, .negSucc 0), (512181078677, .negSucc 0), (998939450087, .negSucc 0), (63574379106661, .negSucc 0), (69888550592261, .ofNat 1), (72975655355521, .negSucc 0), (80223556297121, .ofNat 1)] 0)) .nil)) (.node (.node (.leaf (.adef 30211 [(2496731, .ofNat 1), (2969353, .ofNat 1)] 0)) .nil) (.node (.leaf (.adef 43427 [(2165803, .negSucc 0), (2907503, .negSucc 0), (4368961, .ofNat 1), (5240513, .negSucc 0)] 0)) .nil)))))

def jac164 : JTree := .node (.node (.node (.node (.node (.leaf (.atom 47791)) (.leaf (.adef 11471 [(1015793, .negSucc 0), (1028513, .ofNat 1), (4127917, .negSucc 0), (349748057, .ofNat 1), (366285191, .ofNat 1), (368031583, .negSucc 0), (371939699, .negSucc 0), (1793049553, .ofNat 1), (1930087613, .ofNat 1), (2257800263, .ofNat 1), (2276170931, .negSucc 0), (2314931309, .negSucc 0), (2661805423, .negSucc 0), (2946419491, .ofNat 1)] 0))) (.node (.leaf (.adef 24473 [(26738779, .negSucc 0), (29247371, .negSucc 0), (115133449, .ofNat 1)] 0)) .nil)) (.node (.node (.leaf (.adef 15217 [(452887, .ofNat 4), (1058792299, .ofNat 2)] 1)) (.leaf (.trans [(47309, .negSucc 0)] 0))) (.node (.leaf (.adef 14029 [(41201, .ofNat 1), (8622109, .ofNat 1), (10664807, .ofNat 1), (11623967, .negSucc 0), (14664017, .ofNat 1), (17510131, .ofNat 1), (19746841, .negSucc 0), (21838981, .negSucc 0), (23951567, .ofNat 1), (28405271, .ofNat 1), (44085271, .ofNat 1)] 0)) .nil))) (.node (.node (.node (.leaf (.atom 4657)) (.leaf (.adef 46073 [(22299833, .negSucc 0), (22362421, .negSucc 0), (22544813, .ofNat 1), (24024821, .ofNat 1), (24572323, .negSucc 0)] 0))) (.node (.leaf (.adef 39163 [(6341747, .negSucc 1), (35370737, .ofNat 4), (522710911, .ofNat 4), (925426253, .negSucc 1), (1577616611, .negSucc 3), (471161585227, .negSucc 0), (1292973821201, .ofNat 1), (1681294345277, .ofNat 2), (60073242931543, .negSucc 1)] 1)) .nil)) (.node (.node (.leaf (.adef 23719 [(5523671, .ofNat 1), (5888821, .negSucc 0), (421693297, .negSucc 0), (521378953, .negSucc 0)] 0)) .nil) (.node (.leaf (.adef 9209 [(784027, .ofNat 1), (1185137, .ofNat 1)] 0)) .nil)))) (.node (.node (.node (.node (.leaf (.atom 11597)) (.leaf (.adef 21787 [(45293, .ofNat 1), (85456009, .ofNat 1), (85764193, .ofNat 1), (85874879, .negSucc 0), (110889551, .negSucc 0)] 0))) (.node (.leaf (.adef 8681 [(8128709, .negSucc 0), (8705023, .ofNat 1), (10151789, .ofNat 1), (11691523, .negSucc 0), (12041969, .ofNat 1), (14190679, .negSucc 0), (15416407, .ofNat 1), (17447333, .negSucc 0)] 0)) .nil)) (.node (.node (.leaf (.adef 15541 [(8147263, .ofNat 1), (9730309, .negSucc 0), (23060593, .ofNat 1)] 0)) .nil) (.node (.leaf (.adef 16249 [(56759537, .ofNat 4), (4953982147, .ofNat 1), (6922228811, .negSucc 1), (15532741123, .negSucc 1), (19784027941, .negSucc 1), (475201818587, .negSucc 3), (709682115313, .negSucc 1), (986849562313, .ofNat 2)] 1)) .nil))) (.node (.node (.node (.leaf (.atom 7219)) .nil) (.node (.leaf (.adef 19687 [(118182271, .ofNat 1), (118814197, .negSucc 0), (49716318497, .negSucc 0), (49868682169, .ofNat 1)] 0)) .nil)) (.node (.node (.leaf (.adef 37019 [(17930839, .negSucc 0), (20765191, .ofNat 1), (22111337, .negSucc 0), (22465763, .negSucc 0), (26017399, .ofNat 1), (29854039, .ofNat 1), (68458259, .ofNat 1)] 0)) .nil) (.node (.leaf (.adef 27017 [(27747257, .ofNat 2), (27781321, .ofNat 2), (3002198933, .ofNat 1), (4544543741, .negSucc 0), (4902157357, .negSucc 0), (8029434911, .ofNat 1), (991082046023, .negSucc 1), (1136445772039, .ofNat 1), (1253458347901, .ofNat 1), (1270634549747, .negSucc 0)] 0)) .nil))))

def jac165 : JTree := .node (.node jac154 (.node (.node jac155 jac156) (.node (.node jac157 (.node (.node (.node (.node (.leaf (.atom 35311)) (.leaf (.adef 44879 [(12012943, .negSucc 0), (12013649, .ofNat 1), (27736271, .ofNat 1), (27913801, .negSucc 0), (38256689, .negSucc 0), (1823081021, .ofNat 1), (1824005203, .ofNat 1), (1862376577, .ofNat 1), (1864267109, .ofNat 1), (2647393237, .negSucc 0), (2648735291, .negSucc 0), (2715022273, .ofNat 1), (2717778341, .ofNat 1)] 0))) (.node (.leaf (.adef 24749 [(297237619, .ofNat 1), (357393043, .ofNat 1), (359081891, .negSucc 0), (360835979, .negSucc 0), (365791643, .ofNat 1), (367289951, .ofNat 1), (383406541, .ofNat 1), (468465193, .ofNat 1), (510726923, .negSucc 0), (576415693, .negSucc 0), (547119683327, .negSucc 0), (555860878489, .ofNat 1), (562919454223, .negSucc 0), (770620639523, .negSucc 0), (997167490697, .ofNat 1)] 0)) .nil)) (.node (.node (.leaf (.adef 13399 [(87981, .ofNat 2), (235406709, .negSucc 0)] 0)) .nil) (.node (.leaf (.adef 32579 [(4247303, .ofNat 1), (8900653, .ofNat 1)] 0)) .nil))) (.node (.node (.node (.leaf (.atom 13043)) (.leaf (.adef 46829 [(856393187, .negSucc 0), (857123033, .ofNat 1), (915005611, .negSucc 0), (915265273, .ofNat 1), (960168131, .ofNat 1), (960440429, .negSucc 0), (1187165941, .negSucc 0), (1200809233, .ofNat 1), (1204306597, .negSucc 0), (1209381589, .ofNat 1), (1287646763, .ofNat 1), (1288255033, .negSucc 0), (7144250068267, .ofNat 1), (7734702121913, .ofNat 1), (8086506454949, .negSucc 0), (10915280880439, .negSucc 0)] 0))) (.node (.leaf (.adef 39733 [(3580877, .negSucc 0), (4117147, .ofNat 1), (153875207, .negSucc 0), (163284733, .ofNat 1)] 0)) .nil)) (.node (.node (.leaf (.adef 30013 [(5373799, .negSucc 0), (6559601, .ofNat 2)] 0)) .nil) (.node (.leaf (.adef 33457 [(128811, .ofNat 2), (685046997, .negSucc 0)] 0)) .nil))))) jac158))) (.node jac161 (.node jac163 (.node (.node (.node (.node (.node (.node (.leaf (.trans [(384887, .ofNat 1), (611309, .negSucc 0), (715381, .negSucc 0)] 0)) (.leaf (.adef 16553 [(36350299, .ofNat 1), (36747589, .negSucc 0), (36861089, .negSucc 0), (36997153, .ofNat 1)] 0))) (.node (.leaf (.adef 24197 [(5655553, .negSucc 0), (7138427, .ofNat 1), (1384507043, .negSucc 0), (72531390433, .negSucc 0), (79735167233, .ofNat 1)] 0)) .nil)) (.node (.node (.leaf (.adef 7589 [(34838149, .ofNat 1), (37231847, .ofNat 1)] 0)) (.leaf (.trans [(433, .negSucc 0)] 0))) (.node (.leaf (.adef 32189 [(52385643, .ofNat 1), (135688173, .ofNat 2), (141544971, .ofNat 2), (156699027, .ofNat 1), (273406800033, .negSucc 1)] 0)) .nil))) (.node (.node (.node (.leaf (.atom 48539)) (.leaf (.adef 34513 [(35913881, .negSucc 0), (37619473, .ofNat 1), (55041661, .ofNat 1), (9132322553, .negSucc 0)] 0))) (.node (.leaf (.adef 19163 [(299093, .ofNat 1), (308381, .ofNat 1), (343877, .ofNat 1), (1343393, .ofNat 1), (1491397, .ofNat 1), (2438467, .ofNat 1)] 0)) .nil)) (.node (.node (.leaf (.adef 35839 [(10616693, .ofNat 1), (38026831, .ofNat 1)] 0)) .nil) (.node (.leaf (.adef 42391 [(42379, .ofNat 1), (11734627, .ofNat 1), (13861777, .ofNat 1), (18113869, .negSucc 0), (22594777, .negSucc 0), (22860911, .negSucc 0), (25039771, .ofNat 1), (26409991, .negSucc 0), (30361987, .ofNat 1), (68978807, .negSucc 0), (1671206722169, .ofNat 1)] 0)) .nil)))) (.node (.node (.node (.node (.leaf (.atom 1399)) (.leaf (.adef 44959 [(35559929, .ofNat 1), (52129867, .ofNat 1), (6430684213, .ofNat 1), (7121139923, .negSucc 0), (7683021371, .negSucc 0), (9883855907, .ofNat 1), (23371151767, .ofNat 1), (44602176271, .ofNat 1)] 0))) (.node (.leaf (.adef 38047 [(2037587, .ofNat 1), (2796421, .ofNat 1), (3771259, .ofNat 1), (4968533, .negSucc 0), (7229179, .negSucc 0), (329329081, .negSucc 0), (451925797, .ofNat 1), (849799459, .ofNat 2), (24750986257, .negSucc 0), (26275435259, .negSucc 0)] 0)) .nil)) (.node (.node (.leaf (.adef 947 [(461371, .negSucc 0), (1105543, .negSucc 0)] 0)) .nil) (.node (.leaf (.adef 20177 [(301187, .ofNat 1), (328609, .ofNat 1), (889949, .ofNat 1), (1209919, .ofNat 1), (2456809, .ofNat 1), (85306657, .ofNat 1)] 0)) .nil))) (.node (.node (.node (.leaf (.atom 48661)) (.leaf (.adef 47057 [(22822559, .negSucc 0), (22938031, .ofNat 1), (23011049, .negSucc 0), (31399177, .negSucc 0), (31545461, .ofNat 1), (31978217, .negSucc 0)] 0))) (.node (.leaf (.adef 39827 [(2925239, .ofNat 1), (3207541, .negSucc 0), (3781409, .ofNat 1), (7527959, .negSucc 0), (92240171, .ofNat 1), (324981109, .negSucc 0), (401081071, .negSucc 0)] 0)) .nil)) (.node (.node (.leaf (.adef 36457 [(3998023, .ofNat 1), (23331585073, .negSucc 0)] 0)) .nil) (.node (.leaf (.adef 43013 [(3262073, .ofNat 2), (4103917, .ofNat 2), (501868727, .ofNat 2), (731637623, .ofNat 2), (23608621637, .negSucc 1)] 0)) .nil))))) jac164)))

def jac166 : JTree := .node (.node (.node (.node (.node (.leaf (.atom 587)) (.leaf (.adef 9311 [(11717413, .negSucc 0), (13784527, .ofNat 1), (14390953, .negSucc 0), (15626239, .ofNat 1)] 0))) (.node (.leaf (.adef 7669 [(10053087391, .negSucc 0), (12529391143, .ofNat 1)] 0)) .nil)) (.node (.node (.leaf (.adef 28813 [(1238519, .ofNat 1), (50390279, .negSucc 0)] 0)) .nil) (.node (.leaf (.adef 32057 [(5611483, .ofNat 1), (7379321, .ofNat 1)] 0)) .nil))) (.node (.node (.node (.leaf (.atom 4441)) (.leaf (.adef 28001 [(26561861, .negSucc 0), (101904727, .ofNat 1), (44057848619, .ofNat 1), (73672385783, .negSucc 0)] 0))) (.node (.leaf (.adef 38699 [(18877349, .ofNat 1), (26374771, .negSucc 0), (4018436861, .negSucc 1)] 0)) .nil)) (.node (.node (.leaf (.adef 3067 [(291397687, .ofNat 1), (352628717, .ofNat 1), (373852829, .ofNat 1), (507206819, .negSucc 0), (16391625551, .ofNat 1), (58777642007, .negSucc 0), (68848614443, .negSucc 0), (70567418243, .ofNat 1), (108743157761, .ofNat 1), (118064726647, .negSucc 0), (541233828709, .negSucc 0), (757962178757, .negSucc 0), (994157379341, .ofNat 1), (94612050408841, .ofNat 1), (113833328736757, .negSucc 0)] 0)) .nil) (.node (.leaf (.adef 41893 [(495559591, .negSucc 3), (506324981, .negSucc 3), (1072645237, .ofNat 4), (1097386307, .negSucc 3), (1261050547, .negSucc 3), (1292560333, .negSucc 3), (2449979393, .ofNat 4), (2503588649, .negSucc 3), (36994537847, .negSucc 3), (37127803891, .ofNat 4), (38310674147, .ofNat 4), (40875370181, .negSucc 1), (48810738343, .negSucc 3), (49414225507, .negSucc 3), (49486633151, .ofNat 4), (86775521587, .ofNat 4), (88599161059, .ofNat 4), (113205665033, .ofNat 1), (117407356189, .negSucc 3), (120297331813, .ofNat 4), (140401579793, .negSucc 3), (143757856387, .ofNat 4), (153694566581, .negSucc 3), (157440798013, .ofNat 4), (169522892831, .negSucc 3), (173695689527, .ofNat 4), (200591656697, .negSucc 3), (204855279241, .negSucc 3), (304300156871, .negSucc 3), (311165766409, .negSucc 3), (340618711603, .negSucc 3), (347609329579, .ofNat 4), (460635201109, .negSucc 3), (472201392997, .negSucc 3), (10133130364559, .negSucc 3), (10258414560491, .negSucc 3), (10273446418663, .ofNat 4), (10294931528209, .ofNat 4), (10661189194309, .negSucc 3), (10808817414413, .ofNat 4), (10811489590457, .ofNat 2), (13673159865751, .negSucc 3), (13715708684959, .ofNat 2), (13722414918803, .ofNat 4), (14159603083651, .ofNat 4), (19165744839251, .negSucc 1), (20607023705789, .ofNat 4), (20681256732817, .negSucc 3), (21340149553889, .negSucc 3), (31324565746469, .ofNat 1), (41642914578961, .negSucc 3), (42528044460833, .negSucc 3), (43813014829211, .negSucc 3), (44744270699083, .negSucc 3), (56805423223573, .negSucc 3), (58190028201629, .ofNat 4), (3978816907567963, .negSucc 1), (3992980336791137, .ofNat 2), (5069318024653247, .ofNat 2)] 1)) .nil)))) (.node (.node (.node (.node (.leaf (.atom 1933)) (.leaf (.adef 44537 [(5724161, .negSucc 0), (11177783, .negSucc 0)] 0))) (.node (.leaf (.adef 37567 [(8488111, .ofNat 1), (13419551, .negSucc 0), (17193427, .ofNat 1), (28092929, .ofNat 1), (34542517, .negSucc 0), (163029791, .ofNat 1), (264766541807, .negSucc 0), (2223982070587, .negSucc 0), (8542571125427, .negSucc 0), (8559718653091, .ofNat 1)] 0)) .nil)) (.node (.node (.leaf (.adef 6547 [(1196417, .ofNat 1), (1354121, .ofNat 1)] 0)) .nil) (.node (.leaf (.adef 25951 [(287417612519, .ofNat 1)] 0)) .nil))) (.node (.node (.node (.leaf (.atom 5711)) (.leaf (.adef 34913 [(20019383, .ofNat 1), (21174269, .negSucc 0), (22484729, .ofNat 1), (22762393, .negSucc 0)] 0))) (.node (.leaf (.adef 31513 [(117717, .ofNat 8), (502924113, .negSucc 3), (687127509, .negSucc 3), (739688949, .negSucc 3), (1362393384777, .ofNat 6)] 1)) .nil)) (.node (.node (.leaf (.adef 36097 [(93558242753, .negSucc 0), (100622293381, .ofNat 1)] 0)) .nil) (.node (.leaf (.adef 14321 [(42689, .ofNat 1), (12963751, .negSucc 0), (2427407053, .ofNat 1), (2538832063, .negSucc 0), (4114244983, .ofNat 1), (4538459243, .negSucc 0), (8189038787, .ofNat 1), (8558724883, .ofNat 1), (8803672627, .negSucc 0), (8884125253, .negSucc 0), (11092581233, .negSucc 0), (12718021429, .negSucc 0), (13481911537, .ofNat 1), (14756890861, .negSucc 0)] 0)) .nil))))

def jac167 : JTree := .node (.node (.node (.node (.leaf (.atom 48281)) (.leaf (.adef 27749 [(28239599, .negSucc 0), (32279123, .ofNat 1), (982280029, .negSucc 0), (3703561787, .ofNat 1)] 0))) (.node (.leaf (.adef 38189 [(11922269, .ofNat 1), (13802629, .ofNat 1), (24473861, .ofNat 1), (30548591, .ofNat 1), (30678223, .ofNat 1), (30694427, .ofNat 1), (34132129, .ofNat 1), (34170967, .ofNat 1), (37235053, .ofNat 1), (37246019, .ofNat 1), (2269126631, .ofNat 1), (2306352179, .ofNat 1), (2318101913, .ofNat 1), (2634345257, .negSucc 0), (2873033861, .ofNat 1), (3124389623, .ofNat 1), (4245016819, .ofNat 1), (5177047789, .ofNat 1), (9337754389, .ofNat 1), (9657057181, .ofNat 1), (10545946343, .ofNat 1), (314409893177, .ofNat 1), (317445151769, .negSucc 0), (349174195757, .ofNat 1), (356063397649, .ofNat 1), (403100050531, .negSucc 0), (411053208767, .negSucc 0), (424668838093, .ofNat 1), (428768517421, .negSucc 0), (709800623681, .ofNat 2), (714256105103, .ofNat 2), (714680436667, .ofNat 2), (1030739363257, .negSucc 1), (1037209405591, .negSucc 1), (1037825600099, .negSucc 1), (1134295185763, .negSucc 0), (1237069616599, .ofNat 1), (29854470413953, .negSucc 1), (30041869570639, .negSucc 1), (30059717109371, .negSucc 1), (41352622147409, .negSucc 1), (41612196221567, .negSucc 1), (41636917561963, .negSucc 1), (43353269634041, .ofNat 2), (43625401949783, .ofNat 2), (43651319313187, .ofNat 2), (60050349350473, .ofNat 2), (60427290715399, .ofNat 2), (60463189893011, .ofNat 2)] 0)) .nil)) (.node (.node (.leaf (.adef 6577 [(1197661, .ofNat 1), (1366699, .ofNat 1)] 0)) .nil) (.node (.leaf (.adef 12473 [(40548569, .ofNat 1), (47756083, .negSucc 0), (49272199, .negSucc 0), (16929698719, .ofNat 1)] 0)) .nil))) (.node (.node (.node (.leaf (.atom 6073)) (.leaf (.adef 47309 [(872035489, .ofNat 1), (930971197, .ofNat 1), (978106961, .negSucc 0), (1312171211, .negSucc 0)] 0))) (.node (.leaf (.adef 31859 [(8627419, .ofNat 1), (8654843, .ofNat 1), (13563521, .negSucc 1), (13598443, .negSucc 1), (25671031, .ofNat 1), (25847993, .ofNat 1), (30776593, .ofNat 1), (30932051, .ofNat 1), (34443767, .ofNat 1), (37331953, .ofNat 1), (279295039, .ofNat 1), (289601129, .ofNat 1), (1035345343, .ofNat 1), (1107108809, .ofNat 1), (1116517019, .ofNat 1), (1273280221, .ofNat 1), (1532741051, .ofNat 1), (1562000023, .ofNat 1), (1721822099, .negSucc 0), (1722530923, .ofNat 1), (1811886269, .ofNat 1), (1892832499, .ofNat 1), (1893611723, .negSucc 0), (2100901171, .ofNat 1), (2213741269, .ofNat 1), (2492680873, .ofNat 1), (3265409633, .ofNat 1), (3458404771, .ofNat 1), (3556312861, .ofNat 1), (3840746191, .ofNat 1), (4690683791, .ofNat 1), (5015908433, .ofNat 2), (5073912037, .ofNat 2), (5085870211, .ofNat 1), (5908370609, .ofNat 1), (6151980929, .ofNat 1), (6364585033, .ofNat 1), (6576190703, .ofNat 1), (6613349671, .ofNat 1), (7775312191, .ofNat 1), (8617785611, .negSucc 0), (9056111641, .ofNat 1), (10531926557, .negSucc 1), (13132422409, .ofNat 1), (15313919371, .ofNat 1), (79736566583, .ofNat 1), (87024576629, .ofNat 1), (96209781203, .ofNat 1), (101463151483, .ofNat 1), (101892260429, .ofNat 1), (101901954367, .ofNat 1), (106212674177, .negSucc 1), (107093005619, .ofNat 1), (110131961047, .negSucc 1), (110736995329, .ofNat 1), (116816291717, .ofNat 1), (121126855987, .ofNat 1), (123789135809, .ofNat 1), (125335001651, .ofNat 1), (139512863123, .ofNat 1), (140177099299, .ofNat 1), (144108706813, .ofNat 1), (153873204071, .ofNat 1), (153890507893, .ofNat 1), (156845170627, .ofNat 1), (158185327067, .ofNat 1), (160188669359, .ofNat 1), (173061451331, .ofNat 1), (173735835253, .negSucc 1), (177972379303, .negSucc 1), (191329351999, .ofNat 1), (196283632537, .ofNat 1), (197466018083, .ofNat 1), (205281851497, .ofNat 1), (228206134447, .ofNat 1), (446701121827, .negSucc 0), (487571858803, .ofNat 1), (1100943225749, .negSucc 1), (1126368379337, .ofNat 1), (1168727809241, .negSucc 1), (1239507611821, .ofNat 1), (1431682496381, .ofNat 1), (1523404349177, .ofNat 1), (1635680036857, .negSucc 0), (2105434391587, .negSucc 0), (13017955473073, .ofNat 1), (13498322833703, .ofNat 1), (14742781533583, .ofNat 1), (15286795612313, .ofNat 1), (16565082304973, .ofNat 1), (18759888218483, .ofNat 1), (140539471102313, .negSucc 0), (154497772127113, .ofNat 1), (194233813231603, .ofNat 1), (213525006040403, .negSucc 0)] 0)) .nil)) (.node (.node (.leaf (.adef 30169 [(33615837, .ofNat 2), (128353767, .ofNat 4), (135292257, .ofNat 2), (146853909, .ofNat 1), (275574537261, .negSucc 1)] 0)) .nil) (.node (.leaf (.adef 20899 [(8573857, .ofNat 1), (10715267, .negSucc 0), (11265139, .negSucc 0), (30755539, .ofNat 1)] 0)) .nil)))

def jac168 : JTree := .node (.node (.node (.node (.node (.leaf (.atom 1483)) (.leaf (.adef 43969 [(9857, .ofNat 1), (2738233, .ofNat 1), (3500143, .ofNat 1), (3888739, .ofNat 1), (11603959, .negSucc 0), (12732233, .ofNat 1), (1087274413, .ofNat 1)] 0))) (.node (.leaf (.adef 37171 [(11812279, .ofNat 2), (13708003, .ofNat 2), (30499979, .ofNat 1), (30621509, .ofNat 1), (33899101, .ofNat 1), (37180223, .ofNat 1), (913482949, .ofNat 2), (1254603443, .ofNat 2), (1763930981, .ofNat 1), (3702148201, .ofNat 1), (4012795019, .ofNat 1), (506090040161, .negSucc 0), (551945049053, .ofNat 1), (708527628989, .ofNat 2), (711710115719, .ofNat 2), (1028890779733, .negSucc 1), (1033512238543, .negSucc 1), (29800927797757, .negSucc 1), (29934784338247, .negSucc 1), (41278458126221, .negSucc 1), (41463868179191, .negSucc 1), (43275517543829, .ofNat 2), (43469897769359, .ofNat 2), (59942651817637, .ofNat 2), (60211895649727, .ofNat 2)] 0)) .nil)) (.node (.node (.leaf (.adef 22727 [(53026497, .ofNat 2), (64012743, .ofNat 1), (93180492369, .negSucc 1)] 0)) .nil) (.node (.leaf (.adef 32099 [(51618673, .negSucc 0), (98951233, .ofNat 1), (135787021, .negSucc 0), (13994826289, .ofNat 1)] 0)) .nil))) (.node (.node (.node (.leaf (.atom 12713)) (.leaf (.adef 45377 [(12964703, .ofNat 1), (16499983, .ofNat 1)] 0))) (.node (.leaf (.adef 10271 [(3987637, .negSucc 0), (6788929733, .ofNat 1)] 0)) .nil)) (.node (.node (.leaf (.adef 23417 [(100346339, .ofNat 1), (101479927, .negSucc 0), (125123423, .ofNat 1), (140786423, .ofNat 1), (146238149, .negSucc 0), (146864077, .ofNat 1)] 0)) .nil) (.node (.leaf (.adef 42193 [(3181939, .ofNat 1), (4158029, .negSucc 0)] 0)) .nil)))) (.node (.node (.node (.node (.leaf (.atom 47963)) (.leaf (.adef 16651 [(38642059, .ofNat 2), (57124589, .ofNat 2), (5306067083, .negSucc 0), (739110650753, .ofNat 1), (1027771457753, .negSucc 0)] 1))) (.node (.leaf (.adef 30839 [(136329057, .ofNat 2), (150106401, .ofNat 1), (245531133, .ofNat 1), (247176747, .ofNat 1), (271398746529, .negSucc 1), (305909861193, .negSucc 1), (359804156301, .negSucc 1), (369289514367, .negSucc 0), (431458104141, .negSucc 0), (537558260476761, .ofNat 4)] 0)) .nil)) (.node (.node (.leaf (.adef 22973 [(1899213, .ofNat 2), (55107873, .negSucc 1), (64820997, .negSucc 0), (143608329, .negSucc 0), (93305557503, .ofNat 2)] 0)) .nil) (.node (.leaf (.adef 10303 [(4064443, .negSucc 0), (23429093, .ofNat 1), (31294633, .ofNat 1), (6496779329, .ofNat 1)] 0)) .nil))) (.node (.node (.node (.leaf (.atom 5237)) (.leaf (.adef 35153 [(21317431, .negSucc 0), (21450841, .ofNat 1), (22262951, .ofNat 1), (22654981, .negSucc 0)] 0))) (.node (.leaf (.adef 39581 [(39569, .ofNat 1), (11020511, .ofNat 1), (13055621, .ofNat 1), (18809911, .negSucc 0), (21237053, .negSucc 0), (22377941, .ofNat 1), (23286827, .negSucc 0), (26331863, .negSucc 0), (30256129, .ofNat 1)] 0)) .nil)) (.node (.node (.leaf (.adef 36307 [(8289779, .ofNat 1), (13072753, .negSucc 0), (16748993, .ofNat 1), (27905029, .negSucc 0), (34302173, .ofNat 1), (129433163, .ofNat 1), (8672631503, .ofNat 1), (10703478557, .ofNat 1), (210204348251, .negSucc 0), (6782146956911, .negSucc 0), (6795760780063, .ofNat 1)] 0)) .nil) (.node (.leaf (.adef 42841 [(9237673, .ofNat 1), (9238781, .negSucc 0), (13684757, .negSucc 0), (14702813, .negSucc 0), (14703907, .negSucc 0), (18829561, .ofNat 1), (18830963, .ofNat 1), (939735743, .ofNat 1), (215741169953, .negSucc 0), (223951727507, .ofNat 1)] 0)) .nil))))

def jac169 : JTree := .node (.node jac166 (.node (.node (.node (.node (.node (.leaf (.atom 787)) (.leaf (.adef 33811 [(936589, .ofNat 1), (1297007, .ofNat 1), (350536597, .negSucc 0), (418250033, .ofNat 1), (69682981189, .ofNat 1), (76603855589, .negSucc 0)] 0))) (.node (.leaf (.adef 30529 [(580061, .ofNat 1), (62514479, .negSucc 0), (14173089199, .negSucc 0)] 0)) .nil)) (.node (.node (.leaf (.adef 15077 [(778713833, .negSucc 3), (814283501, .negSucc 3), (903324691, .ofNat 4), (978546223, .negSucc 3), (227425273847, .ofNat 2), (289416741751, .negSucc 1), (37093234777717, .ofNat 2), (40487065167013, .negSucc 1), (41672007488621, .ofNat 2), (45484770819869, .negSucc 1)] 1)) (.leaf (.trans [(419, .ofNat 1)] 0))) (.node (.leaf (.adef 32303 [(56797691, .ofNat 4), (4820882653, .negSucc 1), (422408716001, .negSucc 3), (698906078071, .negSucc 1), (971864927071, .ofNat 2)] 1)) .nil))) (.node (.node (.node (.leaf (.atom 8117)) (.leaf (.adef 28309 [(7631443, .ofNat 4), (2712197897, .ofNat 2)] 1))) (.node (.leaf (.adef 38851 [(16881503, .ofNat 1), (21922049, .ofNat 1), (387782159, .ofNat 2)] 0)) .nil)) (.node (.node (.leaf (.adef 35969 [(23537633723, .ofNat 1), (1841527099603, .ofNat 1), (2674179772091, .negSucc 0)] 0)) .nil) (.node (.leaf (.adef 20483 [(17181971, .ofNat 1), (69306119, .ofNat 1)] 0)) .nil)))) jac167)) (.node jac168 (.node (.node (.node (.node (.node (.leaf (.atom 1667)) (.leaf (.adef 44257 [(5504831, .ofNat 1), (8450927, .negSucc 0)] 0))) (.node (.leaf (.adef 24413 [(24407, .ofNat 1), (17665469, .ofNat 1), (1439614909, .negSucc 0), (1935378751, .negSucc 0), (2649441083, .ofNat 1), (3719132939, .negSucc 0), (4343132099, .ofNat 1), (4345558493, .negSucc 0), (4385294237, .negSucc 0), (4493841017, .negSucc 0), (4931525483, .ofNat 1), (5002682591, .ofNat 1), (6368577403, .negSucc 0), (7435022219, .ofNat 1), (488890612649, .negSucc 0), (964475086823, .negSucc 0), (965546585323, .negSucc 1), (56579271785189, .negSucc 0)] 0)) .nil)) (.node (.node (.leaf (.adef 6491 [(695756689, .negSucc 3), (3452164327, .ofNat 2), (150555651061, .ofNat 4), (493728597893, .negSucc 1), (686555064893, .ofNat 2)] 1)) (.leaf (.trans [(44179, .negSucc 0)] 0))) (.node (.leaf (.adef 41011 [(2131543, .ofNat 1), (2884423, .ofNat 1), (4299313, .negSucc 0), (5182589, .ofNat 1)] 0)) .nil))) (.node (.node (.node (.leaf (.atom 17033)) (.leaf (.adef 28429 [(277851371, .negSucc 0), (426873391, .ofNat 1), (436896761, .negSucc 0), (557337767, .negSucc 0), (685678483, .ofNat 1)] 0))) (.node (.leaf (.adef 31307 [(3790529, .negSucc 0), (30529001, .ofNat 1), (31309139, .negSucc 0), (90531079, .negSucc 0), (118766327, .negSucc 0), (173768939, .negSucc 0), (8277005993, .negSucc 0)] 0)) .nil)) (.node (.node (.leaf (.adef 17729 [(21985697, .negSucc 0), (28938713, .negSucc 0), (3157210997, .negSucc 0), (6618308527, .ofNat 1)] 0)) .nil) (.node (.leaf (.adef 20641 [(12658339, .ofNat 1), (390808849, .ofNat 1), (465853741, .ofNat 1), (543439849, .negSucc 0), (676491077, .negSucc 0), (696863599, .ofNat 1), (1015906351, .ofNat 1)] 0)) .nil)))) (.node (.node (.node (.node (.leaf (.atom 3821)) (.leaf (.adef 45139 [(139638358697, .ofNat 1)] 0))) (.node (.leaf (.adef 15809 [(34348669, .negSucc 0), (34353667, .ofNat 1), (34892503, .ofNat 1), (34944241, .negSucc 0)] 0)) .nil)) (.node (.node (.leaf (.adef 23081 [(7220309, .ofNat 1), (137527223, .negSucc 0), (4115851301, .negSucc 1)] 0)) .nil) (.node (.leaf (.adef 32693 [(41627, .negSucc 0), (158690269, .negSucc 0), (1325243981, .ofNat 1)] 0)) .nil))) (.node (.node (.node (.leaf (.atom 1427)) (.leaf (.atom 827))) (.node (.leaf (.adef 19507 [(1420987, .negSucc 0), (2350493, .ofNat 1), (2514709, .ofNat 1), (762921311, .ofNat 1), (16172439781, .negSucc 0), (17778677381, .ofNat 1)] 0)) .nil)) (.node (.node (.leaf (.adef 36833 [(2774029, .negSucc 0), (2779531, .ofNat 1), (4959179, .ofNat 1), (6968369, .negSucc 0), (103257361, .ofNat 1), (141696157, .negSucc 0), (328252549, .negSucc 0), (450448513, .ofNat 1)] 0)) .nil) (.node (.leaf (.adef 43591 [(2157809, .ofNat 1), (2898271, .ofNat 1), (4058447, .ofNat 1)] 0)) .nil))))))

def jac170 : JTree := .node (.leaf (.adef 41543 [(9544813, .ofNat 1), (9556177, .ofNat 1), (9575117, .ofNat 1), (9595951, .ofNat 1), (13172969, .ofNat 1), (13863533, .ofNat 1), (14966249, .ofNat 1), (23068733, .ofNat 1), (24081251, .ofNat 1), (27493561, .ofNat 1), (27506701, .ofNat 1), (27679363, .ofNat 1), (27695807, .ofNat 1), (29898763, .ofNat 1), (31121707, .ofNat 1), (31229603, .ofNat 1), (31253771, .ofNat 1), (31270279, .ofNat 1), (34648883, .ofNat 1), (34688309, .ofNat 1), (34796899, .ofNat 1), (37493111, .ofNat 1), (37504153, .ofNat 1), (38636599, .ofNat 1), (64243147, .ofNat 1), (65932829, .ofNat 1), (788146319, .ofNat 1), (817229209, .ofNat 1), (1735808929, .negSucc 0), (1799860919, .negSucc 0), (2338756829, .ofNat 1), (2418058109, .ofNat 1), (2508757297, .ofNat 1), (2692493351, .negSucc 0), (2839324181, .negSucc 0), (2878476361, .ofNat 1), (2908561031, .negSucc 0), (2945420363, .ofNat 1), (3121051987, .negSucc 0), (3217971817, .ofNat 1), (3234429173, .ofNat 1), (3240205099, .negSucc 0), (4323935491, .ofNat 1), (4800695551, .ofNat 1), (5105215343, .negSucc 0), (5156902207, .ofNat 1), (5236145851, .negSucc 0), (6649238021, .negSucc 0), (7449141823, .ofNat 1), (7624857157, .negSucc 0), (8922947213, .negSucc 0), (9488754101, .ofNat 1), (9642387263, .ofNat 1), (9818082991, .ofNat 1), (10303312973, .ofNat 1), (10631221739, .ofNat 1), (10701386809, .ofNat 1), (10832328137, .ofNat 1), (11456980877, .ofNat 1), (11839166153, .ofNat 1), (12345384523, .negSucc 0), (12673301869, .ofNat 1), (14722326457, .ofNat 1), (15865773173, .ofNat 1), (17521159609, .ofNat 1), (19728890653, .ofNat 1), (21746935933, .ofNat 1), (23199591137, .ofNat 1), (25434624169, .ofNat 1), (32813125223, .ofNat 1), (47453808277, .ofNat 1), (57800102047, .ofNat 1), (101804856467, .ofNat 1), (102787662899, .negSucc 0), (103893297913, .ofNat 1), (107975530261, .negSucc 0), (111551626999, .negSucc 0), (111878313997, .negSucc 0), (115583669023, .negSucc 0), (119209012441, .ofNat 1), (120359835577, .negSucc 0), (126888072299, .negSucc 0), (130821538637, .ofNat 1), (131181459173, .negSucc 0), (213519160993, .ofNat 1), (268861473557, .ofNat 1), (271698768893, .ofNat 1), (272543330009, .negSucc 0), (336646342717, .ofNat 1), (353637453563, .ofNat 1), (355049333753, .negSucc 0), (360533116313, .ofNat 1), (365349753017, .ofNat 1), (372508263227, .ofNat 1), (374122039117, .ofNat 1), (394198071191, .ofNat 1), (409367469157, .negSucc 0), (422925519463, .negSucc 0), (425007074819, .ofNat 1), (436190803921, .ofNat 1), (438685030171, .ofNat 1), (439625477143, .ofNat 1), (441856482157, .ofNat 1), (442920019387, .negSucc 0), (443869545271, .negSucc 0), (541932493747, .negSucc 0), (706598395463, .negSucc 0), (1159905688483, .negSucc 0), (1240025756813, .ofNat 1), (2192816320213, .ofNat 1), (2877764304509, .ofNat 1), (3482810154391, .negSucc 0), (4075739455919, .negSucc 0), (4570700541263, .negSucc 0), (4909384081841, .negSucc 0), (5348837206567, .negSucc 0), (5499983332483, .ofNat 1), (30439489516349, .negSucc 0), (34208557490137, .ofNat 1), (35445028396849, .ofNat 1), (35470865884607, .ofNat 1), (36752963024039, .ofNat 1), (43529690321237, .ofNat 1), (45103074281549, .ofNat 1)] 0)) .nil

def jac171 : JTree := .node (.node (.node (.node (.node (.node (.leaf (.atom 709)) (.leaf (.adef 21031 [(20384069, .negSucc 0), (40979383, .ofNat 1), (51006827, .ofNat 1), (17567354521, .negSucc 0)] 0))) (.node (.leaf (.adef 30347 [(63054873671, .ofNat 1)] 0)) .nil)) (.node (.node (.leaf (.adef 3137 [(37815751, .negSucc 0), (47381291, .negSucc 0), (52584751, .ofNat 1), (65629723, .negSucc 0)] 0)) .nil) (.node (.leaf (.adef 7829 [(40237, .ofNat 1), (404144849, .ofNat 1), (723491893, .ofNat 1), (736260043, .ofNat 1), (1215407833, .ofNat 1), (1778465959, .ofNat 1), (1802288777, .ofNat 1), (2231653813, .ofNat 1), (2642985643, .ofNat 1), (2828276107, .ofNat 1), (3614892973, .ofNat 1)] 0)) .nil))) (.node (.node (.node (.leaf (.atom 22381)) (.leaf (.adef 28031 [(6795661, .ofNat 1), (7239301, .negSucc 0), (262076279, .negSucc 0), (324029471, .negSucc 0)] 0))) (.node (.leaf (.adef 5099 [(24125869, .negSucc 0), (25383119, .negSucc 0), (73395859, .negSucc 0)] 0)) .nil)) (.node (.node (.leaf (.adef 3209 [(289759813, .negSucc 0), (294007847, .negSucc 0), (446666753813, .ofNat 1)] 0)) .nil) (.node (.leaf (.adef 32933 [(1831873, .ofNat 1), (2826823, .ofNat 1), (335429429, .negSucc 0), (460297073, .ofNat 1)] 0)) .nil)))) (.node (.node (.node (.node (.leaf (.atom 28517)) (.leaf (.adef 44623 [(7788107, .negSucc 0), (9337091, .ofNat 1)] 0))) (.node (.leaf (.adef 37643 [(8503069, .ofNat 1), (8504731, .negSucc 0), (13501601, .negSucc 0), (13505977, .negSucc 0), (17294371, .ofNat 1), (17298577, .ofNat 1), (28322167, .negSucc 0), (28329683, .negSucc 0), (34787483, .ofNat 1), (34805971, .ofNat 1), (1160917789, .ofNat 1), (1701854177, .ofNat 1), (1702644313, .negSucc 0), (265648913119, .negSucc 0), (275770601149, .ofNat 1)] 0)) .nil)) (.node (.node (.leaf (.adef 15277 [(5963261, .negSucc 0), (7162079, .ofNat 1), (16991291, .negSucc 0)] 0)) (.leaf (.trans [] 0))) (.node (.leaf (.adef 14081 [(41341, .ofNat 1), (8648309, .negSucc 0), (10633591, .ofNat 1), (11789069, .ofNat 1), (14853281, .ofNat 1), (17695193, .negSucc 0), (19778417, .negSucc 0), (22961299, .ofNat 1), (24931289, .negSucc 0), (29588899, .ofNat 1), (44228083, .negSucc 0)] 0)) .nil))) (.node (.node (.node (.leaf (.atom 10061)) (.leaf (.adef 35089 [(22066747, .negSucc 0), (22378129, .ofNat 1), (23538577, .ofNat 1), (23808203, .negSucc 0)] 0))) (.node (.leaf (.adef 19319 [(19309, .ofNat 1), (6094351, .ofNat 1), (6644921, .ofNat 1), (8744017, .negSucc 0), (11085583, .negSucc 0), (14178041, .ofNat 1), (15417667, .negSucc 0), (22451881, .negSucc 0), (30586657, .ofNat 1)] 0)) .nil)) (.node (.node (.leaf (.adef 36191 [(3574213, .negSucc 0), (4464191, .ofNat 1)] 0)) .nil) (.node (.leaf (.adef 20789 [(7145741, .ofNat 1), (11827913, .negSucc 0), (119706337, .negSucc 0), (119808629, .negSucc 0), (162882977, .ofNat 1), (164097419, .ofNat 1), (17308298113, .ofNat 1), (26009734691, .negSucc 0), (40829095469, .negSucc 0)] 0)) .nil))))) (.node (.node (.node (.node (.node (.leaf (.atom 4603)) (.leaf (.adef 44203 [(180157, .negSucc 0), (7661666819, .negSucc 0)] 0))) (.node (.leaf (.adef 4493 [(714089, .ofNat 1), (52009961, .ofNat 1), (57175561, .negSucc 0)] 0)) .nil)) (.node (.node (.leaf (.adef 15121 [(5921323, .negSucc 0), (7100287, .ofNat 1), (16862743, .negSucc 0)] 0)) (.leaf (.trans [(2383, .ofNat 1)] 0))) (.node (.leaf (.adef 25913 [(5124481, .negSucc 0), (6430783, .ofNat 1), (7746677, .ofNat 1), (10441261, .negSucc 0)] 0)) .nil))) (.node (.node (.node (.leaf (.adef 17027 [(874033, .ofNat 1), (877691, .negSucc 0)] 0)) (.leaf (.adef 34673 [(347241, .negSucc 3), (26782299, .ofNat 2), (151885521, .negSucc 1), (168793623, .negSucc 0), (278852172777, .ofNat 2)] 0))) (.node (.leaf (.adef 4397 [(1496993, .negSucc 0), (1904893, .negSucc 0), (2415289, .ofNat 1)] 0)) .nil)) (.node (.node (.leaf (.adef 17657 [(175994734073, .ofNat 1), (179467107661, .ofNat 1), (6164353945817, .ofNat 1), (6285976561069, .ofNat 1)] 0)) .nil) (.node (.leaf (.adef 11393 [(1889879, .ofNat 1), (4132423, .ofNat 1), (555395857, .ofNat 1), (4483075304537, .negSucc 0)] 0)) .nil)))) (.node (.node (.node (.node (.leaf (.atom 9949)) (.leaf (.adef 27809 [(27803, .ofNat 1), (923516089, .ofNat 1), (1052764997, .negSucc 0), (4758528149, .negSucc 0), (170691673289, .ofNat 1), (172348709207, .negSucc 0), (292207640609, .ofNat 1), (566788594363, .negSucc 0), (583456239187, .negSucc 0), (950522910823, .negSucc 0)] 0))) (.node (.leaf (.adef 31039 [(1768847, .ofNat 1), (8280775669, .negSucc 0)] 0)) .nil)) (.node (.node (.leaf (.adef 2777 [(169557511, .negSucc 0), (177302467, .negSucc 0), (178319003, .negSucc 0), (193167959, .ofNat 1), (231411323527, .negSucc 0), (241981604419, .negSucc 0), (5132648862923, .negSucc 0), (5560054107719, .ofNat 1), (879670732364401, .ofNat 1), (952922555106853, .negSucc 0), (1223227496483401, .negSucc 0), (1325087931813853, .ofNat 1)] 0)) .nil) jac170)) (.node (.node (.node (.leaf (.atom 5441)) (.leaf (.atom 49109))) (.node (.leaf (.adef 19477 [(8447513, .negSucc 0), (11147881, .ofNat 1), (14212157, .ofNat 1), (22670509, .negSucc 0)] 0)) .nil)) (.node (.node (.leaf (.adef 36683 [(3174749, .ofNat 1), (3761623, .negSucc 0), (5136949, .negSucc 0), (6957479, .ofNat 1), (98609507, .negSucc 0), (121700633, .negSucc 0), (319361333, .ofNat 1), (394145327, .ofNat 1)] 0)) .nil) (.node (.leaf (.adef 43391 [(13412957, .ofNat 1), (15540443, .ofNat 1), (27533923, .ofNat 1), (37846243, .ofNat 1), (37857389, .ofNat 1), (1129249861, .negSucc 0), (1130534803, .negSucc 0), (1231567153, .ofNat 1), (1232968519, .ofNat 1), (2320972183, .ofNat 1), (2367966487, .ofNat 1), (2675035087, .negSucc 0), (2917410451, .ofNat 1), (4289430781, .ofNat 1), (5221525013, .ofNat 1), (9417977213, .ofNat 1), (9758095219, .ofNat 1), (11865976939, .ofNat 1), (352273145797, .ofNat 1), (359223489929, .ofNat 1), (407854523311, .negSucc 0), (415901487227, .negSucc 0), (1152570915829, .negSucc 0), (1257001245217, .ofNat 1)] 0)) .nil)))))

end BP.EL
