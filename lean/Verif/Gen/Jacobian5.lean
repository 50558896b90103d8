import Verif.Lemmas.JTree
import Verif.Gen.Jacobian4

/-!
# Generated by tools/gen_jacobian.py
-/

namespace BP.EL

def jac115 : JTree := .node (.node (.node (.node (.leaf (.atom 9929)) (.leaf (.adef 5387 [(28299, .ofNat 2), (52161597, .negSucc 0)] 0))) (.node (.leaf (.adef 24611 [(5774011, .ofNat 1), (1337130943, .ofNat 1), (79409096201, .ofNat 1)] 0)) .nil)) (.node (.node (.leaf (.adef 15263 [(915329, .negSucc 0), (6251034901, .ofNat 1), (7714823119, .ofNat 1), (52011590353, .ofNat 1), (52214791001, .ofNat 1), (91796486147, .ofNat 1), (2938080532547, .ofNat 1), (472138935589501, .ofNat 1), (647898339597337, .negSucc 0)] 0)) (.leaf (.trans [] 0))) (.node (.leaf (.adef 20021 [(41269, .ofNat 1), (10739717, .ofNat 1), (11233319, .negSucc 0), (13283911, .ofNat 1), (14316427, .negSucc 0), (16151983, .ofNat 1), (17549699, .negSucc 0), (18332887, .ofNat 1), (26628941, .negSucc 0), (38433431, .ofNat 1), (69112651, .negSucc 0)] 0)) .nil))) (.node (.node (.node (.leaf (.atom 14831)) (.leaf (.adef 46309 [(824062213, .negSucc 0), (824223881, .ofNat 1), (881216401, .negSucc 0), (881561993, .ofNat 1), (920474867, .ofNat 1), (921376807, .negSucc 0), (1173622099, .negSucc 0), (1187574349, .ofNat 1), (1190619833, .negSucc 0), (1196156117, .ofNat 1), (1241770309, .ofNat 1), (7080340634497, .ofNat 1), (7676306308411, .ofNat 1), (7989278226371, .negSucc 0), (10838515643033, .negSucc 0)] 0))) (.node (.leaf (.adef 39343 [(5012269, .negSucc 0), (11040781, .negSucc 0), (37235441, .negSucc 0), (447738091, .negSucc 0), (552583729, .negSucc 0), (844422779, .negSucc 0), (1057474777, .negSucc 0), (1173932323, .ofNat 1), (1593992899, .ofNat 1), (1661481197, .ofNat 1), (1698980597, .ofNat 1), (2412725509, .negSucc 0), (2476819253, .ofNat 1), (135695692357, .negSucc 0), (186210047809, .ofNat 1), (242144554727, .ofNat 1), (247903540769, .negSucc 0)] 0)) .nil)) (.node (.node (.leaf (.adef 13477 [(36131, .ofNat 1), (36137, .ofNat 1), (2374526359, .ofNat 1), (2452890749, .ofNat 1), (4286754827, .ofNat 1), (4728630701, .ofNat 1), (7351440091, .ofNat 1), (7779060977, .ofNat 1), (8053691171, .ofNat 1), (8127290069, .ofNat 1), (10897671727, .ofNat 1), (11320812887, .ofNat 1), (11634578117, .ofNat 1), (13499757053, .ofNat 1)] 0)) .nil) (.node (.leaf (.adef 26723 [(703607327, .negSucc 0), (729570697, .negSucc 0), (3645194909, .negSucc 0), (5860237961, .ofNat 1), (8313635977, .negSucc 0), (9606481223, .ofNat 1), (10052926691, .ofNat 1), (125132222107, .ofNat 1), (129749647277, .ofNat 1), (150939543977, .ofNat 1), (156509268847, .ofNat 1), (171714198559, .negSucc 0), (178050515849, .negSucc 0), (186284655563, .ofNat 1), (193158628093, .ofNat 1), (271538883229, .ofNat 1), (281854860167, .ofNat 1), (320650741157, .negSucc 0), (332651666279, .negSucc 0), (335124421351, .ofNat 1), (347856063173, .ofNat 1), (384076910683, .negSucc 0), (398767426241, .negSucc 0), (489240751423, .ofNat 1), (499977614333, .ofNat 1), (603804957037, .ofNat 1), (686100301721, .negSucc 0), (51527416607131, .negSucc 0), (53455921952857, .negSucc 0), (58997180594381, .ofNat 1), (61253757272887, .ofNat 1), (70709117903647, .ofNat 1), (73355532586309, .ofNat 1), (80959591481897, .negSucc 0), (84056206001419, .negSucc 0), (155502226325387, .ofNat 1), (191915769102353, .ofNat 1), (202292812982291, .ofNat 1), (277598748512567, .negSucc 0)] 0)) .nil)))

def jac116 : JTree := .node (.node (.node (.node (.node (.leaf (.atom 593)) (.leaf (.adef 5657 [(67591, .negSucc 0), (93623, .negSucc 0), (8197583741, .negSucc 0)] 0))) (.node (.leaf (.adef 18413 [(110584367, .ofNat 1), (111086837, .negSucc 0), (46520070769, .negSucc 0), (46625355449, .ofNat 1)] 0)) .nil)) (.node (.node (.leaf (.adef 15091 [(20750437, .ofNat 1), (5741748241, .ofNat 1)] 0)) (.leaf (.trans [] 0))) (.node (.leaf (.adef 19801 [(295107883, .negSucc 0), (372397963, .negSucc 0), (499349473, .negSucc 0), (614248033, .ofNat 1), (66825205027, .ofNat 1), (80074580593, .negSucc 0), (549063422383, .negSucc 0), (773474911867, .negSucc 0), (1001173093501, .ofNat 1), (96497594424427, .ofNat 1), (116726475562291, .negSucc 0)] 0)) .nil))) (.node (.node (.node (.leaf (.atom 14737)) (.leaf (.adef 45667 [(15539723, .ofNat 1), (15540817, .ofNat 1), (27613699, .ofNat 1)] 0))) (.node (.leaf (.adef 9811 [(20423419, .negSucc 0), (6009393157, .ofNat 1), (6767670599, .negSucc 0)] 0)) .nil)) (.node (.node (.leaf (.adef 13417 [(416671457, .negSucc 0), (5805216257, .ofNat 1), (5922556961, .ofNat 1), (10169751689, .negSucc 0), (10545019279, .negSucc 0), (15000307177, .negSucc 0), (15553824047, .negSucc 0), (20584352149, .ofNat 1), (21343922339, .ofNat 1), (24581514887, .ofNat 1), (25488581857, .ofNat 1), (27865395869, .negSucc 0), (28696244627, .negSucc 0), (30337702853, .ofNat 1), (31457175283, .ofNat 1), (34390561511, .negSucc 0), (35415967913, .negSucc 0), (43493976023, .negSucc 0), (81192855277, .ofNat 1), (82742159809, .ofNat 1), (100205570263, .ofNat 1), (113543925133, .negSucc 0), (4477050459671, .negSucc 0), (4684747277533, .negSucc 0), (4777889772169, .negSucc 0), (5095995766091, .ofNat 1), (5550902479069, .negSucc 0), (5578485387217, .negSucc 0), (5689397249581, .negSucc 0), (6318306167449, .ofNat 1), (6993041553167, .negSucc 0), (7655143745629, .ofNat 1), (7807343884297, .ofNat 1), (8670371719813, .negSucc 0), (24978031090603, .ofNat 1), (30827070201457, .ofNat 1), (32493915305779, .ofNat 1), (44590166552023, .negSucc 0)] 0)) .nil) (.node (.leaf (.adef 42491 [(37690199, .ofNat 1), (1120683581, .negSucc 0), (1222224713, .ofNat 1), (107718042643, .negSucc 0), (117573661027, .ofNat 1), (514027983523, .negSucc 0), (560602221079, .ofNat 1)] 0)) .nil)))) (.node (.node (.node (.node (.leaf (.atom 7177)) (.leaf (.adef 21613 [(9639313, .negSucc 0), (9699059, .negSucc 0), (12868159, .negSucc 0), (742011659, .negSucc 0), (2924093413, .negSucc 0)] 0))) (.node (.leaf (.adef 30977 [(4259, .ofNat 1), (1742749, .ofNat 1), (1841549, .ofNat 1), (2611033, .ofNat 1), (2989967, .negSucc 0)] 0)) .nil)) (.node (.node (.leaf (.adef 3739 [(288517397, .ofNat 1), (355101061, .ofNat 1), (370251133, .ofNat 1), (502684763, .negSucc 0), (94133125891, .negSucc 0), (109687949651, .negSucc 0), (113025122861, .ofNat 1), (173793602647, .ofNat 1), (541659685847, .negSucc 0), (755338568327, .negSucc 0), (992860748299, .ofNat 1), (151088005284769, .ofNat 1), (181782875431213, .negSucc 0)] 0)) .nil) (.node (.leaf (.adef 14153 [(26161, .ofNat 1), (14156281, .ofNat 1), (1073671219, .negSucc 0), (1075035853, .negSucc 0), (1572148343, .negSucc 0), (2708144723, .negSucc 0), (2921464207, .negSucc 0), (3024918563, .negSucc 0), (3260868587, .negSucc 0), (3725822627, .negSucc 0), (4662380029, .negSucc 0), (8465136829, .negSucc 0)] 0)) .nil))) (.node (.node (.node (.leaf (.atom 8179)) (.leaf (.adef 47419 [(101025587, .ofNat 1), (899156999, .negSucc 0), (961566541, .negSucc 0), (1004355287, .ofNat 1)] 0))) (.node (.leaf (.adef 40009 [(12370139, .ofNat 1), (12424889, .negSucc 0), (12451337, .negSucc 0)] 0)) .nil)) (.node (.node (.leaf (.adef 17981 [(17980561, .ofNat 1), (26084039, .ofNat 1), (68400481, .ofNat 1)] 0)) .nil) (.node (.leaf (.adef 33581 [(2559853, .ofNat 1), (3048061, .negSucc 0)] 0)) .nil))))

def jac117 : JTree := .node (.node (.node (.node (.node (.node (.leaf (.atom 1193)) (.leaf (.adef 27143 [(3423731, .negSucc 0), (3796747, .ofNat 1), (11897887, .ofNat 1), (12935893, .negSucc 0), (970810171, .negSucc 0)] 0))) (.node (.leaf (.adef 3853 [(24648451, .negSucc 0), (24844961, .ofNat 1), (52631939, .negSucc 0)] 0)) .nil)) (.node (.node (.leaf (.adef 10889 [(4761353, .ofNat 1), (4761907, .negSucc 0), (8148659, .negSucc 0), (8162881, .negSucc 0), (10435787, .ofNat 1), (10438591, .ofNat 1)] 0)) (.leaf (.trans [] 0))) (.node (.leaf (.adef 40483 [(8896409, .ofNat 1), (14090173, .negSucc 0), (14092361, .negSucc 0), (18044441, .ofNat 1), (18048647, .ofNat 1), (929850553, .ofNat 1), (214956127577, .negSucc 0), (220583739907, .ofNat 1)] 0)) .nil))) (.node (.node (.node (.leaf (.atom 48523)) (.leaf (.adef 45439 [(3633667, .negSucc 0), (4623767, .negSucc 0), (6183211, .ofNat 1)] 0))) (.node (.leaf (.adef 38767 [(1844599, .ofNat 1), (6496779329, .ofNat 1)] 0)) .nil)) (.node (.node (.leaf (.adef 23459 [(23561227, .ofNat 1), (37166069, .negSucc 0), (37511191, .ofNat 1), (4803525249043, .negSucc 0), (4958229778751, .ofNat 1)] 0)) .nil) (.node (.leaf (.adef 20411 [(42257, .ofNat 1), (79889713, .negSucc 0), (80251879, .negSucc 0), (80396443, .ofNat 1), (86970077, .ofNat 1), (87037487, .negSucc 0), (88899823, .ofNat 1), (104820041, .negSucc 0), (110639861, .ofNat 1), (115877543, .ofNat 1), (118655281, .ofNat 1)] 0)) .nil)))) (.node (.node (.node (.node (.leaf (.atom 35291)) (.leaf (.adef 34259 [(38665321, .ofNat 2), (56827691, .negSucc 1), (5315557243, .negSucc 0), (741187959137, .negSucc 0), (1030660062137, .ofNat 1)] 1))) (.node (.leaf (.adef 37967 [(27451339, .ofNat 4), (37016783, .negSucc 3), (878196499, .negSucc 1), (1221177499, .ofNat 2), (1591778497, .ofNat 2), (597731236919, .ofNat 1), (1172013171451, .ofNat 2), (1604350933103, .ofNat 2), (123804614352257, .ofNat 1), (180485670630593, .ofNat 1)] 1)) .nil)) (.node (.node (.leaf (.adef 13367 [(10546183, .negSucc 3), (3475415219, .negSucc 1), (497926491919, .negSucc 1), (692392452919, .ofNat 2)] 1)) .nil) (.node (.leaf (.adef 41387 [(1860161, .ofNat 1), (6788929733, .ofNat 1)] 0)) .nil))) (.node (.node (.node (.leaf (.atom 10733)) (.leaf (.adef 46771 [(848283787, .negSucc 0), (848608163, .ofNat 1), (906177103, .negSucc 0), (906523319, .ofNat 1), (951182297, .ofNat 1), (951363829, .negSucc 0), (1185644161, .negSucc 0), (1199270293, .ofNat 1), (1202762977, .negSucc 0), (1208090039, .ofNat 1), (1276211287, .ofNat 1), (7113398261437, .ofNat 1), (7701300500543, .ofNat 1), (8051585597939, .negSucc 0), (10868144213329, .negSucc 0)] 0))) (.node (.leaf (.adef 39709 [(3266819, .ofNat 1), (4104311, .negSucc 0), (448989391, .ofNat 1)] 0)) .nil)) (.node (.node (.leaf (.adef 29989 [(6554549, .negSucc 0), (6840937, .negSucc 0)] 0)) .nil) (.node (.leaf (.adef 33409 [(56830021, .negSucc 3), (5089216927, .negSucc 1), (427777451887, .ofNat 4), (722795124487, .negSucc 1), (1005083877487, .ofNat 2)] 1)) .nil))))) (.node (.node (.node (.node (.node (.leaf (.atom 22273)) (.leaf (.adef 27397 [(27367, .ofNat 1), (4120009, .negSucc 0), (4469513, .ofNat 1), (20739179, .ofNat 1), (590652289, .negSucc 0), (596386207, .ofNat 1), (1011139609, .negSucc 0), (1012354699, .ofNat 1), (1030522991, .negSucc 0), (1110290921, .ofNat 1), (1174747843, .ofNat 1), (4427805229, .ofNat 1), (4558014421, .ofNat 1), (7425573409, .ofNat 1), (190469549791, .negSucc 0), (192318584833, .ofNat 1), (326065452871, .negSucc 0), (31733377185803, .negSucc 0), (32041437589589, .ofNat 1), (34885118314603, .ofNat 1), (35223775103989, .negSucc 0), (54324473463443, .negSucc 0), (59719949536243, .ofNat 1)] 0))) (.node (.leaf (.adef 37409 [(15436639, .ofNat 1), (18539371, .negSucc 0)] 0)) .nil)) (.node (.node (.leaf (.adef 13297 [(87501, .ofNat 2), (234251811, .negSucc 0)] 0)) (.leaf (.trans [(46477, .negSucc 0)] 0))) (.node (.leaf (.adef 41081 [(46123699, .negSucc 0), (46462159, .negSucc 0), (46639429, .ofNat 1), (63664361, .ofNat 1), (63897131, .negSucc 0)] 0)) .nil))) (.node (.node (.node (.leaf (.trans [(67591, .ofNat 1), (182113, .ofNat 1)] 0)) (.leaf (.adef 22123 [(7272299, .negSucc 0), (1560387911, .negSucc 0), (3696977051, .ofNat 1)] 0))) (.node (.leaf (.adef 25189 [(8240579, .negSucc 0), (248286991, .negSucc 0), (1104450901, .negSucc 0), (28324105099, .negSucc 0), (128181899891, .ofNat 1)] 0)) .nil)) (.node (.node (.leaf (.adef 17783 [(2646557, .ofNat 1), (2690213, .ofNat 1), (119228183, .negSucc 0), (12128015927, .ofNat 1), (4016987293691, .negSucc 0), (4211329879859, .negSucc 0)] 0)) .nil) (.node (.leaf (.adef 20717 [(1426409, .ofNat 1), (1930361, .ofNat 1), (1943581, .ofNat 1), (2580299, .ofNat 1), (115451807, .negSucc 0), (126015023, .ofNat 1), (584524159, .ofNat 1)] 0)) .nil)))) (.node (.node (.node (.node (.leaf (.atom 659)) (.leaf (.adef 34381 [(35615267, .ofNat 1), (48873479, .negSucc 0)] 0))) (.node (.leaf (.adef 12329 [(4338619217, .negSucc 0), (5017556267, .ofNat 1), (5414393987, .ofNat 1)] 0)) .nil)) (.node (.node (.leaf (.adef 15497 [(8044031, .ofNat 1), (9602863, .negSucc 0), (22812679, .ofNat 1)] 0)) .nil) (.node (.leaf (.adef 26357 [(5953841, .ofNat 1), (61152577, .negSucc 0), (341359009, .ofNat 1)] 0)) .nil))) (.node (.node (.node (.leaf (.atom 12073)) (.leaf (.atom 49199))) (.node (.leaf (.adef 19571 [(14152829, .negSucc 0), (15197521, .negSucc 0), (64074313, .ofNat 1), (12799917653, .ofNat 1), (418779267547, .negSucc 0), (428098539761, .negSucc 0)] 0)) .nil)) (.node (.node (.leaf (.adef 36913 [(36901, .ofNat 1), (9459319, .negSucc 0), (17188607, .negSucc 0), (22145797, .negSucc 0), (26907457, .ofNat 1), (29464103, .negSucc 0), (30046903, .ofNat 1), (35055401, .negSucc 0), (68675027, .negSucc 0)] 0)) .nil) (.node (.leaf (.adef 16453 [(35906603, .ofNat 1), (36418559, .negSucc 0), (36555209, .negSucc 0), (36701237, .ofNat 1)] 0)) .nil)))))

def jac118 : JTree := .node (.node (.node (.node (.node (.node (.leaf (.atom 2341)) (.leaf (.adef 27091 [(9703197527, .ofNat 1), (10142778979, .ofNat 1), (15123979349, .ofNat 1), (17133926881, .ofNat 1), (156020612552281, .ofNat 1), (192555544453339, .ofNat 1), (202967181514033, .ofNat 1), (278524158850621, .negSucc 0)] 0))) (.node (.leaf (.adef 18211 [(129414641887, .negSucc 0), (129674416271, .ofNat 1), (174798461483, .negSucc 0), (175149334939, .ofNat 1), (6311709020219, .negSucc 0), (6436238948983, .negSucc 0), (1746481009751567, .negSucc 0), (1780939055113819, .negSucc 0)] 0)) .nil)) (.node (.node (.leaf (.adef 13103 [(86601, .ofNat 2), (235381437, .negSucc 0)] 0)) .nil) (.node (.leaf (.adef 19753 [(46306367, .ofNat 1), (51655141, .negSucc 0), (82283099, .negSucc 0), (87936697, .negSucc 0), (226755247, .ofNat 1), (252947381, .negSucc 0)] 0)) .nil))) (.node (.node (.node (.leaf (.atom 22397)) (.leaf (.adef 9473 [(4739083, .ofNat 1), (15731939, .ofNat 1), (1211218343, .negSucc 0), (2965005931, .ofNat 2), (4769283767, .ofNat 1)] 0))) (.node (.leaf (.adef 24919 [(23984341, .negSucc 0), (26912803, .ofNat 1), (29080801, .negSucc 0), (30500963, .ofNat 1)] 0)) .nil)) (.node (.node (.leaf (.adef 35537 [(37698643, .negSucc 0), (64147901, .ofNat 1)] 0)) .nil) (.node (.leaf (.adef 14197 [(42083, .ofNat 1), (8760889, .negSucc 0), (10804553, .ofNat 1), (11747083, .ofNat 1), (14777941, .ofNat 1), (17688691, .negSucc 0), (19688219, .negSucc 0), (23433209, .ofNat 1), (25413403, .negSucc 0), (30113173, .ofNat 1), (43692931, .negSucc 0)] 0)) .nil)))) (.node (.node (.node (.node (.leaf (.atom 22307)) (.leaf (.adef 21433 [(4664347, .ofNat 1), (8388689, .ofNat 1), (127800769, .negSucc 0), (135672203, .negSucc 0), (380938801, .negSucc 0), (393628093, .ofNat 1), (1222914769, .ofNat 1), (13339392251, .ofNat 1), (20074305431, .ofNat 1)] 0))) (.node (.leaf (.adef 15761 [(38556971, .ofNat 4), (56421059, .ofNat 4), (4474254559, .ofNat 1), (15339398519, .ofNat 2), (19546547329, .negSucc 1), (357599056687, .negSucc 1), (521317447663, .negSucc 1), (651505897057, .ofNat 2), (665669143927, .ofNat 2), (925647256927, .negSucc 1)] 1)) .nil)) (.node (.node (.leaf (.adef 2237 [(67519, .negSucc 0), (18722707, .negSucc 0)] 0)) (.leaf (.trans [(47381, .ofNat 1)] 0))) (.node (.leaf (.adef 26003 [(25017877, .negSucc 0), (27043199, .ofNat 1), (31812097, .ofNat 1), (3787122991, .ofNat 1)] 0)) .nil))) (.node (.node (.node (.leaf (.atom 6011)) (.leaf (.adef 46559 [(22487669, .negSucc 0), (22559623, .negSucc 0), (22654297, .ofNat 1), (24749071, .ofNat 1), (25148689, .negSucc 0)] 0))) (.node (.leaf (.adef 31607 [(2099, .ofNat 1), (903277, .negSucc 0), (1493629, .negSucc 0), (1572673, .negSucc 0), (2110987, .ofNat 1), (2877499, .ofNat 1)] 0)) .nil)) (.node (.node (.leaf (.adef 17923 [(81469757, .ofNat 1), (87067471, .ofNat 1)] 0)) .nil) (.node (.leaf (.adef 33347 [(5257311151003, .ofNat 1)] 0)) .nil))))) (.node (.node (.node (.node (.node (.leaf (.atom 47609)) (.leaf (.adef 27281 [(6607817, .ofNat 1), (7044673, .negSucc 0), (293575603, .negSucc 0), (362679679, .negSucc 0)] 0))) (.node (.leaf (.adef 37337 [(8626867, .ofNat 1), (22964251, .ofNat 1), (94797277, .negSucc 0), (105912211, .negSucc 0), (33583757443, .negSucc 0), (59546822129, .negSucc 0)] 0)) .nil)) (.node (.node (.leaf (.adef 5501 [(23013437, .ofNat 1), (5810002169, .negSucc 0)] 0)) (.leaf (.trans [] 0))) (.node (.leaf (.adef 13999 [(8728493, .ofNat 1), (11762053, .negSucc 0), (18188507, .negSucc 0), (26485561, .ofNat 1)] 0)) .nil))) (.node (.node (.node (.leaf (.adef 8171 [(733069, .negSucc 0), (218798231, .negSucc 0), (20184915239, .ofNat 1), (22189669639, .negSucc 0)] 0)) (.leaf (.adef 34747 [(34130511, .ofNat 2), (87348903, .ofNat 4), (152398359, .ofNat 2), (169144191, .ofNat 1), (279793710783, .negSucc 1)] 0))) (.node (.leaf (.adef 38959 [(38953, .ofNat 1), (11128603, .ofNat 1), (13102549, .ofNat 1), (18901921, .negSucc 0), (22474063, .negSucc 0), (26383111, .negSucc 0), (28240081, .negSucc 0), (30375817, .ofNat 1), (30919027, .ofNat 1), (36660293, .ofNat 1), (68836513, .negSucc 0)] 0)) .nil)) (.node (.node (.leaf (.adef 11779 [(4671661, .negSucc 0), (1500745121, .negSucc 0), (4490520650771, .negSucc 0)] 0)) .nil) (.node (.leaf (.adef 20599 [(27378713, .ofNat 1), (122990941, .negSucc 0), (45442624651, .negSucc 0), (88916739389, .ofNat 1)] 0)) .nil)))) (.node (.node (.node (.node (.leaf (.atom 8081)) (.leaf (.adef 16661 [(45077, .negSucc 0), (3000203, .ofNat 1), (828259909, .negSucc 0), (1016604649, .negSucc 0), (108650075881, .negSucc 0), (134532053387, .ofNat 1), (144198268937, .negSucc 0), (185087068763, .ofNat 1), (187897049849, .negSucc 0), (231612274501, .ofNat 1)] 0))) (.node (.leaf (.adef 38453 [(3133133, .ofNat 1), (410496809, .ofNat 1)] 0)) .nil)) (.node (.node (.leaf (.adef 29389 [(72034577, .ofNat 1), (78027935519, .negSucc 0), (81802941431, .negSucc 0)] 0)) .nil) (.node (.leaf (.adef 32633 [(61272613, .ofNat 1), (94308251, .negSucc 0), (124098209, .ofNat 1), (14926980709, .negSucc 0)] 0)) .nil))) (.node (.node (.node (.leaf (.atom 3947)) (.leaf (.atom 3023))) (.node (.leaf (.adef 40087 [(45403661, .negSucc 0), (45794381, .negSucc 0), (45879637, .ofNat 1), (63558533, .ofNat 1), (63738029, .negSucc 0)] 0)) .nil)) (.node (.node (.leaf (.adef 36761 [(17951291, .ofNat 1), (19790629, .ofNat 1), (21735767, .negSucc 0), (22014761, .negSucc 0), (26052349, .ofNat 1), (29989181, .negSucc 0)] 0)) .nil) (.node (.leaf (.adef 43487 [(2399767, .ofNat 1), (2634913, .negSucc 0)] 0)) .nil)))))

def jac119 : JTree := .node (.node (.node (.node (.node (.leaf (.atom 4813)) (.leaf (.adef 27449 [(713189887, .ofNat 1), (739506857, .ofNat 1), (788344691, .ofNat 1), (817434901, .ofNat 1), (1310185543, .ofNat 1), (1358531873, .ofNat 1), (2364850877, .ofNat 1), (2452970111, .ofNat 1), (3188084899, .ofNat 1), (3733326749, .ofNat 1), (4307517979, .ofNat 1), (6059245463, .negSucc 0), (8143475929, .ofNat 1), (8174252917, .ofNat 1), (9787279027, .ofNat 1), (10232588131, .ofNat 1), (325341019999, .negSucc 0), (325994077967, .ofNat 1), (337601563331, .negSucc 0), (338279231923, .ofNat 1), (378033631279, .ofNat 1), (392399285659, .ofNat 1), (396272913383, .ofNat 1), (411331678643, .ofNat 1), (575065493839, .negSucc 0)] 0))) (.node (.leaf (.adef 37517 [(9088291, .ofNat 1), (9415261, .ofNat 1), (1940434063, .negSucc 0), (2573616761, .ofNat 1)] 0)) .nil)) (.node (.node (.leaf (.adef 7603 [(33303433, .negSucc 0), (37150259, .ofNat 1)] 0)) .nil) (.node (.leaf (.adef 41231 [(12619499, .negSucc 0), (12826783, .ofNat 1), (13461797, .ofNat 1), (13722353, .negSucc 0)] 0)) .nil))) (.node (.node (.node (.leaf (.atom 14759)) (.leaf (.adef 46133 [(22507591, .negSucc 0), (22573913, .negSucc 0), (22749151, .ofNat 1), (24627397, .ofNat 1), (25200667, .negSucc 0)] 0))) (.node (.leaf (.adef 39199 [(116658639, .ofNat 2), (147192399, .ofNat 1), (238479183, .ofNat 1), (243373743, .ofNat 1), (262853950419, .negSucc 1), (305312977377, .negSucc 1), (347314076829, .negSucc 1), (357855575589, .negSucc 0), (415439852913, .negSucc 0), (521170348331007, .ofNat 4)] 0)) .nil)) (.node (.node (.leaf (.adef 23767 [(2311373, .negSucc 0), (298944967, .negSucc 0), (12995361097, .negSucc 0), (51235365029, .ofNat 1), (71245416029, .negSucc 0)] 0)) .nil) (.node (.leaf (.adef 12497 [(41265529, .ofNat 1), (48601043, .negSucc 0), (50296657, .negSucc 0), (17229239999, .ofNat 1)] 0)) .nil)))) (.node (.node (.node (.node (.leaf (.atom 11617)) (.leaf (.adef 34421 [(26515351, .ofNat 1), (33405313, .ofNat 1), (972036937, .ofNat 1), (8283761221, .negSucc 0), (161732992301, .negSucc 0), (177796221901, .ofNat 1)] 0))) (.node (.leaf (.adef 18793 [(5461529, .negSucc 0), (9029117, .negSucc 0), (14126867, .ofNat 1), (15500041, .ofNat 1), (22476173, .negSucc 0), (30735739, .negSucc 0)] 0)) .nil)) (.node (.node (.leaf (.adef 1181 [(4721251, .ofNat 1), (5675209, .negSucc 0), (12804299, .negSucc 0)] 0)) .nil) (.node (.leaf (.adef 32833 [(125427, .ofNat 8), (505520163, .negSucc 3), (690232293, .negSucc 3), (743335731, .negSucc 3), (1369110196863, .ofNat 6)] 1)) .nil))) (.node (.node (.node (.leaf (.atom 3319)) .nil) (.node (.leaf (.adef 25583 [(6090313, .ofNat 1), (6474029, .ofNat 1), (518527057, .negSucc 0), (554344127, .ofNat 1)] 0)) .nil)) (.node (.node (.leaf (.adef 37061 [(724793693, .negSucc 0), (725195263, .ofNat 1), (779277967, .negSucc 0), (779968319, .ofNat 1), (815289319, .ofNat 1), (815649887, .negSucc 0), (913245541, .negSucc 0), (945904609, .negSucc 0), (946422451, .ofNat 1), (954377957, .ofNat 1), (1098355661, .ofNat 1), (6953313092557, .ofNat 1), (7578262666663, .ofNat 1), (7892190041333, .negSucc 0), (10690053778703, .negSucc 0)] 0)) .nil) (.node (.leaf (.adef 7907 [(43781, .ofNat 1), (765097129, .negSucc 0)] 0)) .nil))))

def jac120 : JTree := .node (.node (.node (.node (.node (.node (.node (.node (.leaf (.atom 1607)) (.leaf (.adef 14431 [(9098629, .negSucc 0), (11074493, .ofNat 1), (24172151, .ofNat 1), (26242739, .negSucc 0)] 0))) (.node (.leaf (.adef 8501 [(7848991, .negSucc 0), (8629919, .ofNat 1), (9853219, .ofNat 1), (11653907, .negSucc 0), (11971571, .ofNat 1), (14121619, .negSucc 0), (15333973, .negSucc 0), (17349467, .negSucc 0)] 0)) .nil)) (.node (.node (.leaf (.adef 9661 [(910387, .negSucc 0), (981547297, .ofNat 1), (1003804973, .ofNat 1), (1425357209, .negSucc 0), (1463373677, .ofNat 1)] 0)) .nil) (.node (.leaf (.adef 32063 [(40177, .ofNat 1), (2977613, .negSucc 0), (1273850807, .negSucc 0), (1561471687, .ofNat 1), (2316453317, .negSucc 0), (2852489257, .ofNat 1), (5321448347, .ofNat 1), (5503030943, .ofNat 1), (7798780237, .ofNat 1), (629261697437, .ofNat 1), (647766499013, .ofNat 1), (1055292336977, .ofNat 1)] 0)) .nil))) (.node (.node (.node (.leaf (.atom 1129)) (.leaf (.adef 21871 [(2171227, .ofNat 1), (6892747, .ofNat 1), (45322931, .ofNat 1), (83306389, .ofNat 1), (2865044771, .negSucc 0), (120504817123, .ofNat 1), (174991475531, .negSucc 0)] 0))) (.node (.leaf (.adef 24877 [(35408887, .negSucc 0), (35549977, .negSucc 0), (795215107, .ofNat 1), (987759499, .ofNat 1), (1218678173, .ofNat 1), (1258138367, .ofNat 1), (1387589381, .ofNat 1), (2900819611, .ofNat 2), (3037585853, .ofNat 1), (3368412833, .ofNat 1), (4277876717, .ofNat 2), (8396420293, .ofNat 1), (9944712121, .negSucc 0), (10929568333, .ofNat 1), (121396836853, .ofNat 1), (136060654069, .negSucc 0), (136671796399, .negSucc 0), (148315620623, .ofNat 1), (157311367049, .ofNat 1), (157968978289, .negSucc 0), (161085703973, .negSucc 0), (192193912459, .ofNat 1), (18020798936821, .negSucc 0), (18376349042297, .negSucc 0)] 0)) .nil)) (.node (.node (.leaf (.adef 1109 [(4788997, .negSucc 0), (5791069, .ofNat 1), (13639861, .negSucc 0)] 0)) .nil) (.node (.leaf (.adef 20347 [(20341, .ofNat 1), (6224593, .ofNat 1), (6780677, .ofNat 1), (8464619, .negSucc 0), (11175569, .negSucc 0), (14274703, .ofNat 1), (22706947, .negSucc 0)] 0)) .nil)))) jac115) jac116) jac117) (.node jac118 (.node (.node (.node (.node (.node (.node (.leaf (.atom 617)) (.leaf (.adef 44131 [(13316851, .negSucc 0), (13437241, .ofNat 1), (14226343, .ofNat 1), (14377621, .negSucc 0)] 0))) (.node (.leaf (.adef 24239 [(27007319, .negSucc 0), (109484269, .ofNat 1), (44796724601, .ofNat 1), (79152042701, .negSucc 0)] 0)) .nil)) (.node (.node (.leaf (.adef 22751 [(21276791, .negSucc 0), (83889647, .negSucc 0), (100100327, .ofNat 1), (122729809, .ofNat 1), (127091953, .ofNat 1), (140822371, .ofNat 1)] 0)) (.leaf (.trans [] 0))) (.node (.leaf (.adef 32233 [(121731, .ofNat 2), (682737201, .negSucc 0)] 0)) .nil))) (.node (.node (.node (.leaf (.atom 16921)) (.leaf (.adef 9497 [(1567543, .negSucc 0), (2001157, .ofNat 1), (7640806711, .negSucc 0), (11095623167, .ofNat 1), (15926616647, .negSucc 0)] 0))) (.node (.leaf (.adef 38783 [(5452247, .ofNat 1), (8094143, .ofNat 1)] 0)) .nil)) (.node (.node (.leaf (.adef 35899 [(58648529, .ofNat 1), (58977421, .negSucc 0), (64614547, .negSucc 0), (64884691, .ofNat 1)] 0)) .nil) (.node (.leaf (.adef 42433 [(42409, .ofNat 1), (11469737, .negSucc 0), (13530947, .ofNat 1), (18296899, .ofNat 1), (22763981, .ofNat 1), (23430907, .ofNat 1), (25405909, .negSucc 0), (26589929, .negSucc 0), (30301517, .negSucc 0), (69090353, .negSucc 0), (1696406549371, .ofNat 1)] 0)) .nil)))) (.node (.node (.node (.node (.leaf (.atom 48179)) (.leaf (.adef 21521 [(4595750209, .ofNat 1), (4836622019, .negSucc 0), (3479515632191, .negSucc 0), (3664292352953, .ofNat 1)] 0))) (.node (.leaf (.adef 38113 [(431537, .negSucc 0), (3545987, .ofNat 1), (4088921, .ofNat 1), (163155667, .negSucc 0), (3761536988893, .negSucc 0), (5462328591221, .ofNat 1)] 0)) .nil)) (.node (.node (.leaf (.adef 6571 [(1278521, .ofNat 1), (1366037, .ofNat 1)] 0)) .nil) (.node (.leaf (.adef 41399 [(21891479801, .ofNat 1), (28478621393, .ofNat 1)] 0)) .nil))) (.node (.node (.node (.leaf (.atom 48757)) (.leaf (.adef 47143 [(46452503, .negSucc 0), (50101979, .ofNat 1), (50593801, .negSucc 0), (105089773, .negSucc 0), (105390907, .ofNat 1), (106776773, .negSucc 0)] 0))) (.node (.leaf (.adef 39857 [(3018151, .ofNat 1), (125155441, .ofNat 1)] 0)) .nil)) (.node (.node (.leaf (.adef 15629 [(56429623, .ofNat 2), (4326682571, .negSucc 0), (416478341009, .negSucc 1), (651387648787, .ofNat 1), (905788101787, .negSucc 0)] 1)) .nil) (.node (.leaf (.adef 43063 [(11765137, .negSucc 0), (37817477, .ofNat 1), (856129891, .ofNat 1), (857848403, .negSucc 0), (1770006569, .ofNat 1), (1809576719, .ofNat 1), (2570320993, .negSucc 0), (2638049231, .ofNat 1), (33209170177, .ofNat 1)] 0)) .nil))))) jac119))

def jac121 : JTree := .node (.node (.node jac98 (.node (.node jac99 jac100) jac102)) (.node (.node (.node (.node (.node (.node (.node (.node (.leaf (.atom 2207)) (.leaf (.adef 33721 [(20575913, .ofNat 1), (22081613, .negSucc 0), (23698217, .negSucc 0), (23752361, .ofNat 1)] 0))) (.node (.leaf (.adef 24103 [(2269, .negSucc 0), (162309401, .ofNat 1)] 0)) .nil)) (.node (.node (.leaf (.adef 22697 [(82751477, .ofNat 1), (138764833, .ofNat 1), (157952051, .negSucc 0)] 0)) .nil) (.node (.leaf (.adef 11863 [(3381421877, .ofNat 1), (8694310363, .ofNat 1)] 0)) .nil))) (.node (.node (.node (.leaf (.atom 3301)) (.leaf (.adef 7103 [(76127, .negSucc 0), (29796059, .negSucc 0)] 0))) (.node (.leaf (.adef 38707 [(12165541, .negSucc 0), (14148089, .negSucc 0), (27378077, .ofNat 2), (27427193, .ofNat 2), (30894163, .ofNat 1), (30935153, .ofNat 1), (34268281, .ofNat 1), (37313959, .ofNat 1), (795215107, .ofNat 1), (987759499, .ofNat 1), (1218678173, .ofNat 1), (1258138367, .ofNat 1), (2047831993, .negSucc 0), (4658646007, .negSucc 0), (121396836853, .ofNat 1), (148315620623, .ofNat 1), (157311367049, .ofNat 1), (157968978289, .negSucc 0), (161085703973, .negSucc 0), (192193912459, .ofNat 1), (1086070043221, .negSucc 0), (18020798936821, .negSucc 0), (18376349042297, .negSucc 0), (148771180758931, .negSucc 0), (162250805480263, .ofNat 1)] 0)) .nil)) (.node (.node (.leaf (.adef 29633 [(3377921, .negSucc 0), (3482879, .ofNat 1)] 0)) .nil) (.node (.leaf (.adef 20297 [(7978123, .ofNat 1), (11811959, .ofNat 1), (25650629, .ofNat 1), (67628251, .ofNat 1), (80999657, .ofNat 1), (101623043, .ofNat 1), (117353497, .ofNat 1), (117454109, .ofNat 1), (159387533, .ofNat 1), (164197777, .ofNat 1), (165067537, .ofNat 1), (291531397, .ofNat 1)] 0)) .nil)))) (.node (.node (.node (.node (.leaf (.atom 3083)) (.leaf (.adef 27527 [(7391851, .ofNat 1), (8933321, .ofNat 1)] 0))) (.node (.leaf (.adef 30671 [(5224463, .negSucc 0), (172154669, .negSucc 0), (3547701597061, .negSucc 0)] 0)) .nil)) (.node (.node (.leaf (.adef 17431 [(40158109, .negSucc 0), (43804451, .negSucc 0), (59335609, .ofNat 1), (62264341, .ofNat 1)] 0)) .nil) (.node (.leaf (.adef 4327 [(1515343, .negSucc 0), (1928243, .negSucc 0), (2283643, .ofNat 1)] 0)) .nil))) (.node (.node (.node (.leaf (.atom 14821)) (.leaf (.adef 34961 [(20293367, .ofNat 1), (21430133, .negSucc 0), (22867079, .ofNat 1), (23164187, .negSucc 0)] 0))) (.node (.leaf (.adef 39313 [(2758559, .ofNat 2), (3100399, .ofNat 2), (4042439, .negSucc 1), (6786763, .ofNat 2), (7398059, .ofNat 2), (148713821, .negSucc 1), (497547511, .ofNat 2), (725338039, .ofNat 2), (38313890759, .ofNat 2)] 0)) .nil)) (.node (.node (.leaf (.adef 23801 [(4161517, .ofNat 1), (4321477, .negSucc 0)] 0)) .nil) (.node (.leaf (.adef 42701 [(3615317, .negSucc 0), (4600417, .negSucc 0), (6126283, .ofNat 1)] 0)) .nil))))) jac103) jac105) (.node jac107 jac108))) (.node (.node (.node jac109 (.node jac110 (.node (.node (.node (.node (.node (.leaf (.atom 2689)) (.leaf (.adef 44263 [(127759, .negSucc 0), (2159489, .ofNat 1), (9959839, .ofNat 1)] 0))) (.node (.leaf (.adef 37361 [(11254393, .ofNat 1), (14317517, .ofNat 1)] 0)) .nil)) (.node (.node (.leaf (.adef 29123 [(1920517, .ofNat 1), (40311533, .negSucc 0)] 0)) (.leaf (.trans [(44963, .ofNat 1)] 0))) (.node (.leaf (.adef 41017 [(3804239, .ofNat 1), (5221241, .negSucc 0), (7043051, .negSucc 0), (327790997, .negSucc 0), (404548943, .negSucc 0)] 0)) .nil))) (.node (.node (.node (.leaf (.atom 22549)) (.leaf (.adef 22063 [(276677233, .negSucc 0), (552709997, .negSucc 0), (681669569, .ofNat 1), (118580072989, .ofNat 1), (141926994629, .negSucc 0)] 0))) (.node (.leaf (.adef 25163 [(8233741, .ofNat 1), (251211299, .negSucc 0), (29258615941, .negSucc 0)] 0)) .nil)) (.node (.node (.leaf (.adef 23663 [(5644057, .negSucc 0), (7041149, .negSucc 0)] 0)) .nil) (.node (.leaf (.adef 33203 [(11477019391, .ofNat 1)] 0)) .nil)))) (.node (.node (.node (.node (.leaf (.atom 3823)) (.leaf (.adef 9439 [(45139, .negSucc 0), (274127309, .ofNat 1), (406767391, .ofNat 1), (60147128891, .ofNat 1), (64744015711, .ofNat 1), (75737005261, .ofNat 1), (98836461377, .ofNat 1), (180837885659, .ofNat 1), (193939977409, .ofNat 1), (246033027953, .ofNat 1)] 0))) (.node (.leaf (.adef 38567 [(12236387, .negSucc 0), (12284743, .ofNat 1), (13015031, .ofNat 1), (13181849, .negSucc 0)] 0)) .nil)) (.node (.node (.leaf (.adef 23087 [(23656991, .ofNat 1), (83193193, .ofNat 1), (129517613, .negSucc 0), (135034841, .ofNat 1), (140074927, .ofNat 1), (160666841, .negSucc 0)] 0)) .nil) (.node (.leaf (.adef 32707 [(5857656633173, .ofNat 1)] 0)) .nil))) (.node (.node (.node (.leaf (.atom 48953)) (.leaf (.atom 5683))) (.node (.leaf (.adef 19531 [(111370211, .ofNat 1), (111521519, .negSucc 0), (84320159389, .negSucc 0), (84490259453, .ofNat 1)] 0)) .nil)) (.node (.node (.leaf (.adef 36847 [(3118279, .negSucc 0), (4068499, .ofNat 1)] 0)) .nil) (.node (.leaf (.adef 43597 [(3822503, .ofNat 1), (6648469, .ofNat 1), (331830211, .negSucc 0), (409534009, .negSucc 0)] 0)) .nil))))))) jac114) jac120)

def jac122 : JTree := .node (.node (.node (.node (.node (.leaf (.atom 4201)) (.leaf (.adef 44171 [(13342573, .negSucc 0), (13493503, .ofNat 1), (14153239, .ofNat 1), (14490313, .negSucc 0)] 0))) (.node (.leaf (.adef 18313 [(2118989, .ofNat 1), (3608719, .negSucc 0), (114701927, .negSucc 0), (127603129, .ofNat 1), (141752719, .negSucc 0), (158878231, .negSucc 0), (185299313, .negSucc 0), (254348089, .ofNat 1), (343159507, .ofNat 1), (369352433, .negSucc 0), (475323971, .ofNat 1), (2025648061, .negSucc 0)] 0)) .nil)) (.node (.node (.leaf (.adef 887 [(27722333, .negSucc 0), (38549333, .ofNat 1), (45710363, .negSucc 0), (66637787, .negSucc 0), (4694393513, .ofNat 1), (4921509137, .ofNat 1)] 0)) (.leaf (.trans [] 0))) (.node (.leaf (.adef 16073 [(56882159, .ofNat 2), (4814239541, .negSucc 0), (420636194663, .negSucc 1), (697564483073, .ofNat 1), (969999370073, .negSucc 0)] 1)) .nil))) (.node (.node (.node (.leaf (.atom 8101)) (.leaf (.adef 5393 [(28491, .ofNat 2), (52307667, .negSucc 0)] 0))) (.node (.leaf (.adef 38803 [(6587639, .ofNat 1), (8081393, .negSucc 0), (13913101, .negSucc 0), (1146476327, .negSucc 0), (209607288047, .negSucc 0), (214611079471, .negSucc 0), (219748127303, .negSucc 0), (224994003079, .negSucc 0)] 0)) .nil)) (.node (.node (.leaf (.adef 23567 [(23637671, .ofNat 1), (37311529, .negSucc 0), (37655953, .ofNat 1), (268626073, .ofNat 1), (269027347, .negSucc 0), (290315213, .ofNat 1)] 0)) .nil) (.node (.leaf (.adef 42437 [(12819559, .negSucc 0), (12962107, .ofNat 1), (13024229, .negSucc 0)] 0)) .nil)))) (.node (.node (.node (.node (.leaf (.atom 2267)) (.leaf (.adef 21557 [(33302387, .negSucc 0), (1061314789, .ofNat 1), (2771394671, .ofNat 1), (834267159361, .negSucc 0)] 0))) (.node (.leaf (.adef 18691 [(113835511, .negSucc 0), (174644627, .ofNat 1), (216483517, .ofNat 1), (5178918893, .ofNat 1), (5236542469, .ofNat 1), (5706283823, .ofNat 1), (5769775159, .ofNat 1), (8418373393, .ofNat 1), (8512040969, .ofNat 1), (10373840569, .ofNat 1), (10501389229, .ofNat 1), (14849421793, .ofNat 1), (15026860573, .negSucc 0), (15194057909, .negSucc 0), (15728491843, .ofNat 1), (16304172263, .ofNat 1), (20031480611, .ofNat 1), (24061607489, .ofNat 1), (27395928299, .negSucc 0), (27837359983, .negSucc 0), (32180979517, .ofNat 1), (42989799911, .negSucc 0), (47292536327, .ofNat 1), (47869635607, .ofNat 1), (51080570357, .ofNat 1), (56440698089, .ofNat 1), (77681817649, .ofNat 1), (78620399381, .ofNat 1), (85726930199, .ofNat 1), (92554303091, .ofNat 1), (109282797493, .ofNat 1), (165910974731, .ofNat 1), (179599711747, .ofNat 1), (872241727531, .ofNat 1), (881946781523, .ofNat 1), (890507527081, .negSucc 0), (900415816673, .negSucc 0), (1500982885067, .negSucc 0), (1502210583319, .ofNat 1), (1519907799667, .ofNat 1), (1520327440061, .negSucc 0), (2951499315181, .negSucc 0), (3403914920209, .ofNat 1), (3478617033623, .negSucc 0), (4047463064017, .ofNat 1), (4095145346581, .ofNat 1), (4763061468911, .ofNat 1), (15412447705541, .ofNat 1)] 0)) .nil)) (.node (.node (.leaf (.adef 15373 [(4243, .ofNat 1), (35531, .ofNat 1), (172967, .negSucc 0)] 0)) .nil) (.node (.leaf (.adef 41413 [(26450226137, .negSucc 0), (48952178851, .ofNat 1)] 0)) .nil))) (.node (.node (.node (.leaf (.atom 48779)) (.leaf (.adef 47161 [(24826423, .negSucc 0), (25030319, .ofNat 1), (25201819, .negSucc 0), (32556617, .negSucc 0), (32603377, .ofNat 1), (33074779, .negSucc 0)] 0))) (.node (.leaf (.adef 39863 [(3360187, .ofNat 1), (411660019, .negSucc 0)] 0)) .nil)) (.node (.node (.leaf (.adef 36493 [(16288969, .ofNat 1), (36666419, .ofNat 1)] 0)) .nil) (.node (.leaf (.adef 43103 [(11775727, .negSucc 0), (11782081, .ofNat 1), (14221853, .ofNat 1), (27637517, .negSucc 0), (37943509, .ofNat 1), (1775287609, .ofNat 1), (1775947739, .ofNat 1), (1815653429, .ofNat 1), (2577989873, .negSucc 0), (2578948483, .negSucc 0), (2646908021, .ofNat 1), (236478966083, .ofNat 1), (309223043567, .ofNat 1), (450793604783, .ofNat 1)] 0)) .nil))))

def jac123 : JTree := .node (.node (.node (.node (.node (.node (.leaf (.atom 2137)) (.leaf (.adef 27107 [(8136361859, .ofNat 1), (9722672083, .ofNat 1), (10162256231, .ofNat 1), (15109356919, .ofNat 1), (17100840221, .ofNat 1)] 0))) (.node (.leaf (.adef 18217 [(18211, .ofNat 1), (5887501, .negSucc 0), (6412711, .ofNat 1), (8745277, .ofNat 1), (10453711, .ofNat 1), (11050433, .negSucc 0), (16975159, .negSucc 0), (27747157, .ofNat 1), (30183173, .negSucc 0)] 0)) .nil)) (.node (.node (.leaf (.adef 35491 [(541299823, .ofNat 4), (723600719, .negSucc 3), (789121327, .ofNat 4), (3424880117, .ofNat 2), (491391625961, .negSucc 1), (683305384961, .ofNat 2)] 1)) .nil) (.node (.leaf (.adef 40357 [(10128101, .negSucc 0), (1186883311, .ofNat 1)] 0)) .nil))) (.node (.node (.node (.leaf (.atom 12697)) (.leaf (.adef 45343 [(17723399, .ofNat 1), (26798591, .ofNat 1), (34480553, .ofNat 1)] 0))) (.node (.leaf (.adef 19001 [(108354803, .ofNat 1), (108502943, .negSucc 0), (82037145997, .negSucc 0), (82203344141, .ofNat 1)] 0)) .nil)) (.node (.node (.leaf (.adef 35573 [(64040413, .negSucc 0), (75623453, .ofNat 1)] 0)) .nil) (.node (.leaf (.adef 42089 [(23196323, .negSucc 0), (23385127, .negSucc 0), (23416847, .ofNat 1), (26037007, .ofNat 1), (26201363, .negSucc 0)] 0)) .nil)))) (.node (.node (.node (.node (.leaf (.atom 5867)) (.leaf (.adef 34123 [(52740099, .ofNat 1), (93662841, .ofNat 2), (149333823, .ofNat 2), (165843009, .ofNat 1), (275256747369, .negSucc 1)] 0))) (.node (.leaf (.adef 30781 [(642693, .ofNat 4), (26423307, .negSucc 1), (138195513, .ofNat 2), (149833737, .ofNat 1), (245047149, .ofNat 1), (247627971, .ofNat 1), (3234718017, .negSucc 1), (52336523763, .ofNat 3), (275114416761, .negSucc 1), (310098016737, .negSucc 1), (364730168709, .negSucc 1), (369963656631, .negSucc 0), (430607626173, .negSucc 0), (544917871572849, .ofNat 4)] 0)) .nil)) (.node (.node (.leaf (.adef 1223 [(1743787, .ofNat 2), (1902697, .ofNat 2)] 0)) (.leaf (.trans [(47407, .negSucc 0)] 0))) (.node (.leaf (.adef 20051 [(114385619, .ofNat 1), (114608699, .negSucc 0), (86603172781, .negSucc 0), (86829150113, .ofNat 1)] 0)) .nil))) (.node (.node (.node (.leaf (.atom 6761)) (.leaf (.adef 46573 [(22550881, .negSucc 0), (24043601, .negSucc 0), (24203579, .ofNat 1), (24731689, .ofNat 1), (25102241, .negSucc 0), (30842159, .negSucc 0)] 0))) (.node (.leaf (.adef 39511 [(363697, .ofNat 1), (462797, .ofNat 1), (2444399, .negSucc 0), (2591227, .negSucc 0), (131783461, .ofNat 1), (139657079, .ofNat 1), (167691761, .ofNat 1), (177710779, .ofNat 1)] 0)) .nil)) (.node (.node (.leaf (.adef 36277 [(20936913757, .ofNat 1), (25457283899, .ofNat 1)] 0)) .nil) (.node (.leaf (.adef 26833 [(1381992221, .ofNat 4), (1989821441, .ofNat 2)] 1)) .nil))))) (.node (.node (.node (.node (.node (.leaf (.atom 2087)) (.leaf (.adef 21347 [(1483, .ofNat 1), (483313, .ofNat 1), (545957, .ofNat 1), (1486721, .ofNat 1)] 0))) (.node (.leaf (.adef 18457 [(37647157, .negSucc 0), (45438259, .negSucc 0), (45502351, .ofNat 1), (45538063, .ofNat 1)] 0)) .nil)) (.node (.node (.leaf (.adef 17341 [(385691, .ofNat 4), (651208081, .ofNat 2)] 1)) (.leaf (.trans [] 0))) (.node (.leaf (.adef 14009 [(40927, .ofNat 1), (8552183, .negSucc 0), (10582057, .ofNat 1), (11606071, .negSucc 0), (14644559, .negSucc 0), (17525461, .ofNat 1), (19641071, .ofNat 1), (22850803, .ofNat 1), (24781409, .negSucc 0), (29351939, .ofNat 1), (43567523, .ofNat 1)] 0)) .nil))) (.node (.node (.node (.leaf (.atom 28657)) (.leaf (.adef 45827 [(45767, .ofNat 4), (248203357, .negSucc 3), (254312869, .ofNat 4), (2465346259, .negSucc 3), (2530042379, .negSucc 3), (2589848341, .negSucc 3), (11971784603, .ofNat 4), (30171337783, .ofNat 4), (30280024499, .negSucc 3), (31244728483, .negSucc 3), (98517017327, .negSucc 3), (102121378907, .negSucc 3), (103896706393, .negSucc 3), (106080157801, .negSucc 3), (127155079693, .negSucc 1), (320340852991, .ofNat 4), (327883785001, .negSucc 3), (11809042267411, .ofNat 4), (12229166699311, .negSucc 3), (12398507105927, .ofNat 4), (31534842287111, .negSucc 1)] 1))) (.node (.leaf (.adef 38977 [(27300790339, .ofNat 1), (28621607611, .ofNat 1)] 0)) .nil)) (.node (.node (.leaf (.adef 4721 [(631651, .ofNat 1), (1770319, .ofNat 1)] 0)) .nil) (.node (.leaf (.adef 26597 [(11517277, .ofNat 1), (988406717, .ofNat 1), (2441188979, .ofNat 1), (3492103213, .negSucc 0), (44461742335429, .negSucc 0), (48877657513829, .ofNat 1)] 0)) .nil)))) (.node (.node (.node (.node (.leaf (.atom 1579)) (.leaf (.adef 11489 [(45083, .ofNat 1), (278756329, .ofNat 1), (318661181, .negSucc 0), (122289510307, .ofNat 1), (123927596621, .ofNat 1), (153451265449, .ofNat 1), (188801500807, .negSucc 0), (201616922033, .negSucc 0), (234691880519, .negSucc 0), (310293371021, .negSucc 0)] 0))) (.node (.leaf (.adef 38461 [(30684013, .ofNat 1), (44979709, .ofNat 1), (6320575529, .ofNat 1), (6699052141, .negSucc 0), (7227817273, .negSucc 0), (9021287741, .ofNat 1), (21305413079, .ofNat 1), (41938993427, .ofNat 1)] 0)) .nil)) (.node (.node (.leaf (.adef 23059 [(8767613, .negSucc 0), (208280864993, .ofNat 1), (218357531657, .ofNat 1)] 0)) .nil) (.node (.leaf (.adef 26251 [(6017261, .ofNat 1), (7516277, .negSucc 0), (8782043, .negSucc 0), (69530099, .ofNat 1), (11173235917, .ofNat 1), (15332607529, .negSucc 0), (23207068189, .negSucc 0)] 0)) .nil))) (.node (.node (.node (.leaf (.atom 3967)) (.leaf (.atom 1877))) (.node (.leaf (.adef 11839 [(10822374781, .ofNat 1), (11345963269, .ofNat 1)] 0)) .nil)) (.node (.node (.leaf (.adef 15649 [(33682871, .negSucc 0), (34152089, .ofNat 1), (34465279, .ofNat 1), (34614109, .negSucc 0)] 0)) .nil) (.node (.leaf (.adef 33617 [(2526229, .ofNat 1), (3025753, .negSucc 0)] 0)) .nil)))))

def jac124 : JTree := .node (.node (.node (.node (.leaf (.atom 541)) (.leaf (.adef 33751 [(20593037, .ofNat 1), (22254689, .negSucc 0), (23743991, .negSucc 0), (23808227, .ofNat 1)] 0))) (.node (.leaf (.adef 13591 [(5455780283, .negSucc 0), (6835290457, .negSucc 0), (6859776877, .ofNat 1), (7146766751, .ofNat 1), (7181590309, .negSucc 0), (12337199933, .ofNat 1), (12606594529, .ofNat 1), (12792447163, .ofNat 1), (13071782519, .ofNat 1), (17709117247, .ofNat 1), (18095812811, .ofNat 1), (3256638492097, .negSucc 0), (3376809654167, .negSucc 0), (4497306433261, .ofNat 1), (4663258700171, .ofNat 1), (4674658204523, .negSucc 0), (6455543182799, .ofNat 1), (104345690776637, .ofNat 1), (128780043676103, .ofNat 1), (135743286823541, .ofNat 1), (186275359888817, .negSucc 0), (661304976594401, .negSucc 0), (685707374254711, .negSucc 0), (735300382237823, .negSucc 0), (762433237670953, .negSucc 0), (949253268986059, .negSucc 0), (1055468076348757, .negSucc 0)] 0)) .nil)) (.node (.node (.leaf (.adef 3637 [(284234531, .negSucc 0), (364655641, .negSucc 0), (493606393, .ofNat 1), (90553237453, .ofNat 1), (108949931881, .negSucc 0), (534140651233, .ofNat 1), (744853355953, .ofNat 1), (979078378061, .negSucc 0), (148990681132391, .negSucc 0), (179259461250107, .ofNat 1)] 0)) .nil) (.node (.leaf (.adef 13931 [(40189, .ofNat 1), (40193, .ofNat 1), (2398232113, .ofNat 1), (2477378843, .ofNat 1), (4003633001, .ofNat 1), (4416324863, .ofNat 1), (7793104867, .ofNat 1), (8246416649, .ofNat 1), (8535822107, .ofNat 1), (8613826973, .ofNat 1), (11552389399, .ofNat 1), (12000952319, .ofNat 1), (12331077389, .ofNat 1), (14307914501, .ofNat 1)] 0)) .nil))) (.node (.node (.node (.leaf (.atom 397)) (.leaf (.adef 34469 [(911623, .ofNat 1), (4025213, .ofNat 1), (306878791, .negSucc 0), (327903889, .ofNat 1)] 0))) (.node (.leaf (.adef 31177 [(8622277, .ofNat 1), (8649701, .ofNat 1), (13570873, .negSucc 1), (13613147, .negSucc 1), (25624867, .ofNat 1), (25786441, .ofNat 1), (30752047, .ofNat 1), (30882959, .ofNat 1), (34260451, .ofNat 1), (37243841, .ofNat 1), (879996179, .ofNat 2), (1087569341, .ofNat 2), (1325488477, .ofNat 1), (1563741911, .negSucc 1), (1566595267, .ofNat 1), (1711349491, .ofNat 1), (1760779187, .negSucc 1), (1816823717, .ofNat 1), (3084220687, .ofNat 1), (3467939353, .ofNat 1), (3566775169, .ofNat 1), (4852021193, .ofNat 2), (5020586143, .ofNat 2), (5069234327, .ofNat 2), (5220636511, .ofNat 2), (5845373851, .ofNat 2), (10539741733, .negSucc 1), (68954831041, .ofNat 2), (82516658023, .negSucc 3), (83200587781, .ofNat 2), (85561553153, .negSucc 3), (87743613341, .ofNat 2), (88114699483, .ofNat 2), (108387584677, .ofNat 2), (122321363383, .ofNat 2), (135151171781, .negSucc 3), (135637044629, .ofNat 2), (139485988177, .negSucc 3), (149883769169, .ofNat 2), (177524265119, .ofNat 2), (377514117779, .ofNat 2), (447025818263, .negSucc 0), (487926263207, .ofNat 1), (795643766803, .negSucc 3), (875563024799, .negSucc 3), (3304777098901, .negSucc 1), (11257707205271, .ofNat 2), (11673120755281, .ofNat 2), (14325202356571, .ofNat 2), (206947079383703, .negSucc 1), (19091604338970407, .ofNat 2), (20987771716857607, .negSucc 1)] 0)) .nil)) (.node (.node (.leaf (.adef 3011 [(128450188993, .ofNat 1), (13514931938641, .negSucc 0), (1951423925146591, .negSucc 0), (2833766816967527, .ofNat 1), (320435890862246117, .ofNat 1), (55693537817541100351, .ofNat 1), (67194390818541436513, .ofNat 1)] 0)) .nil) (.node (.leaf (.adef 20359 [(20357, .ofNat 1), (6216619, .ofNat 1), (6763079, .ofNat 1), (8482433, .negSucc 0), (10629977, .negSucc 0), (11182027, .negSucc 0), (30572869, .ofNat 1)] 0)) .nil)))

def jac125 : JTree := .node (.node (.node (.node (.node (.leaf (.atom 1087)) (.leaf (.adef 44189 [(137297, .ofNat 1), (8023783379, .negSucc 0)] 0))) (.node (.leaf (.adef 24281 [(5700319, .ofNat 1), (6079477, .negSucc 0), (422755051, .negSucc 0), (522691699, .negSucc 0), (737886997, .negSucc 0), (825088003, .negSucc 0)] 0)) .nil)) (.node (.node (.leaf (.adef 17321 [(42596083, .ofNat 2), (43596587, .negSucc 3), (57081919, .ofNat 4), (62104937, .ofNat 4)] 1)) (.leaf (.trans [] 0))) (.node (.leaf (.adef 19813 [(295716379, .ofNat 1), (305282999, .ofNat 1), (450109143659, .ofNat 1)] 0)) .nil))) (.node (.node (.node (.leaf (.atom 14741)) (.leaf (.adef 45673 [(3066929, .ofNat 1), (5194859, .ofNat 1)] 0))) (.node (.leaf (.adef 38891 [(33236821, .ofNat 1), (56223529, .ofNat 1), (59130059, .negSucc 0)] 0)) .nil)) (.node (.node (.leaf (.adef 13421 [(371366747, .negSucc 0), (385070317, .negSucc 0), (403527247, .ofNat 1), (721972997, .ofNat 1), (748614067, .ofNat 1), (818422439, .negSucc 0), (842824937, .negSucc 0), (2048470499, .ofNat 1), (2384680087, .ofNat 1), (4693876529, .ofNat 1), (5812087013, .ofNat 1), (5933069339, .ofNat 1), (10501013959, .negSucc 0), (10888505249, .negSucc 0), (44910717913, .negSucc 0), (126162974401, .ofNat 1), (138108103187, .negSucc 0), (140853978791, .negSucc 0), (156424050539, .ofNat 1), (4622882722201, .negSucc 0), (4837344908723, .negSucc 0), (4933521360839, .negSucc 0), (5731713634739, .negSucc 0)] 0)) .nil) (.node (.leaf (.adef 26539 [(42491, .ofNat 1), (11480129, .negSucc 0), (13127573, .ofNat 1), (13545671, .ofNat 1), (17450057, .negSucc 0), (18430331, .ofNat 1), (26736713, .negSucc 0), (68958583, .negSucc 0)] 0)) .nil)))) (.node (.node (.node (.node (.leaf (.atom 1741)) (.leaf (.adef 21649 [(700735966397, .ofNat 1)] 0))) (.node (.leaf (.adef 38303 [(2917133, .ofNat 1), (3181427, .negSucc 0), (133141361, .ofNat 1), (3073626209999, .negSucc 0), (4463376639703, .ofNat 1)] 0)) .nil)) (.node (.node (.leaf (.adef 4139 [(1303277, .ofNat 2), (40712663, .ofNat 2), (147671081, .ofNat 2), (214441057, .negSucc 1)] 0)) .nil) (.node (.leaf (.adef 6323 [(26177, .ofNat 1), (3793631, .negSucc 0), (257886457, .ofNat 1), (415323827, .ofNat 1), (113832241469, .negSucc 0), (116139988403, .negSucc 0), (970673302147, .negSucc 0)] 0)) .nil))) (.node (.node (.node (.leaf (.atom 8219)) (.leaf (.adef 47459 [(26477191, .negSucc 0), (28000219, .negSucc 0), (28017977, .ofNat 1), (9666850817, .negSucc 0), (10071466717, .negSucc 0), (1505293467379, .ofNat 1), (1568299060679, .ofNat 1), (1654798365779, .negSucc 0), (1724061639079, .negSucc 0)] 0))) (.node (.leaf (.adef 40031 [(778523759, .negSucc 0), (778684387, .ofNat 1), (837181241, .negSucc 0), (837785299, .ofNat 1), (875323891, .ofNat 1), (875414033, .negSucc 0), (982486531, .negSucc 0), (1018969289, .negSucc 0), (1019829889, .ofNat 1), (1029856139, .ofNat 1), (1177645313, .ofNat 1), (1177766551, .ofNat 1), (6996090176179, .ofNat 1), (7624884467161, .ofNat 1), (7940743136651, .negSucc 0), (10755819453041, .negSucc 0)] 0)) .nil)) (.node (.node (.leaf (.adef 17989 [(17987, .ofNat 1), (5945503, .ofNat 1), (6519221, .ofNat 1), (8344877, .ofNat 1), (10967909, .ofNat 1), (14052949, .negSucc 0), (15060553, .negSucc 0), (22087501, .ofNat 1), (29079913, .ofNat 1)] 0)) .nil) (.node (.leaf (.adef 33587 [(2517839, .ofNat 1), (3022037, .negSucc 0)] 0)) .nil))))

def jac126 : JTree := .node (.node (.leaf (.atom 9551)) (.leaf (.adef 11941 [(35423, .ofNat 1), (4897691, .ofNat 1), (72167233, .ofNat 1), (86584109, .ofNat 1), (108596437, .ofNat 1)] 0))) (.node (.leaf (.adef 37987 [(9889963, .ofNat 1), (9921419, .ofNat 1), (19152799, .ofNat 1), (19212461, .ofNat 1), (20073491, .ofNat 1), (26770559, .ofNat 1), (26939357, .ofNat 1), (28817419, .ofNat 1), (30225857, .ofNat 1), (30354529, .ofNat 1), (33758083, .ofNat 1), (37040951, .ofNat 1), (50799289, .ofNat 1), (51291521, .ofNat 1), (58557269, .ofNat 1), (58629157, .ofNat 1), (80887861, .negSucc 0), (93179833, .ofNat 1), (827008087, .ofNat 1), (1104498319, .ofNat 1), (1114993457, .ofNat 1), (1144662157, .ofNat 1), (1145257181, .ofNat 1), (1243581517, .ofNat 1), (1258349357, .negSucc 0), (1266739907, .ofNat 1), (1561404727, .ofNat 1), (1769741663, .ofNat 1), (1916649487, .ofNat 1), (2140189967, .ofNat 1), (2510244929, .ofNat 2), (2826545093, .ofNat 2), (3526655141, .ofNat 1), (3794657179, .ofNat 1), (3946528459, .ofNat 1), (4636484081, .ofNat 1), (5072032991, .ofNat 1), (5128946573, .ofNat 1), (5553615427, .ofNat 1), (5881872973, .ofNat 1), (6121937681, .ofNat 1), (6344619131, .ofNat 2), (6418404607, .ofNat 1), (6581013847, .ofNat 1), (7587134761, .ofNat 1), (10704938329, .ofNat 1), (64777332979, .ofNat 1), (67167640469, .ofNat 1), (79092880879, .ofNat 1), (86772936869, .ofNat 1), (89974890259, .ofNat 1), (90070944539, .ofNat 1), (95433112939, .ofNat 1), (100644074579, .ofNat 1), (101069719477, .ofNat 1), (105469117297, .ofNat 1), (110841885629, .ofNat 1), (114613436239, .ofNat 1), (116457133249, .ofNat 1), (120754444439, .ofNat 1), (124323215563, .ofNat 1), (144396627293, .ofNat 1), (149206270253, .ofNat 2), (153527644163, .ofNat 1), (153663233813, .ofNat 1), (154712036683, .ofNat 2), (155579013851, .ofNat 1), (179119611821, .ofNat 1), (190741098803, .ofNat 1), (192406977821, .ofNat 1), (195275404679, .ofNat 1), (196858897351, .ofNat 1), (203624682161, .ofNat 1), (236194680577, .ofNat 1), (244061984017, .ofNat 2), (250013429467, .ofNat 2), (510410671207, .negSucc 0), (545667104777, .ofNat 1), (841929991417, .ofNat 1), (1045929246539, .ofNat 1), (1122905294389, .ofNat 1), (1235696673737, .ofNat 1), (1428473645063, .ofNat 1), (1503338215927, .ofNat 1), (1546591626161, .ofNat 2), (1632013962811, .negSucc 0), (1641814582949, .ofNat 2), (1830289664537, .ofNat 1), (2120457656129, .negSucc 0), (2387724660589, .negSucc 0), (2450944962247, .ofNat 1), (2794221670901, .negSucc 0), (12912866024249, .ofNat 1), (13389355545439, .ofNat 1), (15258864901153, .ofNat 1), (15821922646583, .ofNat 1), (16431358128949, .ofNat 1), (19416593757053, .ofNat 1), (27668786509097, .ofNat 1), (29065277006383, .ofNat 1), (30027904761397, .ofNat 1), (32398932915931, .ofNat 1), (38459497544539, .ofNat 1), (43551001233329, .ofNat 1), (44772494933423, .ofNat 1), (49145897644057, .ofNat 1), (98860825091911, .ofNat 1), (103455650595547, .ofNat 1), (115901372644961, .negSucc 0), (157018844819677, .negSucc 0), (183750440817893, .negSucc 0)] 0)) .nil)

def jac127 : JTree := .node (.node (.node (.node (.node (.node (.leaf (.atom 1361)) (.leaf (.adef 33791 [(22182659, .negSucc 0), (22313323, .ofNat 1), (23631947, .ofNat 1), (23660941, .negSucc 0)] 0))) (.node (.leaf (.adef 9743 [(24125869, .negSucc 0), (25383119, .negSucc 0), (53771981, .ofNat 1)] 0)) .nil)) (.node (.node (.leaf (.adef 10891 [(8178197, .ofNat 1), (10477847, .negSucc 0), (6237336697, .negSucc 0)] 0)) (.leaf (.trans [(15497, .ofNat 1)] 0))) (.node (.leaf (.adef 32141 [(6749893, .negSucc 0), (7050779, .negSucc 0)] 0)) .nil))) (.node (.node (.node (.leaf (.atom 28597)) (.leaf (.adef 11527 [(1005929, .ofNat 1), (4154257, .negSucc 0), (341853067, .negSucc 0), (357543301, .ofNat 1), (359248013, .negSucc 0), (363543769, .ofNat 1), (1801483181, .ofNat 1), (1939165801, .ofNat 1), (2268419851, .ofNat 1), (2278223693, .negSucc 0), (2317019027, .negSucc 0), (2664205969, .negSucc 0), (2960278007, .ofNat 1)] 0))) (.node (.leaf (.adef 10273 [(6618331, .ofNat 1), (6658571, .ofNat 1), (8834503, .ofNat 1), (10249171, .ofNat 1), (406337381, .ofNat 1), (679701107, .ofNat 1)] 0)) .nil)) (.node (.node (.leaf (.adef 35797 [(67985707, .ofNat 1), (76110583, .ofNat 1), (100703201, .negSucc 0), (102670879, .negSucc 0)] 0)) .nil) (.node (.leaf (.adef 26479 [(5148743, .negSucc 0), (7834163, .negSucc 0), (10453783, .ofNat 1)] 0)) .nil)))) (.node (.node jac126 (.node (.node (.leaf (.adef 23017 [(11656413, .ofNat 2), (56437299, .ofNat 2), (65152089, .ofNat 1), (95556466989, .negSucc 1)] 0)) .nil) (.node (.leaf (.adef 10313 [(6789703, .ofNat 1), (6980599, .ofNat 1), (7022927, .ofNat 1), (9319727, .ofNat 1), (551418089, .ofNat 1), (4995008862967, .negSucc 0)] 0)) .nil))) (.node (.node (.node (.leaf (.atom 10771)) (.leaf (.adef 46811 [(23554919, .negSucc 0), (23605651, .negSucc 0), (23731913, .ofNat 1), (27060877, .ofNat 1), (27262073, .negSucc 0), (33721291, .negSucc 1)] 0))) (.node (.leaf (.adef 31687 [(2525483, .ofNat 1), (2982241, .ofNat 1), (3180607, .ofNat 1), (3238657, .negSucc 0), (3784453, .negSucc 0), (100604519, .ofNat 1), (158241691, .ofNat 2), (325683581, .ofNat 1), (401948039, .ofNat 1)] 0)) .nil)) (.node (.node (.leaf (.adef 23977 [(36343, .ofNat 1), (1304649109, .ofNat 1)] 0)) .nil) (.node (.leaf (.adef 33427 [(145296243, .ofNat 2), (162687897, .ofNat 1), (272460266433, .negSucc 1)] 0)) .nil))))) (.node (.node (.node (.node (.node (.leaf (.atom 10429)) (.leaf (.adef 44281 [(12635549, .ofNat 1), (16082039, .ofNat 1)] 0))) (.node (.leaf (.adef 4391 [(1475707, .negSucc 0), (1877807, .negSucc 0), (2383267, .ofNat 1)] 0)) .nil)) (.node (.node (.leaf (.adef 6521 [(692975609, .negSucc 1), (3460705471, .ofNat 1), (150966647999, .ofNat 2), (494897083859, .ofNat 1), (688179904859, .negSucc 0)] 1)) (.leaf (.trans [(46523, .negSucc 0)] 0))) (.node (.leaf (.adef 19919 [(41117, .ofNat 1), (77837731, .ofNat 1), (78240949, .ofNat 1), (78391367, .negSucc 0), (84774149, .ofNat 1), (84847261, .negSucc 0), (86629813, .ofNat 1), (102701663, .ofNat 1), (107842159, .ofNat 1), (113444021, .ofNat 1), (115626391, .ofNat 1)] 0)) .nil))) (.node (.node (.node (.leaf (.atom 28753)) (.leaf (.adef 11549 [(2163517, .ofNat 1), (2367737, .negSucc 0), (11349959, .ofNat 1), (2135589403, .negSucc 0), (2259813041, .negSucc 0), (3165767791, .negSucc 0), (3288690071, .negSucc 0)] 0))) (.node (.leaf (.adef 39113 [(496886101, .negSucc 0), (755620337, .negSucc 0)] 0)) .nil)) (.node (.node (.leaf (.adef 29837 [(11252346907, .ofNat 1)] 0)) .nil) (.node (.leaf (.adef 26641 [(6410021, .ofNat 1), (6832171, .negSucc 0), (6948673, .negSucc 0), (7378321, .negSucc 0), (133792517, .ofNat 1), (143034187, .negSucc 0), (490851611, .negSucc 0), (594420061, .negSucc 0)] 0)) .nil)))) (.node (.node (.node (.node (.leaf (.atom 10039)) (.leaf (.adef 45233 [(9520213, .negSucc 0), (15270599, .negSucc 0), (19558601, .ofNat 1)] 0))) (.node (.leaf (.adef 38669 [(1056014629, .ofNat 1), (2046487097, .negSucc 0)] 0)) .nil)) (.node (.node (.leaf (.adef 23159 [(136089847, .ofNat 1), (2526519356419, .negSucc 0), (6077570378051, .ofNat 1)] 0)) .nil) (.node (.leaf (.adef 32749 [(7284127, .ofNat 4), (510254791, .ofNat 2), (2182346489, .ofNat 1), (4267426663, .ofNat 2)] 1)) .nil))) (.node (.node (.node (.leaf (.atom 2897)) (.leaf (.atom 3803))) (.node (.leaf (.adef 19577 [(2667781, .ofNat 1), (2761519, .ofNat 1), (120418481, .negSucc 0), (12249094289, .ofNat 1), (4057090328237, .negSucc 0), (4253373106613, .negSucc 0)] 0)) .nil)) (.node (.node (.leaf (.adef 36923 [(4738511, .negSucc 0), (7260499, .negSucc 0), (9851201, .ofNat 1), (11446931, .ofNat 1), (12556787, .negSucc 0)] 0)) .nil) (.node (.leaf (.adef 43661 [(13121981, .negSucc 0), (13168289, .ofNat 1), (13982623, .ofNat 1), (14135423, .negSucc 0)] 0)) .nil)))))

def jac128 : JTree := .node (.node (.node (.node (.node (.node (.node (.node (.leaf (.atom 317)) (.leaf (.adef 27031 [(6953995337, .ofNat 1), (7270208503, .ofNat 1)] 0))) (.node (.leaf (.adef 10181 [(41467721, .ofNat 1), (12542225777, .negSucc 0), (22238419531, .negSucc 0)] 0)) .nil)) (.node (.node (.leaf (.atom 3331)) .nil) (.node (.leaf (.adef 25603 [(2329909, .negSucc 0), (300952151, .negSucc 0), (13125098479, .negSucc 0), (51579370837, .ofNat 1), (71723773837, .negSucc 0)] 0)) .nil))) (.node (.node (.node (.leaf (.atom 12049)) (.leaf (.adef 9461 [(2351623, .negSucc 0), (2392241, .ofNat 1), (5785531, .ofNat 1), (5825159, .negSucc 1)] 0))) (.node (.leaf (.adef 18803 [(28703318099, .ofNat 1)] 0)) .nil)) (.node (.node (.leaf (.adef 29587 [(50372243, .negSucc 0), (50413901, .ofNat 1), (69582599, .ofNat 1), (69784873, .negSucc 0)] 0)) .nil) (.node (.leaf (.adef 41843 [(56463731, .negSucc 3), (4960150751, .ofNat 2), (6926319721, .negSucc 1), (15521055581, .ofNat 2), (19766819201, .negSucc 1), (472447576009, .negSucc 3), (710590937731, .ofNat 1), (988113326731, .negSucc 0)] 1)) .nil)))) (.node (.node (.node (.node (.leaf (.atom 4861)) (.leaf (.adef 44453 [(77057, .ofNat 1), (36090767, .ofNat 1)] 0))) (.node (.leaf (.adef 37547 [(19675516607, .negSucc 0), (24780077027, .ofNat 1), (11724772541341, .ofNat 1), (13617772175899, .negSucc 0), (14987182904821, .ofNat 1), (469518435370343, .negSucc 0), (523751754940189, .ofNat 1)] 0)) .nil)) (.node (.node (.leaf (.adef 29201 [(45029057, .ofNat 1), (2674635167, .ofNat 1)] 0)) .nil) (.node (.leaf (.adef 41243 [(12628073, .negSucc 0), (12880489, .ofNat 1), (13431337, .ofNat 1), (13829909, .negSucc 0)] 0)) .nil))) (.node (.node (.node (.leaf (.atom 14779)) (.leaf (.adef 46141 [(44346157, .negSucc 0), (49590127, .negSucc 0), (50144833, .ofNat 1), (61521737, .ofNat 1), (62624827, .negSucc 0)] 0))) (.node (.leaf (.adef 31469 [(117627, .ofNat 8), (503235639, .negSucc 3), (683685657, .negSucc 3), (738768897, .negSucc 3), (1355569096221, .ofNat 6)] 1)) .nil)) (.node (.node (.leaf (.adef 36037 [(5431963, .ofNat 1), (7902781, .negSucc 0)] 0)) .nil) (.node (.leaf (.adef 26701 [(4635823, .negSucc 0), (4781123, .negSucc 0)] 0)) .nil))))) jac122) jac123) (.node (.node (.node jac124 (.node (.node (.node (.node (.leaf (.atom 7459)) (.leaf (.adef 34019 [(95287723, .negSucc 0), (10385521831, .ofNat 1)] 0))) (.node (.leaf (.adef 30689 [(7064117, .ofNat 4), (581205631, .ofNat 2), (2464326311, .ofNat 1), (7144321091, .ofNat 2)] 1)) .nil)) (.node (.node (.leaf (.adef 3697 [(287240051, .ofNat 1), (351775669, .ofNat 1), (367839283, .ofNat 1), (500012639, .negSucc 0), (16282560119, .ofNat 1), (93562589477, .negSucc 0), (109593621473, .negSucc 0), (112329623273, .ofNat 1), (117533023307, .negSucc 0), (173097985571, .ofNat 1), (539924524013, .negSucc 0), (752918903933, .negSucc 0), (989680201321, .ofNat 1), (150604007403451, .ofNat 1), (181200549081727, .negSucc 0), (3124458956784277, .ofNat 1), (3759220543421329, .negSucc 0)] 0)) (.leaf (.trans [] 0))) (.node (.leaf (.adef 32491 [(20059339, .ofNat 1), (21542701, .negSucc 0), (22884457, .negSucc 0), (22885021, .ofNat 1)] 0)) .nil))) (.node (.node (.node (.leaf (.atom 6007)) (.leaf (.adef 46327 [(47372779, .negSucc 0), (49877573, .negSucc 0), (50403853, .ofNat 1), (65876329, .ofNat 1), (66896447, .negSucc 0)] 0))) (.node (.leaf (.adef 39371 [(11061961, .negSucc 0), (11069021, .ofNat 1), (27569569, .ofNat 1), (27621283, .negSucc 0), (29677423, .ofNat 1), (33554947, .negSucc 0), (33589741, .ofNat 1), (33635387, .ofNat 1), (33675221, .ofNat 1), (37483729, .negSucc 0), (1597979483, .ofNat 1), (1598406617, .negSucc 0), (1667026289, .ofNat 1), (1667554393, .ofNat 1), (1704382117, .ofNat 1), (1704652193, .ofNat 1), (2420777833, .negSucc 0), (2421544721, .negSucc 0), (2484693733, .ofNat 1), (2485087457, .ofNat 1), (244019123521, .ofNat 1), (244133893039, .ofNat 1), (250055651059, .negSucc 0), (250251297449, .negSucc 0)] 0)) .nil)) (.node (.node (.leaf (.adef 13499 [(23801, .ofNat 1), (11468669, .negSucc 0), (743629921, .ofNat 1), (909787189, .negSucc 0), (1317782239, .ofNat 1), (2568653611, .negSucc 0), (3005634371, .negSucc 0), (3409067147, .negSucc 0), (4442173019, .negSucc 0), (368500923871, .negSucc 0), (397244772679, .negSucc 0), (1031237924993, .negSucc 0)] 0)) .nil) (.node (.leaf (.adef 26731 [(21112661, .ofNat 1), (11104906093, .ofNat 1)] 0)) .nil))))) jac125) jac127)

def jac129 : JTree := .node (.node (.node (.node (.node (.leaf (.atom 1063)) (.leaf (.adef 16493 [(6228751117, .ofNat 1), (6233500121, .ofNat 1), (6516396793, .ofNat 1), (6977127691, .ofNat 1), (1666211703049, .negSucc 0), (1742859365207, .ofNat 1), (27596440847873033, .ofNat 1), (34058626007867627, .ofNat 1), (35900203999228769, .ofNat 1), (49264487228244653, .negSucc 0)] 0))) (.node (.leaf (.adef 3529 [(33528991, .negSucc 0), (41787943, .ofNat 1)] 0)) .nil)) (.node (.node (.leaf (.adef 28837 [(55838353309, .ofNat 1), (58539823141, .ofNat 1)] 0)) .nil) (.node (.leaf (.adef 13921 [(7028453, .ofNat 1), (13933091, .ofNat 1), (3082804481, .ofNat 1), (4224625481, .ofNat 1), (5956938259, .negSucc 1)] 0)) .nil))) (.node (.node (.node (.leaf (.atom 28573)) (.leaf (.adef 21841 [(2144761, .ofNat 1), (3670847, .negSucc 0), (1877181513059, .negSucc 0), (1967999900891, .negSucc 0)] 0))) (.node (.leaf (.adef 15823 [(552600707, .negSucc 0), (572991877, .negSucc 0), (905085529, .negSucc 0), (934115093, .negSucc 0), (1219572961, .ofNat 1), (1633804279, .negSucc 0), (4989097291, .ofNat 1), (5343242503, .ofNat 1), (5834141641, .ofNat 1), (6102698963, .ofNat 1), (6170938093, .ofNat 1), (6907066739, .ofNat 1), (79790567669, .ofNat 2), (80451902543, .negSucc 0), (82734869059, .ofNat 2), (104806800431, .negSucc 0), (115953972427, .ofNat 1), (137364095993, .negSucc 0), (141216805991, .negSucc 0), (143458322197, .negSucc 0), (143746286501, .ofNat 1), (148173076201, .ofNat 1), (175783472771, .negSucc 0), (176136323443, .ofNat 1), (316191137243, .negSucc 1), (373525543823, .ofNat 2), (12620609242781, .ofNat 1), (13086314380891, .ofNat 1), (13229525575237, .ofNat 1), (13717699950707, .ofNat 1), (16059467347081, .ofNat 1), (16834300936337, .ofNat 1)] 0)) .nil)) (.node (.node (.leaf (.adef 23279 [(5011553874347, .negSucc 0), (5171304316793, .ofNat 1)] 0)) .nil) (.node (.leaf (.adef 41911 [(11540629, .negSucc 0), (27540419, .ofNat 1), (28680577, .ofNat 1), (28685051, .ofNat 1), (29833343, .ofNat 1), (29845037, .ofNat 1), (33783041, .negSucc 0), (33834557, .ofNat 1), (33856687, .ofNat 1), (37334683, .ofNat 1), (37363853, .ofNat 1), (38173433, .negSucc 0), (1735943861, .ofNat 1), (1736736017, .ofNat 1), (1773521573, .ofNat 1), (1775277067, .ofNat 1), (2520856717, .negSucc 0), (2522007049, .negSucc 0), (2585487077, .ofNat 1), (2588046283, .ofNat 1), (263191356931, .ofNat 1)] 0)) .nil)))) (.node (.node (.node (.node (.leaf (.atom 9511)) (.leaf (.adef 27487 [(7385933, .negSucc 0), (8926483, .ofNat 1)] 0))) (.node (.leaf (.adef 7333 [(3919291, .ofNat 1), (4206977, .negSucc 0), (129900907, .negSucc 0), (156202801, .negSucc 0), (180633907, .ofNat 1), (216362753, .negSucc 0), (3640498588691, .negSucc 0), (3808499737979, .negSucc 0), (5286562271227, .ofNat 1), (5552132550971, .negSucc 0)] 0)) .nil)) (.node (.node (.leaf (.adef 17401 [(6137611, .negSucc 0), (6138317, .ofNat 1), (222529823, .ofNat 1), (323147431, .negSucc 0), (385773191, .ofNat 1), (1007292367, .ofNat 1), (1029057079, .ofNat 1), (1462742999, .negSucc 0), (1500186871, .ofNat 1), (21236008361, .ofNat 1), (30958419689, .ofNat 1), (92140794701, .ofNat 1), (95651520071, .negSucc 0)] 0)) .nil) (.node (.leaf (.adef 8971 [(8841149, .ofNat 1), (11780861, .negSucc 0), (18446849, .ofNat 1), (26765483, .negSucc 0)] 0)) .nil))) (.node (.node (.node (.leaf (.atom 10663)) (.leaf (.adef 34939 [(19993697, .ofNat 1), (21320477, .negSucc 0), (22237741, .ofNat 1), (22404353, .negSucc 0)] 0))) (.node (.leaf (.adef 39293 [(2929583, .ofNat 1), (6515507, .ofNat 1), (486449797, .ofNat 1), (706399709, .negSucc 0), (39187971917, .negSucc 0)] 0)) .nil)) (.node (.node (.leaf (.adef 12263 [(37591109, .ofNat 1), (44291747, .negSucc 0), (45138103, .negSucc 0), (15701579471, .ofNat 1)] 0)) .nil) (.node (.leaf (.adef 16411 [(42697, .ofNat 1), (2992673, .negSucc 0), (764134537, .ofNat 1), (933686659, .ofNat 1), (2330393749, .ofNat 1), (2860320889, .ofNat 1), (3167153711, .ofNat 1), (4203384847, .ofNat 1), (5477205919, .ofNat 1), (378519656507, .negSucc 0), (520761349643, .negSucc 0), (651664762261, .negSucc 0)] 0)) .nil))))

def jac130 : JTree := .node (.node (.node (.node (.node (.leaf (.atom 487)) (.leaf (.adef 9397 [(16811, .ofNat 1), (2405933, .ofNat 1), (2450731, .ofNat 1), (5750831, .ofNat 1), (5794447, .ofNat 1), (26401937, .ofNat 1)] 0))) (.node (.leaf (.adef 10243 [(6368491, .ofNat 1), (6410083, .ofNat 1), (7525337, .ofNat 1), (8505773, .ofNat 1), (405285511, .ofNat 1), (719478787, .ofNat 1)] 0)) .nil)) (.node (.node (.leaf (.adef 17293 [(42711971, .ofNat 2), (43180859, .negSucc 3), (57111797, .ofNat 4), (62002463, .ofNat 4)] 1)) (.leaf (.trans [] 0))) (.node (.leaf (.adef 40697 [(23469, .negSucc 3), (118635471, .ofNat 2), (151496901, .ofNat 1), (6466227111, .ofNat 2), (9426638439, .ofNat 2), (266891826501, .negSucc 1)] 0)) .nil))) (.node (.node (.node (.leaf (.atom 22541)) (.leaf (.adef 28319 [(45613, .ofNat 1), (172967, .negSucc 0), (1325243587, .ofNat 1)] 0))) (.node (.leaf (.adef 19211 [(38250631, .negSucc 0), (46224593, .ofNat 1), (46473211, .negSucc 0), (46544651, .ofNat 1)] 0)) .nil)) (.node (.node (.leaf (.adef 11171 [(297563021, .ofNat 1), (354008599, .negSucc 0), (356709787, .ofNat 1), (79263098999, .negSucc 0), (9342772558679, .negSucc 0), (13567138597663, .ofNat 1), (321017268347935103, .negSucc 0), (321704526908197097, .ofNat 1), (326634453038925689, .ofNat 1)] 0)) .nil) (.node (.leaf (.adef 42463 [(18460441, .ofNat 1), (26769283, .negSucc 0)] 0)) .nil)))) (.node (.node (.node (.node (.leaf (.atom 4909)) (.leaf (.adef 21599 [(278132002433, .ofNat 1)] 0))) (.node (.leaf (.adef 30937 [(1833539, .negSucc 0), (9031677241, .negSucc 0)] 0)) .nil)) (.node (.node (.leaf (.adef 17497 [(4845007, .negSucc 0), (8424347, .negSucc 0), (10783483, .ofNat 1), (10789091, .ofNat 1), (104943389, .negSucc 0), (363883381, .negSucc 0), (366703759, .negSucc 0)] 0)) .nil) (.node (.leaf (.adef 26171 [(26161, .ofNat 1), (19887277, .ofNat 1), (1650210643, .ofNat 1), (1809853697, .ofNat 1), (2579796833, .negSucc 0), (2940847309, .ofNat 1), (4559239327, .ofNat 1), (4693313623, .ofNat 1), (4963701653, .negSucc 0), (5011888139, .ofNat 1), (7645992667, .ofNat 1), (8497377293, .negSucc 0)] 0)) .nil))) (.node (.node (.node (.leaf (.atom 6079)) (.leaf (.adef 22189 [(191407, .ofNat 1), (4170571, .ofNat 1), (61723633, .ofNat 1), (10283529989, .ofNat 1), (11304884389, .negSucc 0)] 0))) (.node (.leaf (.adef 13883 [(39901, .ofNat 1), (8358967, .ofNat 1), (10440223, .ofNat 1), (12056377, .negSucc 0), (14577271, .negSucc 0), (17433929, .negSucc 0), (19683689, .ofNat 1), (21097801, .negSucc 0), (23134183, .ofNat 1), (27573641, .ofNat 1), (43966261, .negSucc 0)] 0)) .nil)) (.node (.node (.leaf (.adef 36563 [(1031057047, .ofNat 4), (1055254451, .negSucc 3), (2246341649, .ofNat 4), (2294391653, .negSucc 3), (112063241951, .ofNat 2), (149170217557, .negSucc 3), (152842034269, .ofNat 4), (292617187703, .negSucc 3), (299101366579, .negSucc 3), (18132974007583, .ofNat 4), (18198294723899, .negSucc 3), (18778081818283, .negSucc 3), (31008451646243, .ofNat 2)] 1)) .nil) (.node (.leaf (.adef 26953 [(1509503, .ofNat 1), (288225559, .negSucc 0), (316851959, .ofNat 1)] 0)) .nil))))

def jac131 : JTree := .node (.node (.node (.node (.node (.leaf (.atom 1553)) (.leaf (.adef 21139 [(9780443, .negSucc 0), (1810325333, .ofNat 1), (2671140709, .negSucc 0), (3045525383, .negSucc 0), (49161467777, .ofNat 1), (59329657549, .ofNat 1), (78302899679, .ofNat 1), (191987252887, .ofNat 1), (207820970377, .ofNat 1), (583781452427, .ofNat 1), (3232742032661, .negSucc 0), (5216924474791, .ofNat 1), (16881070331821, .ofNat 1), (97261515261991, .ofNat 1), (106921474115591, .negSucc 0)] 0))) (.node (.leaf (.adef 37189 [(30451367, .ofNat 1), (30580999, .ofNat 1), (33873209, .ofNat 1), (37081529, .ofNat 1), (793850009, .ofNat 1), (1081475093, .ofNat 1), (1216275061, .ofNat 1), (1255192597, .ofNat 1), (1753480637, .ofNat 1), (1937286359, .ofNat 1), (3494250959, .ofNat 1), (3699860453, .ofNat 1), (3989021363, .ofNat 1), (110346860293, .ofNat 1), (149043888137, .ofNat 1), (505720833493, .negSucc 0), (551542389889, .ofNat 1), (706618136951, .ofNat 2), (711073618373, .ofNat 2), (1026117904447, .negSucc 1), (1032587946781, .negSucc 1), (28800324617993, .ofNat 1), (29368554611101, .ofNat 1), (29720613873463, .negSucc 1), (29908013030149, .negSucc 1), (41167212094439, .negSucc 1), (41426786168597, .negSucc 1), (43158889408511, .ofNat 2), (43431021724253, .ofNat 2), (59781105518383, .ofNat 2), (60158046883309, .ofNat 2)] 0)) .nil)) (.node (.node (.leaf (.adef 22739 [(213099, .negSucc 3), (11561103, .ofNat 2), (53933967, .ofNat 2), (64071171, .ofNat 1), (94775138559, .negSucc 1)] 0)) (.leaf (.trans [] 0))) (.node (.leaf (.adef 8941 [(1562557, .ofNat 1), (11339779153, .negSucc 0), (15965975023, .negSucc 0), (16467098441, .ofNat 1), (23636812481, .negSucc 0)] 0)) .nil))) (.node (.node (.node (.leaf (.atom 12743)) (.leaf (.adef 45403 [(36672437, .ofNat 1), (62967397, .ofNat 1), (66252913, .negSucc 0)] 0))) (.node (.leaf (.adef 38749 [(1415389, .ofNat 1), (6644994827, .ofNat 1)] 0)) .nil)) (.node (.node (.leaf (.adef 35677 [(66068911, .ofNat 1), (75915731, .ofNat 1), (100225337, .negSucc 0), (101488417, .negSucc 0)] 0)) .nil) (.node (.leaf (.adef 42197 [(3511829, .negSucc 0), (4190539, .ofNat 1), (209309431, .negSucc 0), (61014220087, .ofNat 1)] 0)) .nil)))) (.node (.node (.node (.node (.leaf (.atom 12011)) (.leaf (.adef 34171 [(134259, .ofNat 2), (692948979, .negSucc 0)] 0))) (.node (.leaf (.adef 30851 [(113559, .ofNat 8), (500639589, .negSucc 3), (682904169, .negSucc 3), (738240291, .negSucc 3), (1352625175521, .ofNat 6)] 1)) .nil)) (.node (.node (.leaf (.adef 13327 [(87693, .ofNat 2), (236133171, .negSucc 0)] 0)) .nil) (.node (.leaf (.adef 41381 [(1418401, .ofNat 1), (6637503791, .negSucc 0)] 0)) .nil))) (.node (.node (.node (.leaf (.atom 10133)) (.leaf (.adef 35159 [(21408811, .negSucc 0), (21772351, .ofNat 1), (22938451, .ofNat 1), (23237059, .negSucc 0)] 0))) (.node (.leaf (.adef 39607 [(22726733, .negSucc 0), (22889309, .negSucc 0), (22965001, .ofNat 1), (25200943, .ofNat 1), (25328663, .negSucc 0)] 0)) .nil)) (.node (.node (.leaf (.adef 5297 [(25293, .ofNat 2), (51518889, .negSucc 0)] 0)) .nil) (.node (.leaf (.adef 26893 [(7570109, .negSucc 0), (9071057, .ofNat 1)] 0)) .nil))))

def jac132 : JTree := .node (.node (.node (.node (.leaf (.atom 2141)) (.leaf (.adef 27847 [(10826069, .ofNat 1), (10829087, .negSucc 0), (10843171, .ofNat 1), (10859267, .negSucc 0), (10864297, .negSucc 0), (10865303, .ofNat 1), (15886051, .negSucc 0), (15888233, .negSucc 0), (16050613, .ofNat 1), (20522339, .negSucc 0), (20525933, .ofNat 1), (20535517, .negSucc 0), (21292861, .negSucc 0), (21303019, .negSucc 0), (21313177, .ofNat 1), (22967467, .negSucc 0), (22969589, .negSucc 0), (22982321, .ofNat 1), (25789081, .ofNat 1), (30267613, .negSucc 0), (30274159, .ofNat 1), (32259979, .negSucc 0), (33496657, .negSucc 0), (33509081, .negSucc 0), (33524611, .ofNat 1), (41571767, .ofNat 1), (44841437, .negSucc 0), (44862127, .ofNat 1), (45950753, .ofNat 1), (56226953, .ofNat 1), (602738959, .ofNat 1), (624980249, .ofNat 1), (864627397, .negSucc 0), (896532467, .negSucc 0), (1780157537, .ofNat 1), (1834740731, .ofNat 1), (1845846007, .ofNat 1), (1874048291, .ofNat 1), (2017971419, .negSucc 0), (2038269319, .ofNat 1), (2078140277, .negSucc 0), (2527698127, .ofNat 1), (3216265127, .ofNat 1), (3335527043, .ofNat 1), (3645930749, .negSucc 0), (3755293273, .negSucc 0), (6909008011, .ofNat 1), (7085550701, .ofNat 1), (8354266733, .ofNat 1), (8522618453, .ofNat 1), (9404118179, .ofNat 1), (11113037179, .ofNat 1), (13490760013, .ofNat 1), (13519351513, .ofNat 1), (21894310597, .negSucc 0), (33951307231, .ofNat 1), (41548722361, .ofNat 1), (265344997201, .ofNat 1), (275492881087, .ofNat 1), (277654733723, .ofNat 1), (283175085839, .ofNat 1), (286090559189, .ofNat 1), (293736488351, .ofNat 1), (321547501837, .negSucc 0), (327940533241, .negSucc 0), (328989859739, .ofNat 1), (335030609281, .ofNat 1), (347466986077, .ofNat 1), (356995806971, .ofNat 1), (364191249589, .ofNat 1), (370728744937, .ofNat 1), (414996236717, .negSucc 0), (430400947289, .negSucc 0), (5232615112267, .negSucc 0), (5891944008439, .negSucc 0)] 0))) (.node (.leaf (.adef 8647 [(38593, .ofNat 1), (8077219, .ofNat 1), (10126811, .ofNat 1), (12162461, .negSucc 0), (14687671, .negSucc 0), (17365963, .negSucc 0), (19882901, .ofNat 1), (20457691, .negSucc 0), (22439899, .ofNat 1), (26628209, .ofNat 1), (44313413, .negSucc 0)] 0)) .nil)) (.node (.node (.leaf (.adef 29437 [(21571457, .negSucc 3), (84098657, .negSucc 3), (127407047, .ofNat 4), (141741337, .negSucc 3), (9709915099, .negSucc 1), (116106079487, .ofNat 2)] 1)) .nil) (.node (.leaf (.adef 26293 [(1379582003, .negSucc 3), (1985040679, .ofNat 1), (157156485887, .ofNat 2), (686054577893, .ofNat 2)] 1)) .nil))) (.node (.node (.node (.leaf (.atom 1523)) (.leaf (.atom 49177))) (.node (.leaf (.adef 25469 [(887531, .negSucc 0), (2077423, .ofNat 1), (310253569, .ofNat 1), (605107339, .ofNat 1), (20215183831, .ofNat 1), (22550207213, .negSucc 0)] 0)) .nil)) (.node (.node (.leaf (.adef 30259 [(2503447, .negSucc 0), (3035987, .negSucc 0), (3221171, .negSucc 0), (3757057, .ofNat 1), (101068159, .ofNat 1), (124735021, .ofNat 1), (321293131, .negSucc 0), (396529489, .negSucc 0)] 0)) .nil) (.node (.leaf (.adef 33641 [(2889301, .ofNat 1), (3822503, .ofNat 1), (331830211, .negSucc 0), (409534009, .negSucc 0)] 0)) .nil)))

def jac133 : JTree := .node (.node (.node (.node (.leaf (.atom 2311)) (.leaf (.adef 27647 [(6099173, .ofNat 1), (1119239867, .ofNat 1)] 0))) (.node (.leaf (.adef 37657 [(5714039, .ofNat 1), (13509259, .ofNat 1), (13515823, .ofNat 1), (22128983, .ofNat 1), (274755287011, .negSucc 0)] 0)) .nil)) (.node (.node (.leaf (.adef 3163 [(7559490221, .ofNat 1), (134205272059, .negSucc 0), (149707107257, .ofNat 1), (89156475791333, .negSucc 0), (140702277062393, .negSucc 0), (156954570862339, .ofNat 1), (173887565563223, .negSucc 0)] 0)) (.leaf (.trans [] 0))) (.node (.leaf (.adef 41351 [(46257461, .negSucc 0), (46616923, .negSucc 0), (46754549, .ofNat 1), (64639583, .ofNat 1), (64949477, .negSucc 0)] 0)) .nil))) (.node (.node (.node (.leaf (.atom 7547)) (.leaf (.adef 46451 [(868682581, .ofNat 1), (928735301, .ofNat 1), (969720791, .negSucc 0), (1307136233, .negSucc 0)] 0))) (.node (.leaf (.adef 19381 [(293231687, .ofNat 1), (368256259, .ofNat 1), (378199927, .ofNat 1), (484383109, .ofNat 1), (507318749, .negSucc 0), (595596757, .negSucc 0), (102618517141, .negSucc 0), (110475480857, .negSucc 0), (122893037407, .ofNat 1), (175429465631, .ofNat 1), (546895528613, .negSucc 0), (768825602041, .negSucc 0), (994983470831, .ofNat 1), (151815862212259, .ofNat 1), (183641163659947, .negSucc 0), (3283494353586853, .ofNat 1), (3971816351577949, .negSucc 0)] 0)) .nil)) (.node (.node (.leaf (.adef 23819 [(693703903, .negSucc 0), (719301833, .negSucc 0), (831211471, .ofNat 1), (861883481, .ofNat 1), (1630554697, .ofNat 1), (1690722767, .ofNat 1), (3245034487, .ofNat 1), (3361878661, .ofNat 1), (3466611233, .negSucc 0), (5794376023, .ofNat 1), (5883644581, .ofNat 1), (6459896213, .ofNat 1), (7240389617, .negSucc 0), (7505171111, .ofNat 1), (7917772717, .negSucc 0), (9051705757, .ofNat 1), (9467482877, .ofNat 1), (13353578831, .ofNat 1), (14843228693, .ofNat 1), (16806368947, .ofNat 1), (30166157143, .negSucc 0), (31279299473, .negSucc 0), (122992794179, .ofNat 1), (127531273669, .ofNat 1), (148226772731, .ofNat 1), (153696395341, .ofNat 1), (168778342823, .negSucc 0), (175006325953, .negSucc 0), (182936641889, .ofNat 1), (189687071479, .ofNat 1), (266827227907, .ofNat 1), (277314783631, .ofNat 1), (310883489237, .negSucc 0), (322523999159, .negSucc 0), (324279525551, .negSucc 0), (329309450233, .ofNat 1), (342252848989, .ofNat 1), (350610146167, .negSucc 0), (358860053911, .ofNat 1), (363806757851, .negSucc 0), (438286794053, .negSucc 0), (451873463939, .ofNat 1), (453116673131, .negSucc 0), (461094805799, .ofNat 1), (471570985027, .ofNat 1), (569068150181, .ofNat 1), (647118962599, .negSucc 0), (1650354438457, .ofNat 1), (13149404179711, .negSucc 0), (15351339587237, .negSucc 0), (15870767762699, .negSucc 0), (16557615568139, .negSucc 0), (49957854481771, .negSucc 0), (51828442405897, .negSucc 0), (53856427023569, .ofNat 1), (55883528526157, .ofNat 1), (68555267377327, .ofNat 1), (71122204180789, .ofNat 1), (73905130492253, .negSucc 0), (76686844938409, .negSucc 0), (152746594277161, .ofNat 1), (188514858026059, .ofNat 1), (198708011839873, .ofNat 1), (272679461978701, .negSucc 0)] 0)) .nil) (.node (.leaf (.adef 26783 [(8962273, .negSucc 0), (23374477157, .negSucc 0)] 0)) .nil)))

def jac134 : JTree := .node (.node (.node (.node (.node (.node (.leaf (.atom 691)) (.leaf (.adef 14437 [(15198947, .ofNat 1), (15304697, .ofNat 1), (4614238129, .ofNat 1)] 0))) (.node (.leaf (.adef 30367 [(28150751743, .ofNat 1)] 0)) .nil)) (.node (.node (.leaf (.adef 14891 [(776190859, .ofNat 2), (8839206713, .ofNat 4), (12835883761, .negSucc 3)] 1)) .nil) (.node (.leaf (.adef 7841 [(40241, .ofNat 1), (498062317, .ofNat 1), (732832921, .ofNat 1), (865103857, .ofNat 1), (1207104449, .ofNat 1), (2155057973, .ofNat 1), (2191755947, .ofNat 1), (2520173209, .ofNat 1), (2624929379, .ofNat 1), (2815111129, .ofNat 1), (3571261193, .ofNat 1)] 0)) .nil))) (.node (.node (.node (.leaf (.atom 9613)) (.leaf (.adef 21961 [(472403, .negSucc 0), (532927, .ofNat 1), (1509139, .ofNat 1)] 0))) (.node (.leaf (.adef 12347 [(24648451, .ofNat 1), (24844961, .negSucc 0), (74985661, .ofNat 1)] 0)) .nil)) (.node (.node (.leaf (.adef 3221 [(294083489, .ofNat 1), (447623725969, .ofNat 1)] 0)) .nil) (.node (.leaf (.adef 42023 [(347549, .ofNat 1), (442249, .ofNat 1), (2366293, .negSucc 0), (2612261, .negSucc 0), (132706099, .ofNat 1), (168865799, .ofNat 1), (38632984963, .ofNat 1), (49159683863, .ofNat 1)] 0)) .nil)))) jac133) (.node (.node (.node (.node (.node (.leaf (.atom 2633)) (.leaf (.adef 33871 [(920077, .ofNat 1), (4006369, .ofNat 1), (313966061, .ofNat 1), (335921099, .ofNat 1)] 0))) (.node (.leaf (.adef 37277 [(6576499, .ofNat 1), (8005043, .negSucc 0), (13771841, .negSucc 0), (18645313, .negSucc 0), (1064210633, .ofNat 1), (1142951419, .negSucc 0), (1169907433, .negSucc 0)] 0)) .nil)) (.node (.node (.leaf (.adef 859 [(5598607961, .ofNat 1)] 0)) (.leaf (.trans [(2411, .ofNat 1)] 0))) (.node (.leaf (.adef 40853 [(3137377, .negSucc 0), (4114543, .ofNat 1)] 0)) .nil))) (.node (.node (.node .nil (.leaf (.adef 34679 [(1601497, .ofNat 1), (7478810809, .negSucc 0), (10860380273, .ofNat 1)] 0))) (.node (.leaf (.adef 38923 [(3597701, .negSucc 0), (4578001, .negSucc 0), (6091889, .ofNat 1)] 0)) .nil)) (.node (.node (.leaf (.adef 8311 [(35983, .ofNat 1), (7014593, .negSucc 0), (11125321, .negSucc 0), (14575643, .negSucc 0), (19746799, .ofNat 1), (19900883, .ofNat 1), (21844183, .negSucc 0), (26008751, .negSucc 0), (44305399, .negSucc 0)] 0)) .nil) (.node (.leaf (.adef 33179 [(25979123, .negSucc 0), (27302089, .ofNat 1), (32199331, .ofNat 1), (8529549019, .negSucc 0)] 0)) .nil)))) (.node (.node (.node (.node (.leaf (.atom 10009)) (.leaf (.adef 44983 [(857709992687, .ofNat 1)] 0))) (.node (.leaf (.adef 38351 [(2097283, .ofNat 1), (2856727, .ofNat 1), (3051739, .ofNat 1), (4284803, .negSucc 0), (91978501, .negSucc 0), (97598063, .negSucc 0)] 0)) .nil)) (.node (.node (.leaf (.adef 23041 [(7122681610019, .ofNat 1), (1859015846655829, .ofNat 1), (2699576114951213, .negSucc 0)] 0)) .nil) (.node (.leaf (.adef 26209 [(20544059, .ofNat 1), (10901701189, .ofNat 1)] 0)) .nil))) (.node (.node (.node (.leaf (.atom 2503)) (.leaf (.atom 4591))) (.node (.leaf (.adef 8831 [(40037, .ofNat 1), (7734751, .negSucc 0), (11133299, .negSucc 0), (14911727, .ofNat 1), (19986979, .negSucc 0), (21982759, .ofNat 1), (24093049, .negSucc 0), (28668319, .negSucc 0), (44553833, .ofNat 1)] 0)) .nil)) (.node (.node (.leaf (.adef 30197 [(1425449, .ofNat 1), (1555979, .ofNat 1), (2076727, .negSucc 0), (2852111, .negSucc 0), (86535011, .ofNat 1), (97946977, .negSucc 0)] 0)) .nil) (.node (.leaf (.adef 26981 [(1514533, .ofNat 1), (288579971, .negSucc 0), (317241571, .ofNat 1)] 0)) .nil)))))

def jac135 : JTree := .node (.node (.node (.node (.node (.leaf (.atom 47741)) (.leaf (.adef 4561 [(778997, .ofNat 1), (2996689, .negSucc 0), (4817503, .ofNat 1), (194736067, .ofNat 1), (249221299, .ofNat 1), (253580057, .ofNat 1), (692069789, .ofNat 1), (926273573, .ofNat 1), (72883749691, .negSucc 0), (93275904427, .negSucc 0), (259020540197, .negSucc 0)] 0))) (.node (.leaf (.adef 24469 [(704746069, .ofNat 1), (730751459, .ofNat 1), (776138851, .ofNat 1), (804778661, .ofNat 1), (1291624753, .ofNat 1), (1339286183, .ofNat 1), (2321542367, .ofNat 1), (2408063501, .ofNat 1), (2998862851, .ofNat 1), (3534910297, .ofNat 1), (4052933039, .ofNat 1), (6942325043, .negSucc 0), (7735828673, .ofNat 1), (8004040157, .ofNat 1), (9207162509, .ofNat 1), (9626327153, .ofNat 1), (13427307017, .ofNat 1), (14881247011, .negSucc 0), (16842764273, .ofNat 1), (30887260501, .negSucc 0), (32027011811, .negSucc 0), (316147581311, .negSucc 0), (316782185263, .ofNat 1), (328409336219, .negSucc 0), (329068553227, .ofNat 1), (332031227357, .negSucc 0), (346173032273, .ofNat 1), (359030159681, .ofNat 1), (362875111321, .ofNat 1), (376352566537, .ofNat 1), (1611824762851, .negSucc 0), (8248514120809, .ofNat 1), (8552887335599, .ofNat 1), (13463732566477, .negSucc 0), (14236507095023, .negSucc 0), (14761839460153, .negSucc 0), (15718303880159, .negSucc 0), (16250148665393, .negSucc 0), (16953415143473, .negSucc 0), (28332662855633, .negSucc 0), (29352838943699, .negSucc 0), (64104679724627, .ofNat 1), (65528265913249, .negSucc 0), (3561142170617569, .ofNat 1), (4349332192637987, .negSucc 0), (4484159300202581, .ofNat 1), (4496496267307949, .negSucc 0)] 0)) .nil)) (.node (.node (.leaf (.adef 17359 [(435049, .negSucc 0), (547721, .negSucc 0)] 0)) (.leaf (.trans [(47137, .ofNat 1)] 0))) (.node (.leaf (.adef 32467 [(12537302753, .negSucc 0), (408238411103, .negSucc 0), (448784419903, .ofNat 1), (493838655433, .negSucc 0), (522712061327, .negSucc 0), (542886432233, .ofNat 1), (585594359101, .ofNat 1)] 0)) .nil))) (.node (.node (.node (.leaf (.atom 48563)) (.leaf (.adef 46051 [(888634253, .ofNat 1), (888794881, .ofNat 1), (955576609, .ofNat 1), (955835491, .ofNat 1), (998638147, .negSucc 0), (998728289, .ofNat 1), (1343983849, .negSucc 0), (544269934403, .negSucc 0)] 0))) (.node (.leaf (.adef 39157 [(6991717, .negSucc 0), (8375681, .ofNat 1)] 0)) .nil)) (.node (.node (.leaf (.adef 17839 [(1508137, .ofNat 1), (113191739, .negSucc 0), (123548171, .ofNat 1)] 0)) .nil) (.node (.leaf (.adef 42589 [(6633313, .ofNat 1), (8327749, .negSucc 0), (14409529, .ofNat 1)] 0)) .nil)))) (.node (.node (.node (.node .nil (.leaf (.adef 45281 [(45263, .ofNat 1), (12057751, .negSucc 0), (14049559, .ofNat 1), (32056501, .ofNat 1), (34755923, .negSucc 0), (21974572979, .negSucc 0), (21977591257, .negSucc 0)] 0))) (.node (.leaf (.adef 7753 [(38677, .ofNat 1), (1414592573, .negSucc 0)] 0)) .nil)) (.node (.node (.leaf (.adef 23197 [(12900101, .ofNat 1), (16063979, .negSucc 0)] 0)) .nil) (.node (.leaf (.adef 41759 [(2944171, .ofNat 1), (4057099, .ofNat 1), (6289013, .ofNat 1), (149081287, .ofNat 1)] 0)) .nil))) (.node (.node (.node (.leaf (.atom 11717)) .nil) (.node (.leaf (.adef 32051 [(4239227, .ofNat 1), (8292553, .ofNat 1)] 0)) .nil)) (.node (.node (.leaf (.adef 15661 [(33884761, .ofNat 1), (34363387, .negSucc 0), (34470127, .negSucc 0), (34609417, .ofNat 1)] 0)) .nil) (.node (.leaf (.adef 2861 [(1117213, .negSucc 0), (26473070149, .negSucc 0), (29102360549, .ofNat 1)] 0)) .nil))))

def jac136 : JTree := .node (.node (.node jac129 jac130) (.node jac131 (.node (.node (.node (.node (.node (.leaf (.atom 2693)) (.leaf (.adef 21383 [(35626831, .ofNat 1), (36569441, .negSucc 0), (51212323, .ofNat 1), (15272781697, .negSucc 0)] 0))) (.node (.leaf (.adef 9767 [(19645303, .ofNat 1), (5990916929, .ofNat 1), (6746863003, .negSucc 0)] 0)) .nil)) (.node (.node (.leaf (.adef 29129 [(52923033, .ofNat 2), (62030781, .ofNat 1), (90339807303, .negSucc 1)] 0)) (.leaf (.trans [(46051, .ofNat 1)] 0))) (.node (.leaf (.adef 32369 [(1828171, .ofNat 1), (2814437, .ofNat 1), (334891163, .negSucc 0), (459558431, .ofNat 1)] 0)) .nil))) (.node (.node (.node (.leaf (.atom 17047)) (.leaf (.adef 45949 [(14197121, .ofNat 1), (16441643, .ofNat 1), (29182057, .ofNat 1), (2345716651, .ofNat 1), (2401009277, .ofNat 1), (2701162241, .negSucc 0), (2945904893, .ofNat 1), (4311202331, .ofNat 1), (5270045621, .ofNat 1), (9505493021, .ofNat 1), (9807623669, .ofNat 1), (12569459449, .ofNat 1), (355062200833, .ofNat 1), (362067572981, .ofNat 1), (410390242127, .negSucc 0), (418487235739, .negSucc 0), (1164016322537, .negSucc 0), (1269483679301, .ofNat 1)] 0))) (.node (.leaf (.adef 31319 [(1616383, .negSucc 0), (29678611, .negSucc 0), (32206249, .ofNat 1), (89574311, .ofNat 1), (120034903, .ofNat 1), (148143157, .ofNat 1), (7845953257, .negSucc 0)] 0)) .nil)) (.node (.node (.leaf (.adef 17747 [(26989957, .ofNat 1), (105868121, .negSucc 0), (44797375439, .negSucc 0), (76537735609, .ofNat 1)] 0)) .nil) (.node (.leaf (.adef 20681 [(16585847, .ofNat 2), (373171489, .negSucc 1), (541902233, .ofNat 2), (24985028543, .negSucc 1)] 0)) .nil)))) jac132))) (.node jac134 (.node (.node (.node (.node (.node (.node (.leaf (.atom 3259)) (.leaf (.adef 44087 [(44071, .ofNat 1), (12045613, .ofNat 1), (14165971, .ofNat 1), (23696423, .negSucc 0), (25933477, .ofNat 1)] 0))) (.node (.leaf (.adef 18269 [(1617709, .ofNat 1), (2933069, .ofNat 1), (3357919, .ofNat 1), (161171341, .ofNat 1), (1019156843, .negSucc 0)] 0)) .nil)) (.node (.node (.leaf (.adef 6451 [(1249909, .ofNat 1), (1330951, .ofNat 1)] 0)) (.leaf (.trans [(1117, .ofNat 1)] 0))) (.node (.leaf (.adef 19763 [(7087939, .ofNat 1), (11706139, .ofNat 1), (25446193, .ofNat 1), (65315209, .ofNat 1), (78242189, .negSucc 0), (98129077, .ofNat 1), (113241629, .ofNat 1), (113333699, .ofNat 1), (153956849, .ofNat 1), (161996339, .ofNat 1), (164432111, .ofNat 1), (281483143, .ofNat 1)] 0)) .nil))) (.node (.node (.node (.leaf (.atom 35407)) (.leaf (.adef 45541 [(25714684067, .ofNat 1), (30072502963, .ofNat 1)] 0))) (.node (.leaf (.adef 24979 [(5924861, .ofNat 1), (6315149, .negSucc 0), (423462887, .negSucc 0), (523566863, .negSucc 0), (740582123, .negSucc 0), (838200899, .negSucc 0)] 0)) .nil)) (.node (.node (.leaf (.adef 11117 [(296882243, .negSucc 0), (353108539, .ofNat 1), (355953437, .ofNat 1), (547022281127, .negSucc 0), (548193388673, .ofNat 1), (556594118801, .ofNat 1)] 0)) .nil) (.node (.leaf (.adef 20441 [(42373, .ofNat 1), (47768491, .negSucc 0), (47887519, .ofNat 1), (79483253, .negSucc 0), (110517899, .ofNat 1)] 0)) .nil)))) (.node (.node (.node (.node (.leaf (.atom 7481)) (.leaf (.adef 21499 [(44927, .ofNat 1), (85687709, .ofNat 1), (85969487, .ofNat 1), (86028473, .negSucc 0), (110997907, .ofNat 1), (1234767141293, .ofNat 1)] 0))) (.node (.leaf (.adef 37997 [(7699, .ofNat 1), (9767, .ofNat 1), (3067499, .ofNat 1), (3099671, .ofNat 1), (3399139, .ofNat 1), (3545159, .ofNat 1), (5180251, .negSucc 0), (5695169, .negSucc 0), (7316303, .negSucc 0), (9919099, .ofNat 1), (11428771, .ofNat 1), (12547583, .ofNat 1)] 0)) .nil)) (.node (.node (.leaf (.adef 29339 [(3370553, .ofNat 1), (50946719, .negSucc 0)] 0)) .nil) (.node (.leaf (.adef 26099 [(6253277, .ofNat 1), (6660713, .negSucc 0), (426648149, .negSucc 0), (527505101, .negSucc 0), (741352159, .negSucc 0), (845986681, .negSucc 0)] 0)) .nil))) (.node (.node (.node (.leaf (.atom 48619)) (.leaf (.adef 46997 [(44326151, .negSucc 0), (49938617, .ofNat 1), (50533363, .negSucc 0), (99827243, .negSucc 0), (100217933, .ofNat 1), (101521697, .negSucc 0)] 0))) (.node (.leaf (.adef 39791 [(2722229, .negSucc 0), (5798777, .negSucc 0), (8719267, .ofNat 1), (9558299, .negSucc 0), (10489559, .ofNat 1), (149816291249, .negSucc 0), (184898373731, .negSucc 0), (194895981257, .negSucc 0), (267448357109, .ofNat 1)] 0)) .nil)) (.node (.node (.leaf (.adef 30047 [(109299, .ofNat 2), (684982197, .negSucc 0)] 0)) .nil) (.node (.leaf (.adef 33493 [(128967, .ofNat 2), (689659461, .negSucc 0)] 0)) .nil))))) jac135))

def jac137 : JTree := .node (.node (.node (.node (.node (.node (.leaf (.atom 263)) (.leaf (.adef 21013 [(10742423, .negSucc 0), (16265503, .ofNat 1), (17826407, .negSucc 0)] 0))) (.node (.leaf (.trans [(951043, .ofNat 1), (1295509, .ofNat 1)] 0)) .nil)) (.node (.node (.leaf (.atom 49031)) .nil) (.node (.leaf (.adef 8867 [(7033309, .ofNat 1), (13924763, .ofNat 1), (2852381537, .ofNat 2), (3085389913, .ofNat 1), (4223363237, .ofNat 1)] 0)) .nil))) (.node (.node (.node .nil (.leaf (.adef 21839 [(26589767, .ofNat 1), (101940649, .negSucc 0), (44133148309, .negSucc 0), (73698355721, .ofNat 1)] 0))) (.node (.leaf (.adef 31147 [(3939756127, .ofNat 1), (4244871209, .negSucc 0), (4582141483, .negSucc 0), (5010295181, .ofNat 2), (10504573441, .negSucc 1)] 0)) .nil)) (.node (.node (.leaf (.adef 29611 [(21696067, .negSucc 0), (81093643, .negSucc 0), (127806541, .ofNat 1), (128143703, .negSucc 0), (7220017097, .negSucc 0), (7437944399, .ofNat 1)] 0)) .nil) (.node (.leaf (.adef 32911 [(33901767, .ofNat 2), (63829593, .ofNat 2), (145866261, .ofNat 4), (146075841, .ofNat 2), (160233921, .ofNat 1), (251576181, .ofNat 1), (257117319, .ofNat 1), (67245846597, .negSucc 2), (277918522551, .negSucc 1), (325586777931, .negSucc 1), (368978668281, .negSucc 1), (375862401441, .negSucc 0), (435336613209, .negSucc 0), (551265258059541, .ofNat 4)] 0)) .nil)))) (.node (.node (.node (.node (.leaf (.atom 769)) (.leaf (.adef 44507 [(5725703, .negSucc 0), (11169751, .ofNat 1)] 0))) (.node (.leaf (.adef 30643 [(1609409, .negSucc 0), (65768917, .ofNat 1), (127059623, .ofNat 1), (156812837, .ofNat 1), (7828760029, .ofNat 1)] 0)) .nil)) (.node (.node (.leaf (.adef 15241 [(391649, .ofNat 4), (930280759, .ofNat 2)] 1)) .nil) (.node (.leaf (.adef 19961 [(5578247, .negSucc 0), (8470321, .negSucc 0), (14240587, .ofNat 1), (22840553, .negSucc 0)] 0)) .nil))) (.node (.node (.node (.leaf (.atom 12979)) (.leaf (.adef 34897 [(21134671, .negSucc 0), (21415297, .ofNat 1), (21930179, .ofNat 1), (22350817, .negSucc 0)] 0))) (.node (.leaf (.adef 15923 [(38502521, .ofNat 2), (56785187, .ofNat 2), (4653618583, .ofNat 1), (15495559853, .ofNat 1), (19679054627, .ofNat 1), (622848799571, .ofNat 1), (681378788581, .negSucc 0), (947492327581, .ofNat 1), (98978356275529, .negSucc 0)] 1)) .nil)) (.node (.node (.leaf (.adef 8419 [(1999433, .ofNat 1), (321510359, .negSucc 0), (29660474471, .ofNat 1), (32606336071, .negSucc 0)] 0)) .nil) (.node (.leaf (.adef 42677 [(35386207, .ofNat 1), (59819363, .ofNat 1), (62957827, .negSucc 0)] 0)) .nil))))) (.node (.node (.node (.node (.node (.leaf (.atom 2371)) (.leaf (.adef 12527 [(69527, .ofNat 1), (30474289, .ofNat 1)] 0))) (.node (.leaf (.adef 9749 [(6354611, .ofNat 1), (6396821, .ofNat 1), (7517767, .ofNat 1), (8491883, .ofNat 1), (736414187, .negSucc 0), (1165496279, .ofNat 1)] 0)) .nil)) (.node (.node (.leaf (.adef 4049 [(1477909, .negSucc 0), (1682687, .ofNat 1)] 0)) (.leaf (.trans [(607, .ofNat 1)] 0))) (.node (.leaf (.adef 40637 [(2938961, .negSucc 0), (488034109, .ofNat 1), (708700373, .negSucc 0)] 0)) .nil))) (.node (.node (.node (.leaf (.atom 16931)) (.leaf (.adef 28289 [(45589, .negSucc 0), (131003, .negSucc 0), (162271, .ofNat 1), (9086387, .negSucc 0), (25020645757, .negSucc 0)] 0))) (.node (.leaf (.adef 8753 [(1651373, .ofNat 1), (2314331, .ofNat 1), (163252079, .ofNat 2), (437472733, .ofNat 1), (551542729, .negSucc 0), (50881779001, .ofNat 1), (55935328601, .negSucc 0)] 0)) .nil)) (.node (.node (.leaf (.adef 23599 [(116820009816553, .ofNat 1), (169640570206241, .negSucc 0)] 0)) .nil) (.node (.leaf (.adef 20443 [(7991029, .ofNat 1), (10743697, .negSucc 0), (30585047, .ofNat 1)] 0)) .nil)))) (.node (.node (.node (.node (.leaf (.atom 48239)) (.leaf (.adef 34303 [(281364619, .ofNat 1), (414932093, .ofNat 1)] 0))) (.node (.leaf (.adef 13711 [(38177, .ofNat 1), (8007469, .negSucc 0), (10115797, .ofNat 1), (11989937, .ofNat 1), (14424871, .ofNat 1), (17362231, .negSucc 0), (19476053, .negSucc 0), (21478811, .ofNat 1), (23222657, .negSucc 0), (27521423, .ofNat 1), (43379411, .negSucc 0)] 0)) .nil)) (.node (.node (.leaf (.adef 15391 [(394391, .ofNat 4), (932727793, .ofNat 2)] 1)) .nil) (.node (.leaf (.adef 41453 [(106323260899, .negSucc 0), (114351125423, .ofNat 1)] 0)) .nil))) (.node (.node (.node (.leaf (.atom 1423)) (.leaf (.adef 47287 [(23619941, .negSucc 0), (23740511, .ofNat 1), (23819767, .negSucc 0), (33612781, .negSucc 0), (33842443, .ofNat 1), (34098721, .negSucc 0)] 0))) (.node (.leaf (.adef 19433 [(23053136917, .ofNat 1), (24168451933, .ofNat 1)] 0)) .nil)) (.node (.node (.leaf (.adef 36529 [(16743, .ofNat 2), (115314093, .ofNat 2), (141293637, .ofNat 1), (6286351977, .ofNat 1), (9128747169, .negSucc 0), (260921651031, .negSucc 1)] 0)) .nil) (.node (.leaf (.adef 20879 [(18435143, .ofNat 1), (26775443, .negSucc 0), (69231683, .negSucc 0)] 0)) .nil)))))

def jac138 : JTree := .node (.node (.node (.node (.node (.leaf (.atom 661)) (.leaf (.adef 21101 [(6633652573, .ofNat 1), (6934022021, .ofNat 1), (7838479471, .ofNat 1), (9262809971, .ofNat 1), (1475428950313, .ofNat 1), (1711513423439, .negSucc 0), (1842800688437, .ofNat 1)] 0))) (.node (.leaf (.adef 8537 [(37139, .ofNat 1), (7238501, .negSucc 0), (11779517, .negSucc 0), (14695673, .negSucc 0), (19818853, .ofNat 1), (20566993, .ofNat 1), (22549273, .negSucc 0), (26847221, .negSucc 0), (44361497, .negSucc 0)] 0)) .nil)) (.node (.node (.leaf (.adef 13127 [(543730507, .ofNat 4), (730001047, .ofNat 4), (792664843, .ofNat 4), (3428438927, .negSucc 1), (491651289509, .ofNat 2), (683666460509, .negSucc 1)] 1)) .nil) (.node (.leaf (.adef 25693 [(8437829, .ofNat 1), (23608085869, .negSucc 0)] 0)) .nil))) (.node (.node (.node (.leaf (.atom 22409)) (.leaf (.adef 28099 [(4734307, .ofNat 1), (4800371, .ofNat 1)] 0))) (.node (.leaf (.adef 24953 [(10834381, .ofNat 1), (1662393679, .ofNat 1), (1787121857, .ofNat 1), (2987560729, .ofNat 1), (3285095197, .ofNat 1), (74779863536423, .negSucc 0), (82206957417223, .ofNat 1)] 0)) .nil)) (.node (.node (.leaf (.adef 35593 [(10529663, .ofNat 1), (37815853, .ofNat 1)] 0)) .nil) (.node (.leaf (.adef 26459 [(5197267, .ofNat 1), (6498749, .negSucc 0), (7846661, .ofNat 1), (10457957, .negSucc 0)] 0)) .nil)))) (.node (.node (.node (.node (.leaf (.atom 6379)) (.leaf (.adef 44711 [(2612941, .negSucc 1), (5223151, .ofNat 2), (64150157, .negSucc 1), (15903300449, .negSucc 1)] 0))) (.node (.leaf (.adef 30817 [(92409, .negSucc 3), (135395829, .ofNat 4), (150009021, .ofNat 2), (245349639, .ofNat 2), (246349503, .ofNat 2), (414855459, .ofNat 2), (420948603, .ofNat 2), (269540911413, .negSucc 3), (303815783421, .negSucc 3), (331052674671, .negSucc 1), (357341150097, .negSucc 3), (368053586883, .negSucc 1), (431139174903, .negSucc 1), (458554312863, .negSucc 1), (821702317131, .negSucc 2), (533878454928717, .ofNat 8)] 0)) .nil)) (.node (.node (.leaf (.adef 17477 [(35521, .negSucc 0), (104316497, .negSucc 0)] 0)) (.leaf (.trans [(47501, .negSucc 0)] 0))) (.node (.leaf (.adef 26029 [(11299361, .ofNat 1), (1101275347, .ofNat 1), (2423705083, .ofNat 1), (3425835403, .negSucc 0), (49538939665739, .negSucc 0), (54459119220139, .ofNat 1)] 0)) .nil))) (.node (.node (.node (.leaf (.atom 5227)) (.leaf (.adef 46639 [(786084689, .negSucc 0), (786246877, .ofNat 1), (839703631, .negSucc 0), (840309509, .ofNat 1), (881383243, .ofNat 1), (881474009, .negSucc 0), (1181686129, .ofNat 1), (1181687533, .negSucc 0), (1181807783, .ofNat 1), (1195730731, .ofNat 1), (1198903927, .negSucc 0), (1204577023, .ofNat 1), (7064035370509, .ofNat 1), (7647857906351, .ofNat 1), (7995712226723, .negSucc 0), (10792725545953, .negSucc 0)] 0))) (.node (.leaf (.adef 39563 [(28785781, .ofNat 1), (50973649, .ofNat 1), (58682539, .negSucc 0), (3813969529, .negSucc 0), (4129637429, .ofNat 1), (4804064071, .negSucc 0), (5184151543, .negSucc 0), (1162501082059, .ofNat 1), (1282196407081, .ofNat 1)] 0)) .nil)) (.node (.node (.leaf (.adef 29927 [(593431, .ofNat 1), (30529001, .negSucc 0), (31309139, .ofNat 1), (40172459, .ofNat 1), (52215481, .ofNat 1), (103702429, .ofNat 1), (127986151, .ofNat 1), (13562714713, .ofNat 1)] 0)) .nil) (.node (.leaf (.adef 33353 [(7349681, .ofNat 4), (2497747199, .ofNat 2)] 1)) .nil))))

def jac139 : JTree := .node (.node (.node (.node (.node (.leaf (.atom 1171)) (.leaf (.mult 10369 4255 (.negSucc 0) 0))) (.node (.leaf (.adef 24371 [(5713381, .ofNat 1), (6070871, .ofNat 1), (511621073, .negSucc 0), (557977229, .ofNat 1), (779853959, .ofNat 1), (21735217454099, .negSucc 1), (31562869137403, .ofNat 2), (914191090815187, .ofNat 2), (1266282678099011, .ofNat 2), (1327545667620539, .negSucc 1), (1838836650436267, .negSucc 1)] 0)) .nil)) (.node (.node (.leaf (.adef 5483 [(1259861, .ofNat 1), (35113436921, .negSucc 1), (50990095537, .ofNat 2), (1476883830073, .ofNat 2), (2045690917769, .ofNat 2), (2144661821681, .negSucc 1), (2970656947393, .negSucc 1)] 0)) (.leaf (.trans [(1, .ofNat 1)] 0))) (.node (.leaf (.adef 40819 [(1487371, .negSucc 0), (1830473, .ofNat 1)] 0)) .nil))) (.node (.node (.node (.leaf (.atom 17011)) (.leaf (.adef 45697 [(17007, .negSucc 1), (52887789, .ofNat 1), (117246411, .ofNat 2), (162469161, .ofNat 1), (264009751407, .negSucc 1)] 0))) (.node (.leaf (.adef 13841 [(25073, .ofNat 1), (13688123, .ofNat 1), (1620724783, .negSucc 0), (1622784721, .negSucc 0), (1937896109, .negSucc 0), (2687778479, .negSucc 0), (2720713451, .ofNat 1), (3010333111, .negSucc 0), (3245145439, .negSucc 0), (3332217751, .negSucc 0), (3601119541, .negSucc 0), (3697803071, .negSucc 0), (4627317217, .negSucc 0), (8424319913, .negSucc 0), (427593116773, .ofNat 2), (601861465801, .negSucc 0)] 0)) .nil)) (.node (.node (.leaf (.adef 17623 [(5969894830807, .ofNat 1), (6087680770499, .ofNat 1), (7108808459443, .ofNat 1), (7249065148751, .ofNat 1), (9755148008791, .negSucc 0), (9947616939587, .negSucc 0)] 0)) .nil) (.node (.leaf (.adef 42509 [(47171027, .negSucc 0), (47505383, .negSucc 0), (47640973, .ofNat 1), (65821531, .ofNat 1), (66059971, .negSucc 0)] 0)) .nil)))) (.node (.node (.node (.node (.leaf (.atom 48341)) (.leaf (.adef 12589 [(51868097, .ofNat 1), (1887473377, .negSucc 0), (4337776433, .ofNat 1), (1537756941269, .negSucc 0)] 0))) (.node (.leaf (.adef 38327 [(38321, .ofNat 1), (9702283, .negSucc 0), (18199339, .negSucc 0), (22328167, .negSucc 0), (27625501, .ofNat 1), (30156541, .ofNat 1), (30208777, .negSucc 0), (35955653, .negSucc 0), (68761981, .negSucc 0)] 0)) .nil)) (.node (.node (.leaf (.adef 17579 [(10896427, .ofNat 1), (223718057, .ofNat 1), (324872929, .negSucc 0), (1019438759, .ofNat 1), (1480381423, .negSucc 0)] 0)) .nil) (.node (.leaf (.adef 11383 [(3956707, .negSucc 0), (597071087, .ofNat 1), (599917831, .negSucc 0), (875554391, .ofNat 1), (931108637, .negSucc 0), (1357314397, .ofNat 1), (1385454061, .ofNat 1), (1476529687, .ofNat 1), (1900879511, .ofNat 1), (2046158731, .ofNat 1), (2360334173, .negSucc 0), (2393579281, .ofNat 1), (2400527747, .negSucc 0), (2760227809, .negSucc 0), (3123610517, .ofNat 1), (97381889149, .negSucc 0), (106248162143, .negSucc 0), (27581945487839, .negSucc 0), (47478101459923, .negSucc 0)] 0)) .nil))) (.node (.node (.node (.leaf (.atom 6203)) (.leaf (.atom 49057))) (.node (.leaf (.adef 8821 [(8761351, .negSucc 0), (11752649, .ofNat 1), (18225413, .negSucc 0), (26518493, .ofNat 1)] 0)) .nil)) (.node (.node (.leaf (.adef 36653 [(5359337, .ofNat 1), (6505957, .ofNat 1), (9364217, .ofNat 1), (10434673, .negSucc 0), (45458982727, .negSucc 0), (56103991813, .negSucc 0), (59137580911, .negSucc 0), (81152257507, .ofNat 1), (147225574513, .ofNat 1), (181700995747, .ofNat 1), (191525718409, .ofNat 1), (262823473333, .negSucc 0)] 0)) .nil) (.node (.leaf (.adef 14369 [(43321, .ofNat 1), (8993843, .negSucc 0), (11021323, .ofNat 1), (11794087, .ofNat 1), (14879939, .ofNat 1), (17721337, .negSucc 0), (19798231, .negSucc 0), (24054749, .ofNat 1), (26087863, .negSucc 0), (30921799, .ofNat 1), (43779149, .negSucc 0)] 0)) .nil))))

def jac140 : JTree := .node (.node (.node (.node (.leaf (.atom 48023)) (.leaf (.adef 21467 [(35407, .ofNat 1), (4718393, .ofNat 1), (4894339, .ofNat 1), (11938613, .negSucc 0), (13081837, .ofNat 1), (15522301, .ofNat 1), (72389827, .ofNat 1), (86688383, .ofNat 1), (108761201, .ofNat 1), (125605243, .ofNat 1), (125717353, .ofNat 1), (170629201, .ofNat 1), (312072641, .ofNat 1)] 0))) (.node (.leaf (.adef 18637 [(2195374793, .ofNat 1), (5181342311, .ofNat 1), (5215324717, .ofNat 1), (6573083563, .ofNat 1), (6870723311, .ofNat 1), (6941781109, .ofNat 1), (7720139899, .negSucc 0), (9123021023, .ofNat 1), (14196217657, .negSucc 0), (14720063327, .negSucc 0), (92280303617, .negSucc 0), (101971455343, .ofNat 1), (105734239673, .ofNat 1), (112609756547, .negSucc 0), (116765098117, .negSucc 0), (120215968289, .negSucc 0), (164700418877, .negSucc 0), (180057004217, .negSucc 0), (180216023567, .negSucc 0), (180418433161, .ofNat 1), (180577771711, .ofNat 1), (446245816109, .ofNat 1), (527162818649, .negSucc 0), (830459709923, .negSucc 0), (1468829938981, .ofNat 1), (1703858499443, .negSucc 0), (6063727812251, .negSucc 0), (6181560946103, .ofNat 1), (6369774420589, .negSucc 0), (6409662826033, .ofNat 1), (6580738233151, .negSucc 0), (7100358757873, .negSucc 0), (10111398309667, .ofNat 1), (10357964507617, .ofNat 1), (14476148057939, .ofNat 1), (15010323263029, .ofNat 1), (15174590012203, .ofNat 1), (15734537983133, .ofNat 1), (17841626121031, .ofNat 1), (18420602569639, .ofNat 1), (19309355683103, .ofNat 1), (19647092693947, .ofNat 1), (1603849208734247, .ofNat 1), (1762547992361977, .negSucc 0), (1820922719587843, .negSucc 0), (1878036931759381, .ofNat 1)] 0)) .nil)) (.node (.node (.leaf (.adef 9733 [(35527, .ofNat 4), (248203357, .negSucc 3), (254312869, .ofNat 4), (949447693, .negSucc 3), (973799317, .negSucc 3), (998250661, .negSucc 3), (30171337783, .ofNat 4), (30280024499, .negSucc 3), (31244728483, .negSucc 3), (49769581937, .negSucc 1), (125347441909, .ofNat 4), (128402725757, .negSucc 3), (11186010253151, .negSucc 1)] 1)) .nil) (.node (.leaf (.adef 9013 [(4867741, .ofNat 1), (5627299, .ofNat 1), (5661827, .ofNat 1), (1062868927, .ofNat 1), (1083741661, .negSucc 0)] 0)) .nil))) (.node (.node (.node (.leaf (.atom 10831)) (.leaf (.adef 46867 [(897264563, .ofNat 1), (897426751, .ofNat 1), (958455719, .ofNat 1), (958715381, .ofNat 1), (1005551131, .negSucc 0), (1005641897, .ofNat 1), (1348595417, .negSucc 0), (546137470099, .negSucc 0)] 0))) (.node (.leaf (.adef 31723 [(19776793, .ofNat 1), (21239563, .negSucc 0), (21758579, .negSucc 0), (21991859, .ofNat 1)] 0)) .nil)) (.node (.node (.leaf (.adef 36373 [(8313601, .ofNat 1), (8318033, .negSucc 0), (13128547, .negSucc 0), (13131829, .negSucc 0), (16819093, .ofNat 1), (921679777, .ofNat 1), (3149205347, .ofNat 1), (210904883467, .negSucc 0), (218940728257, .ofNat 1)] 0)) .nil) (.node (.leaf (.adef 42953 [(1109911811, .negSucc 3), (1134956461, .negSucc 3), (1537383283, .negSucc 3), (1578215461, .ofNat 4), (2373141497, .ofNat 4), (18769907363, .ofNat 4), (113719078307, .ofNat 2), (132650507081, .negSucc 1), (146314635083, .negSucc 3), (147979364087, .ofNat 4), (165782707043, .ofNat 2), (18288635155519, .ofNat 4), (18514752541531, .ofNat 4), (18541882575383, .negSucc 3)] 1)) .nil)))

def jac141 : JTree := .node (.node (.node (.node (.node (.leaf (.atom 4799)) (.leaf (.adef 14549 [(44371, .ofNat 1), (6273653, .ofNat 1), (6982331, .negSucc 0), (13185059, .negSucc 0), (1530387203, .ofNat 1), (1599475027, .ofNat 1), (1631701457, .ofNat 1), (1659190139, .ofNat 1), (1735351769, .negSucc 0), (1799943997, .negSucc 0), (2073008177, .negSucc 0), (2519531953, .ofNat 1), (7793493523, .negSucc 0), (7864714597, .negSucc 0), (11258689621, .negSucc 0), (13063608589, .negSucc 0), (417964662589, .ofNat 1), (436833265901, .ofNat 1), (476546212943, .ofNat 1), (498059422687, .ofNat 1), (566160094351, .negSucc 0), (645512582837, .negSucc 0), (688110381839, .ofNat 1), (784555312693, .ofNat 1)] 0))) (.node (.leaf (.adef 37441 [(3577883, .negSucc 0), (4496677, .ofNat 1)] 0)) .nil)) (.node (.node (.leaf (.adef 2011 [(85039, .negSucc 0), (23055727, .ofNat 1)] 0)) (.leaf (.trans [(46853, .ofNat 1)] 0))) (.node (.leaf (.adef 32441 [(2883103, .negSucc 0), (3799673, .negSucc 0), (327264143, .ofNat 1), (403898717, .ofNat 1)] 0)) .nil))) (.node (.node (.node (.leaf (.atom 22621)) (.leaf (.adef 28447 [(8216039443, .ofNat 1), (9892265311, .ofNat 1), (10347932447, .ofNat 1)] 0))) (.node (.leaf (.adef 39133 [(6986579, .negSucc 0), (8373047, .ofNat 1)] 0)) .nil)) (.node (.node (.leaf (.adef 29851 [(4184041, .ofNat 1), (8765389, .ofNat 1)] 0)) .nil) (.node (.leaf (.adef 26687 [(3088541, .ofNat 1), (3290471, .negSucc 0), (6426193, .ofNat 1), (6827537, .ofNat 1), (109537621, .negSucc 0), (135431629, .negSucc 0), (455215363, .negSucc 0), (496865107, .ofNat 1)] 0)) .nil)))) (.node (.node (.node (.node (.leaf (.atom 5927)) (.leaf (.adef 45259 [(12132257, .ofNat 1), (1842884921, .ofNat 1), (1883847619, .ofNat 1), (2676151537, .negSucc 0), (2746323331, .ofNat 1)] 0))) (.node (.leaf (.adef 12343 [(4340866333, .negSucc 0), (5023432199, .ofNat 1), (5421787093, .ofNat 1)] 0)) .nil)) (.node (.node (.leaf (.adef 23173 [(23927131, .ofNat 1), (131314493, .negSucc 0), (142080503, .ofNat 1)] 0)) .nil) (.node (.leaf (.adef 41719 [(6367931, .ofNat 1), (14440253, .ofNat 1), (14444629, .ofNat 1), (27526021, .ofNat 1), (29017397, .ofNat 1), (954849641, .ofNat 1), (955742789, .ofNat 1)] 0)) .nil))) (.node (.node (.node (.leaf (.atom 11)) (.leaf (.atom 619))) (.node (.leaf (.adef 6871 [(790921, .ofNat 1), (1203373, .ofNat 1)] 0)) .nil)) (.node (.node (.leaf (.adef 18097 [(5602435777, .ofNat 1), (5664771641, .ofNat 1), (8263047823, .ofNat 1), (8354987159, .ofNat 1), (14768876183, .negSucc 0), (14933203039, .negSucc 0), (15840066757, .ofNat 1), (16834484881, .negSucc 0), (23360740981, .ofNat 1), (41742375959, .negSucc 0), (161221436429, .ofNat 1), (174522721501, .ofNat 1), (889966193419, .ofNat 1), (891046406587, .negSucc 0), (893720767531, .ofNat 1), (1084091219509, .ofNat 1), (1823108435653, .negSucc 0), (2764448564083, .ofNat 1), (2869986595369, .negSucc 0), (4534141421899, .negSucc 0), (4631518123139, .ofNat 1), (5481951154583, .negSucc 0), (14986796063009, .ofNat 1), (114983032358947, .negSucc 0), (115615299255793, .negSucc 0), (309803153851621, .negSucc 0), (311506694580199, .negSucc 0)] 0)) .nil) (.node (.leaf (.adef 43721 [(13021873, .ofNat 1), (13072747, .negSucc 0), (13093321, .negSucc 0)] 0)) .nil))))

def jac142 : JTree := .node (.node (.node (.node (.node (.node (.node (.leaf (.atom 401)) (.leaf (.adef 9371 [(913333, .ofNat 1), (931001, .ofNat 1), (302833373, .ofNat 1)] 0))) (.node (.leaf (.adef 24109 [(6846036713, .ofNat 2), (7167825881, .negSucc 1), (12208910159, .negSucc 1), (12659423449, .negSucc 1), (17524966981, .negSucc 1), (104618525632897, .negSucc 1), (129116767545043, .negSucc 1), (136098217629721, .negSucc 1), (186762417961477, .ofNat 2), (640443620865871, .ofNat 2), (664076226801881, .ofNat 2), (712104786583633, .ofNat 2), (738381715977863, .ofNat 2), (919308370910789, .ofNat 2), (1022172553435547, .ofNat 2)] 0)) .nil)) (.node (.node (.leaf (.adef 17183 [(5725703, .negSucc 0), (7243609, .negSucc 0)] 0)) .nil) (.node (.leaf (.adef 11321 [(5254573, .negSucc 0), (432626503, .negSucc 0), (535202219, .ofNat 1), (774479171, .negSucc 0), (885348319, .ofNat 1), (1925249149, .ofNat 1), (1939965011, .negSucc 0), (1965951133, .negSucc 0), (2055930731, .ofNat 1), (2393203133, .ofNat 1), (2434305977, .negSucc 0), (3164127647, .ofNat 1)] 0)) .nil))) (.node (.node (.node (.leaf (.atom 2339)) (.leaf (.adef 21929 [(214157, .negSucc 0), (233561, .ofNat 1), (552941, .negSucc 0), (77030651, .negSucc 0), (84078539, .ofNat 1)] 0))) (.node (.leaf (.adef 8707 [(7452881, .negSucc 0), (8686247, .negSucc 0), (11682119, .ofNat 1), (12386137, .negSucc 0), (13919441, .negSucc 0), (15268291, .ofNat 1)] 0)) .nil)) (.node (.node (.leaf (.adef 3191 [(286685539, .negSucc 0), (293881777, .negSucc 0), (445231295579, .ofNat 1)] 0)) .nil) (.node (.leaf (.adef 41983 [(2134969, .ofNat 1), (2897117, .ofNat 1), (4308019, .negSucc 0), (5195461, .negSucc 0)] 0)) .nil)))) (.node (.node (.node (.node (.leaf (.atom 28499)) (.leaf (.adef 27583 [(6094769, .ofNat 1), (1351400317, .ofNat 1)] 0))) (.node (.leaf (.adef 30703 [(7065913, .ofNat 4), (524444959, .ofNat 2), (2165217251, .ofNat 1), (4240657651, .ofNat 2)] 1)) .nil)) (.node (.node (.leaf (.adef 15271 [(784398913, .negSucc 3), (820228261, .negSucc 3), (914775089, .ofNat 4), (990950117, .negSucc 3), (246335125027, .ofNat 2), (313594573861, .negSucc 1), (42311195728597, .ofNat 2), (46144861879681, .negSucc 1), (47551288145131, .ofNat 2), (51859740332863, .negSucc 1)] 1)) (.leaf (.trans [] 0))) (.node (.leaf (.adef 25997 [(41333, .ofNat 1), (11249773, .negSucc 0), (13037587, .ofNat 1), (13293727, .ofNat 1), (17353093, .negSucc 0), (18356879, .ofNat 1), (18578291, .ofNat 1), (20212567, .negSucc 0), (26687459, .negSucc 0), (68822777, .negSucc 0), (1545933317959, .ofNat 1)] 0)) .nil))) (.node (.node (.node (.leaf (.atom 6673)) (.leaf (.adef 35081 [(21978413, .negSucc 0), (22402817, .ofNat 1), (23800013, .ofNat 1), (23976989, .negSucc 0)] 0))) (.node (.leaf (.adef 19289 [(295640317, .ofNat 1), (302436449, .ofNat 1), (449146857943, .negSucc 0)] 0)) .nil)) (.node (.node (.leaf (.adef 36187 [(3574213, .negSucc 0), (4548113, .negSucc 0), (6030217, .ofNat 1)] 0)) .nil) (.node (.leaf (.adef 26759 [(81334679, .negSucc 0), (90729517, .ofNat 1)] 0)) .nil))))) jac139) (.node (.node (.node (.node (.node (.node .nil (.leaf (.adef 21163 [(128111869, .ofNat 1), (38635119661, .negSucc 0), (49174811461, .ofNat 1), (59376867391, .ofNat 1), (78323654081, .ofNat 1), (192301635343, .ofNat 1), (208132964191, .negSucc 0), (3238938906097, .negSucc 0), (5226924846107, .ofNat 1), (16913429813417, .ofNat 1)] 0))) (.node (.leaf (.adef 5743 [(308167, .ofNat 1), (537503, .ofNat 1), (727841, .ofNat 1), (67072471, .ofNat 1), (73734071, .negSucc 0), (7650355697, .negSucc 0)] 0)) .nil)) (.node (.node (.leaf (.adef 17207 [(441367, .ofNat 4), (882404279, .ofNat 2)] 1)) (.leaf (.trans [] 0))) (.node (.leaf (.adef 32173 [(5568049, .ofNat 4), (2180715133, .ofNat 2)] 1)) .nil))) (.node (.node (.node (.leaf (.atom 12829)) (.leaf (.adef 28181 [(22353803, .ofNat 1), (11446000039, .ofNat 1)] 0))) (.node (.leaf (.adef 8719 [(5513483, .ofNat 1), (5549449, .ofNat 1), (7347937, .ofNat 1), (1080375677, .negSucc 0), (1310136901, .ofNat 1)] 0)) .nil)) (.node (.node (.leaf (.adef 11087 [(296377963, .ofNat 1), (338395799, .negSucc 0), (346388077, .negSucc 0), (352478497, .negSucc 0), (354103379, .ofNat 1), (354864293, .negSucc 0), (545852805379, .negSucc 0), (547021409221, .ofNat 1), (555404179477, .ofNat 1)] 0)) .nil) (.node (.leaf (.adef 42331 [(2367887, .ofNat 1), (34621433477, .ofNat 1), (44055066577, .ofNat 1)] 0)) .nil)))) jac140) jac141)

end BP.EL
