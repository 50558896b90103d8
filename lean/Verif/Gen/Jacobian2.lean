import Verif.Lemmas.JTree
import Verif.Gen.Jacobian1

/-!
# Generated by tools/gen_jacobian.py
-/

namespace BP.EL

def jac30 : JTree := .node (.node (.node (.node (.node (.leaf (.trans [(89711, .ofNat 1), (123107, .negSucc 0)] 0)) (.leaf (.adef 44111 [(13379921, .negSucc 0), (13410041, .ofNat 1), (14227583, .ofNat 1), (14413163, .negSucc 0)] 0))) (.node (.leaf (.adef 18307 [(7516253, .negSucc 0), (8396359, .ofNat 1), (8453827, .negSucc 0), (2545840961, .ofNat 1), (4036627891, .ofNat 1)] 0)) .nil)) (.node (.node (.leaf (.adef 13177 [(5724161, .negSucc 0), (7283267, .ofNat 1)] 0)) (.leaf (.trans [] 0))) (.node (.leaf (.adef 40543 [(4043971, .ofNat 1), (23564512711, .negSucc 0)] 0)) .nil))) (.node (.node (.node (.leaf (.atom 16901)) (.leaf (.adef 45557 [(9559547, .ofNat 1), (15435793, .negSucc 0), (19775911, .ofNat 1), (34087297, .ofNat 1), (851330737, .ofNat 1), (10163628323, .ofNat 1), (12543618137, .ofNat 1), (136805776271, .ofNat 1), (187733373827, .negSucc 0)] 0))) (.node (.leaf (.adef 25033 [(5933569, .ofNat 1), (6305881, .ofNat 1), (450695227, .negSucc 0), (491931403, .ofNat 1), (787554319, .ofNat 1), (788207983, .negSucc 0)] 0)) .nil)) (.node (.node (.leaf (.adef 23557 [(23617901, .ofNat 1), (37261657, .negSucc 0), (37607699, .ofNat 1)] 0)) .nil) (.node (.leaf (.adef 14221 [(42397, .ofNat 1), (8848039, .ofNat 1), (10893581, .ofNat 1), (11671139, .negSucc 0), (14742877, .negSucc 0), (17575447, .negSucc 0), (19817887, .ofNat 1), (22402727, .negSucc 0), (24571991, .ofNat 1), (29149361, .ofNat 1), (44156677, .negSucc 0)] 0)) .nil)))) (.node (.node (.node (.node (.leaf (.atom 48131)) (.leaf (.adef 34261 [(1525055667071, .ofNat 1)] 0))) (.node (.leaf (.adef 30881 [(652129, .ofNat 1), (898847, .negSucc 0), (1484863, .negSucc 0), (1564817, .negSucc 0), (2096141, .ofNat 1), (2865959, .ofNat 1), (91489687, .ofNat 1), (97124669, .ofNat 1), (155760317, .ofNat 1)] 0)) .nil)) (.node (.node (.leaf (.adef 15361 [(432779, .ofNat 4), (1061577373, .ofNat 2)] 1)) .nil) (.node (.leaf (.adef 26119 [(6258253, .ofNat 1), (6655417, .ofNat 1), (454085329, .negSucc 0), (495631681, .ofNat 1), (789027539, .negSucc 0), (794869661, .ofNat 1)] 0)) .nil))) (.node (.node (.node (.leaf (.atom 6047)) (.leaf (.adef 47093 [(786588751, .negSucc 0), (786751043, .ofNat 1), (840208109, .negSucc 0), (840814351, .ofNat 1), (883403027, .ofNat 1), (883494001, .negSucc 0), (1184716741, .ofNat 1), (1184838707, .ofNat 1), (1193354513, .negSucc 0), (1207016291, .ofNat 1), (1210635439, .negSucc 0), (1216304297, .ofNat 1), (7068565050131, .ofNat 1), (7652452594189, .ofNat 1), (8014035256747, .negSucc 0), (10820405115637, .negSucc 0)] 0))) (.node (.leaf (.adef 31769 [(2925239, .ofNat 1), (3207541, .negSucc 0), (3271511, .negSucc 0), (3781409, .ofNat 1), (92240171, .ofNat 1), (324981109, .negSucc 0), (401081071, .negSucc 0)] 0)) .nil)) (.node (.node (.leaf (.adef 36467 [(52090263, .ofNat 1), (114919407, .ofNat 2), (134346939, .ofNat 2), (141087321, .ofNat 1), (260028593469, .negSucc 1)] 0)) .nil) (.node (.leaf (.adef 43019 [(23631, .negSucc 3), (119277351, .ofNat 2), (157217481, .ofNat 1), (6488103267, .ofNat 2), (9458530083, .ofNat 2), (267794759097, .negSucc 1)] 0)) .nil))))

def jac31 : JTree := .node (.node jac28 (.node (.node (.node (.node (.node (.leaf (.atom 47569)) (.leaf (.adef 21317 [(1361, .ofNat 1), (514951, .ofNat 1), (528499, .ofNat 1)] 0))) (.node (.leaf (.adef 4733 [(660173, .negSucc 0), (862793, .ofNat 1), (89400427, .negSucc 0), (98279627, .ofNat 1)] 0)) .nil)) (.node (.node (.leaf (.adef 15139 [(392563, .ofNat 4), (778922723, .ofNat 2)] 1)) (.leaf (.trans [] 0))) (.node (.leaf (.adef 40883 [(3438991, .ofNat 1), (4127411, .negSucc 0)] 0)) .nil))) (.node (.node (.node (.leaf (.adef 8161 [(384887, .ofNat 1), (611309, .negSucc 0), (715381, .negSucc 0), (749999, .ofNat 1), (224147821, .negSucc 0), (20678433949, .ofNat 1), (22732204349, .negSucc 0)] 0)) (.leaf (.adef 34703 [(137337, .ofNat 2), (693922599, .negSucc 0)] 0))) jac29) (.node (.node (.leaf (.adef 13457 [(35999, .ofNat 1), (7620367, .negSucc 0), (9664261, .ofNat 1), (11553209, .negSucc 0), (14427437, .negSucc 0), (17314183, .ofNat 1), (19486339, .ofNat 1), (20235731, .ofNat 1), (21978653, .negSucc 0), (26078929, .ofNat 1), (43823449, .ofNat 1)] 0)) .nil) (.node (.leaf (.adef 20549 [(1435033, .negSucc 0), (2380327, .ofNat 1)] 0)) .nil)))) (.node (.node (.node (.node (.leaf (.atom 48449)) (.leaf (.adef 45053 [(15497411, .ofNat 1), (17477533, .negSucc 0), (28059281, .negSucc 0)] 0))) (.node (.leaf (.adef 38431 [(2353541, .ofNat 1), (2818082229491, .ofNat 1), (3585952046791, .ofNat 1), (4092287588827, .negSucc 0), (5207352326927, .negSucc 0)] 0)) .nil)) (.node (.node (.leaf (.adef 3779 [(372411683, .ofNat 1), (445106552063240557, .negSucc 0)] 0)) .nil) (.node (.leaf (.adef 20249 [(92585431, .ofNat 1), (98946893, .ofNat 1)] 0)) .nil))) (.node (.node (.node (.leaf (.atom 48857)) (.leaf (.atom 5399))) (.node (.leaf (.adef 40063 [(17117203, .negSucc 0), (22559531, .negSucc 0), (30292531, .negSucc 0)] 0)) .nil)) (.node (.node (.leaf (.adef 30223 [(2455753, .ofNat 1), (2944001, .ofNat 1)] 0)) .nil) (.node (.leaf (.adef 43457 [(3194671, .ofNat 1), (4165703, .negSucc 0)] 0)) .nil)))))) (.node jac30 (.node (.node (.node (.node (.node (.leaf (.atom 47809)) (.leaf (.adef 9431 [(899539, .negSucc 0), (1442197, .negSucc 0), (3450901, .ofNat 1), (196684253, .negSucc 0), (211716313, .negSucc 0), (247663963, .negSucc 0), (305890171, .negSucc 0), (320353573, .negSucc 0), (323200391, .negSucc 0), (453899129, .negSucc 0), (473605337, .negSucc 0), (2777740601, .negSucc 0), (2978993851, .negSucc 0), (3779163467, .negSucc 0), (67116317629, .negSucc 0), (71809631611, .negSucc 0), (72245841209, .negSucc 0), (77297852831, .negSucc 0), (84512577659, .negSucc 0), (90422378381, .negSucc 0), (110288545063, .negSucc 0), (118000809217, .negSucc 0)] 0))) (.node (.leaf (.adef 24481 [(27609749, .negSucc 0), (28324741, .ofNat 1), (111501479, .negSucc 0)] 0)) .nil)) (.node (.node (.leaf (.adef 4241 [(1496993, .negSucc 0), (1788047, .ofNat 1)] 0)) (.leaf (.trans [(47351, .negSucc 0)] 0))) (.node (.leaf (.adef 16127 [(35049463, .ofNat 1), (35114587, .negSucc 0), (35629973, .ofNat 1), (35683451, .negSucc 0)] 0)) .nil))) (.node (.node (.node (.leaf (.atom 12889)) (.leaf (.adef 46091 [(43317277, .negSucc 0), (49547437, .negSucc 0), (50087273, .ofNat 1), (60016441, .ofNat 1), (61063363, .negSucc 0)] 0))) (.node (.leaf (.adef 39181 [(6337867, .ofNat 1), (13850587, .ofNat 1), (13860433, .ofNat 1), (27467569, .ofNat 1), (28694209, .ofNat 1), (955927277, .negSucc 0), (956821433, .negSucc 0)] 0)) .nil)) (.node (.node (.leaf (.adef 12251 [(3965999, .ofNat 1), (8220083, .ofNat 1), (8277931, .ofNat 1), (10992083, .ofNat 1), (2205268309, .ofNat 1), (2497454941, .ofNat 1)] 0)) .nil) (.node (.leaf (.adef 20753 [(40244719, .ofNat 1), (41319301, .negSucc 0), (50236217, .ofNat 1), (17252413153, .negSucc 0)] 0)) .nil)))) (.node (.node (.node (.node (.leaf (.atom 3583)) (.leaf (.adef 45317 [(874097419, .ofNat 1), (939439631, .ofNat 1), (981961877, .negSucc 0), (1321433581, .negSucc 0)] 0))) (.node (.leaf (.adef 7757 [(27969947303, .ofNat 1), (32696702999, .negSucc 0)] 0)) .nil)) (.node (.node (.leaf (.adef 29569 [(69429263, .ofNat 1), (69618551, .negSucc 0), (73903134047, .ofNat 1), (76350344891, .negSucc 0), (77478581303, .ofNat 1), (80044188659, .negSucc 0)] 0)) .nil) (.node (.leaf (.adef 32803 [(579867, .ofNat 4), (26602803, .negSucc 1), (145584279, .ofNat 2), (159708069, .ofNat 1), (251914599, .ofNat 1), (256420953, .ofNat 1), (3261385107, .negSucc 1), (52767987273, .ofNat 3), (276983294769, .negSucc 1), (324491140989, .negSucc 1), (367737012639, .negSucc 1), (376368008139, .negSucc 0), (434157565383, .negSucc 0), (549410187084579, .ofNat 4)] 0)) .nil))) (.node (.node (.node (.leaf (.atom 11731)) .nil) (.node (.leaf (.adef 25561 [(6086581, .ofNat 1), (6486607, .negSucc 0), (424524641, .negSucc 0), (524879609, .negSucc 0)] 0)) .nil)) (.node (.node (.leaf (.adef 37021 [(11856413, .negSucc 0), (12014389, .ofNat 1), (12053869, .negSucc 0)] 0)) .nil) (.node (.leaf (.adef 12511 [(5064563723, .ofNat 1), (5469314203, .ofNat 1), (1105331011597, .ofNat 2)] 0)) .nil))))))

def jac32 : JTree := .node (.node (.node (.node (.node (.leaf (.atom 257)) (.leaf (.adef 21001 [(5719579, .negSucc 0), (17814037, .negSucc 0), (30517999, .ofNat 2)] 0))) (.node (.leaf (.adef 2609 [(1372333, .ofNat 2), (1977037, .ofNat 1)] 0)) .nil)) (.node (.node (.leaf (.atom 4679)) .nil) (.node (.leaf (.adef 40123 [(5457779, .ofNat 1), (8166931, .negSucc 0)] 0)) .nil))) (.node (.node (.node .nil (.leaf (.adef 21803 [(97241197, .ofNat 1), (97309057, .negSucc 0), (73622858003, .negSucc 0), (73722699859, .ofNat 1)] 0))) (.node (.leaf (.adef 18859 [(27493535749, .ofNat 1)] 0)) .nil)) (.node (.node (.leaf (.adef 3049 [(290871721, .ofNat 1), (347952619, .ofNat 1), (373177511, .ofNat 1), (506692949, .negSucc 0), (534167921, .negSucc 0), (16341228547, .ofNat 1), (58189290761, .negSucc 0), (68809108711, .negSucc 0), (70057672517, .ofNat 1), (91080540061, .negSucc 0), (108286295467, .ofNat 1), (109584360697, .ofNat 1), (539494459147, .negSucc 0), (755526306731, .negSucc 0), (990962444003, .ofNat 1), (94307994542503, .ofNat 1), (113467501220731, .negSucc 0)] 0)) .nil) (.node (.leaf (.adef 32869 [(143618031, .ofNat 2), (159912567, .ofNat 1), (250786539, .ofNat 1), (256927401, .ofNat 1), (273242383641, .negSucc 1), (320108593221, .negSucc 1), (362770390071, .negSucc 1), (374682652479, .negSucc 0), (435015054711, .negSucc 0), (541989903184731, .ofNat 4)] 0)) .nil)))) (.node (.node (.node (.node (.leaf (.atom 4889)) (.leaf (.adef 44491 [(79567, .ofNat 1), (34952257, .negSucc 0)] 0))) (.node (.leaf (.adef 30631 [(1558639, .ofNat 1), (67911227, .ofNat 1), (123051433, .negSucc 0), (161920747, .ofNat 1), (8083768499, .ofNat 1)] 0)) .nil)) (.node (.node (.leaf (.adef 15233 [(30619751, .ofNat 4), (238686191, .negSucc 3), (241401899, .ofNat 4), (440760911, .negSucc 3), (448742303, .negSucc 3), (610515583, .negSucc 3), (623999303, .ofNat 4), (940547953, .ofNat 4), (29834641363, .ofNat 4), (30203511487, .ofNat 4), (30247769291, .negSucc 3), (40301483429, .ofNat 2), (51926515643, .negSucc 1), (58752578021, .ofNat 2)] 1)) .nil) (.node (.leaf (.adef 8969 [(8841149, .ofNat 1), (11729089, .ofNat 1), (11780861, .negSucc 0), (17675687, .negSucc 0)] 0)) .nil))) (.node (.node (.node (.leaf (.atom 12941)) (.leaf (.adef 34871 [(19811041, .ofNat 1), (20961049, .negSucc 0), (22148261, .ofNat 1), (22386029, .negSucc 0)] 0))) (.node (.leaf (.adef 15919 [(38657041, .ofNat 4), (56630593, .ofNat 4), (4652195059, .ofNat 1), (15457316261, .ofNat 2), (19632591029, .negSucc 1), (622805275669, .ofNat 2), (681119125033, .negSucc 1), (947131252033, .ofNat 2), (98943272082367, .ofNat 2)] 1)) .nil)) (.node (.node (.leaf (.adef 36067 [(6563131, .ofNat 1), (7924621, .negSucc 0), (13584167, .ofNat 1)] 0)) .nil) (.node (.leaf (.adef 26717 [(26713, .ofNat 1), (18923899, .ofNat 1), (1165764781, .negSucc 0), (1567222159, .negSucc 0), (2045214713, .ofNat 1), (2870954729, .negSucc 0), (4400693513, .negSucc 0), (4550857397, .negSucc 0), (6449379823, .negSucc 0), (571918097657, .negSucc 0), (577470148391, .ofNat 1), (979068484817, .negSucc 0)] 0)) .nil))))

def jac33 : JTree := .node (.node (.node (.node (.leaf (.atom 6373)) (.leaf (.adef 44699 [(4075697, .ofNat 1), (16266113387, .negSucc 0)] 0))) (.node (.leaf (.adef 37783 [(44500321, .negSucc 3), (495559591, .negSucc 3), (506324981, .negSucc 3), (719628527, .ofNat 4), (738134069, .negSucc 3), (1065707297, .negSucc 3), (1089605213, .negSucc 3), (1229372093, .negSucc 3), (1476153841, .negSucc 3), (1515152213, .ofNat 4), (2182630991, .ofNat 4), (2822258809, .ofNat 4), (2922664909, .negSucc 3), (4699304881, .ofNat 4), (10399787443, .negSucc 3), (10436807657, .ofNat 4), (11487433417, .ofNat 4), (18697592149, .negSucc 3), (23179151507, .ofNat 4), (36994537847, .negSucc 3), (37127803891, .ofNat 4), (38310674147, .ofNat 4), (40875370181, .negSucc 1), (46979024177, .negSucc 1), (48810738343, .negSucc 3), (49414225507, .negSucc 3), (49486633151, .ofNat 4), (51427207523, .ofNat 4), (53272967147, .negSucc 3), (53931624503, .negSucc 3), (56839309181, .ofNat 2), (82282353893, .ofNat 4), (84618132283, .negSucc 3), (85292751113, .ofNat 4), (85580894887, .ofNat 4), (112197470123, .ofNat 1), (130874852447, .negSucc 0), (147724089439, .negSucc 3), (150578780711, .negSucc 3), (163564466027, .ofNat 1), (180685446587, .negSucc 3), (182741237543, .ofNat 4), (201130606291, .negSucc 3), (206423325971, .ofNat 4), (214518033383, .ofNat 4), (219517764839, .negSucc 3), (318525644221, .negSucc 3), (331294723439, .negSucc 3), (1088931506261, .ofNat 2), (14273856703963, .negSucc 1), (17536115815499, .negSucc 1), (17675922658489, .ofNat 2), (18185988637247, .ofNat 2), (19848533500963, .ofNat 2), (22584823511791, .ofNat 4), (22864058195659, .ofNat 4), (22897561353287, .negSucc 3)] 1)) .nil)) (.node (.node (.leaf (.adef 1307 [(67591, .ofNat 1), (18702763, .ofNat 1)] 0)) (.leaf (.trans [(47431, .ofNat 1)] 0))) (.node (.leaf (.adef 26021 [(22746244739, .negSucc 0), (25373626897, .ofNat 1)] 0)) .nil))) (.node (.node (.node (.leaf (.atom 6781)) (.leaf (.adef 46591 [(44517637, .negSucc 0), (49970143, .ofNat 1), (49988567, .negSucc 0), (62803591, .ofNat 1), (63472049, .negSucc 0)] 0))) (.node (.leaf (.adef 39541 [(363697, .ofNat 1), (2922851, .negSucc 0), (3193391, .negSucc 0), (131783461, .ofNat 1), (139657079, .ofNat 1)] 0)) .nil)) (.node (.node (.leaf (.adef 29917 [(612761, .ofNat 1), (30321469, .negSucc 0), (31523431, .negSucc 0), (38905189, .negSucc 0), (53916311, .ofNat 1), (100431059, .negSucc 0), (132155081, .ofNat 1), (13134868823, .negSucc 0)] 0)) .nil) (.node (.leaf (.adef 26849 [(103118793413, .negSucc 3), (111705687689, .ofNat 4), (112346134801, .ofNat 4), (117477820597, .ofNat 4), (233477337931, .negSucc 1), (234815943779, .negSucc 1), (245383110487, .negSucc 1), (260746368671, .negSucc 3), (265642042969, .negSucc 3), (277775896093, .negSucc 3), (279552078503, .ofNat 2), (282459205163, .ofNat 4), (409820504087, .negSucc 3), (428540062739, .negSucc 3), (430997030251, .negSucc 3), (466886956903, .ofNat 4), (624896600819, .ofNat 2), (711911847811, .negSucc 1), (720207754433, .negSucc 1), (724336953097, .negSucc 1), (1092368946673, .ofNat 4), (1111082512691, .negSucc 3), (1161833936927, .negSucc 3), (1183332546469, .negSucc 3), (140736062492741, .negSucc 3), (152455416932873, .ofNat 4), (318648813995467, .negSucc 1), (334897758489559, .negSucc 1), (3233717390401441, .ofNat 4), (3381425379020677, .ofNat 4), (6758829774488339, .negSucc 1), (8046493271702423, .ofNat 2), (554218030698082067, .negSucc 3), (579533301232828799, .negSucc 3), (770668739170855067, .ofNat 4), (805870927739509799, .ofNat 4), (1158377457028014793, .ofNat 2), (1379066602513050901, .negSucc 1), (1610783563225581793, .negSucc 1), (1917663195570669901, .ofNat 2)] 1)) .nil)))

def jac34 : JTree := .node (.node (.node (.node (.leaf (.atom 3407)) (.leaf (.adef 4567 [(45119, .negSucc 0), (3000203, .ofNat 1), (830091667, .negSucc 0), (65315685389, .ofNat 1), (83590370333, .ofNat 1), (232124502163, .ofNat 1)] 0))) (.node (.leaf (.adef 38501 [(9895861, .ofNat 1), (9927317, .ofNat 1), (19142423, .ofNat 1), (19191709, .ofNat 1), (19992943, .ofNat 1), (20085883, .ofNat 1), (26818787, .ofNat 1), (27003661, .ofNat 1), (28796051, .ofNat 1), (30249983, .ofNat 1), (30402781, .ofNat 1), (33938711, .ofNat 1), (37128583, .ofNat 1), (50751959, .ofNat 1), (51338851, .ofNat 1), (58440451, .ofNat 1), (58692059, .ofNat 1), (80812031, .ofNat 1), (93083063, .ofNat 1), (1142004067, .ofNat 1), (1145016569, .ofNat 1), (1255427267, .negSucc 0), (1258738969, .negSucc 0), (1299479723, .ofNat 2), (1305387217, .ofNat 2), (1450776361, .ofNat 1), (1730395543, .ofNat 1), (1767104849, .ofNat 1), (2009063843, .ofNat 1), (2009656741, .ofNat 1), (2371822703, .ofNat 1), (2521911443, .ofNat 1), (2839681631, .ofNat 1), (3697789463, .ofNat 1), (3784098541, .ofNat 1), (3940648357, .ofNat 1), (5139806083, .ofNat 1), (5840361313, .ofNat 2), (6653183071, .ofNat 2), (7409119229, .ofNat 2), (8753834827, .ofNat 2), (10959329351, .ofNat 1), (11544552329, .ofNat 1), (17642264501, .ofNat 1), (19773592373, .ofNat 2), (80877793033, .ofNat 1), (88910529833, .negSucc 0), (99819321851, .ofNat 2), (113635434637, .ofNat 2), (116884038673, .ofNat 2), (117828624107, .ofNat 2), (122838301661, .ofNat 2), (127018047151, .ofNat 2), (149899715351, .ofNat 2), (155431070161, .ofNat 2), (160024672637, .ofNat 2), (189903430121, .ofNat 1), (198505725389, .ofNat 2), (201055550299, .ofNat 2), (201233114749, .ofNat 2), (208764531721, .negSucc 0), (245196276739, .ofNat 2), (251175381889, .ofNat 2), (261758028193, .ofNat 2), (510224355941, .negSucc 0), (545467919851, .ofNat 1), (1091186590621, .ofNat 1), (1506521231417, .ofNat 1), (1553779503587, .ofNat 2), (1649445014783, .ofNat 2), (1733111753647, .negSucc 0), (1854808404793, .negSucc 0), (1873784474503, .ofNat 2), (2028164511623, .negSucc 0), (2077941986459, .ofNat 1), (2170847987551, .negSucc 1), (2392780186019, .negSucc 0), (2800137871771, .negSucc 0), (16910331677377, .ofNat 2), (17534329156247, .ofNat 2), (21518051480477, .ofNat 2), (48537882562391, .ofNat 2), (50987671668049, .ofNat 2), (52676358409291, .ofNat 2), (56835727165093, .ofNat 2)] 0)) .nil)) (.node (.node (.leaf (.adef 29399 [(1199449, .negSucc 0), (50464471, .negSucc 0)] 0)) .nil) (.node (.leaf (.adef 32687 [(58081637, .negSucc 0), (99489499, .ofNat 1), (136525663, .negSucc 0), (15747061541, .ofNat 1)] 0)) .nil))) (.node (.node (.node (.leaf (.atom 2551)) (.leaf (.atom 1319))) (.node (.leaf (.adef 5791 [(554809, .ofNat 1), (53782021, .ofNat 1), (59123621, .negSucc 0)] 0)) .nil)) (.node (.node (.leaf (.adef 36781 [(36779, .ofNat 1), (10317091, .negSucc 0), (12221329, .ofNat 1), (18113057, .negSucc 0), (22243061, .negSucc 0), (26201897, .ofNat 1), (27431783, .ofNat 1), (29749931, .negSucc 0), (30071267, .ofNat 1), (35293711, .ofNat 1), (68612917, .ofNat 1)] 0)) .nil) (.node (.leaf (.adef 33623 [(21998939, .negSucc 0), (22128163, .ofNat 1), (23176367, .ofNat 1), (23234389, .negSucc 0)] 0)) .nil)))

def jac35 : JTree := .node (.node (.node (.node (.node (.node (.leaf (.atom 8011)) (.leaf (.adef 21061 [(43951, .ofNat 1), (11987137, .ofNat 1), (14125747, .ofNat 1), (16179061, .negSucc 0), (17739941, .ofNat 1)] 0))) (.node (.leaf (.adef 18229 [(18223, .negSucc 0), (5894429, .negSucc 0), (6414347, .ofNat 1), (8726911, .ofNat 1), (11044051, .negSucc 0), (14092751, .negSucc 0), (15643241, .ofNat 1), (22330421, .ofNat 1), (30112141, .negSucc 0)] 0)) .nil)) (.node (.node (.leaf (.adef 22717 [(52845003, .ofNat 2), (63827721, .negSucc 0), (92861563131, .negSucc 1)] 0)) .nil) (.node (.leaf (.adef 40423 [(21004727857, .ofNat 1), (25973615167, .ofNat 1), (9895989945323, .ofNat 1), (11205662833357, .ofNat 1), (15719917999817, .ofNat 1), (144698508838879, .negSucc 0), (161412400946117, .ofNat 1), (255153677220031, .negSucc 0), (494077801530689, .negSucc 0), (497642503054261, .negSucc 0), (551147933998747, .ofNat 1)] 0)) .nil))) (.node (.node (.node (.leaf (.atom 2089)) (.leaf (.adef 34487 [(5155901, .ofNat 1), (685903609, .negSucc 0), (781004723, .ofNat 1)] 0))) (.node (.leaf (.adef 24943 [(1850377, .negSucc 0), (5118601, .negSucc 0), (58148395163, .ofNat 1), (62143719289, .ofNat 1)] 0)) .nil)) (.node (.node (.leaf (.adef 11027 [(292675033, .negSucc 0), (350231203, .negSucc 0), (351742069, .ofNat 1), (375557203, .negSucc 0), (508200301, .ofNat 1), (536407389371, .ofNat 1), (539158137553, .negSucc 0), (548941692859, .ofNat 1), (751089917683, .ofNat 1), (984836359927, .negSucc 0)] 0)) .nil) (.node (.leaf (.adef 20399 [(42131, .ofNat 1), (81068447, .negSucc 0), (81432353, .negSucc 0), (81537107, .ofNat 1), (87187927, .ofNat 1), (87229459, .negSucc 0), (89113471, .ofNat 1), (105876961, .negSucc 0), (110761823, .ofNat 1), (115868629, .ofNat 1), (118916597, .ofNat 1)] 0)) .nil)))) jac33) (.node (.node (.node (.node (.node (.leaf (.atom 47653)) (.leaf (.adef 27329 [(6617147, .ofNat 1), (7026137, .ofNat 1), (274786601, .negSucc 0), (299928089, .ofNat 1)] 0))) (.node (.leaf (.adef 18461 [(13038594053, .ofNat 1)] 0)) .nil)) (.node (.node (.leaf (.adef 29059 [(9386891, .ofNat 1), (15269339, .ofNat 1)] 0)) (.leaf (.trans [(1, .ofNat 1)] 0))) (.node (.leaf (.adef 40933 [(22906031, .negSucc 0), (23075599, .negSucc 0), (23154949, .ofNat 1), (25601557, .ofNat 1), (25712651, .negSucc 0)] 0)) .nil))) (.node (.node (.node (.leaf (.atom 28663)) (.leaf (.adef 45841 [(12182383, .negSucc 0), (38156849, .negSucc 0), (849829007, .negSucc 0), (1862820847, .ofNat 1), (1904778509, .ofNat 1), (2705101559, .negSucc 0), (2776836941, .ofNat 1), (136564453681, .negSucc 0), (187402215997, .ofNat 1), (2556673274509, .ofNat 1), (3155362655671, .ofNat 1)] 0))) (.node (.leaf (.adef 25153 [(47309393, .negSucc 0), (50559979, .negSucc 0), (136796173, .negSucc 0), (152597279, .ofNat 1), (231666913, .negSucc 0), (247584539, .negSucc 0)] 0)) .nil)) (.node (.node (.leaf (.adef 29789 [(25604231, .negSucc 0), (26914421, .ofNat 1), (28897931, .ofNat 1), (8408436191, .negSucc 0)] 0)) .nil) (.node (.leaf (.adef 10321 [(11713128601, .ofNat 1)] 0)) .nil)))) jac34)

def jac36 : JTree := .node (.node (.node (.node (.node (.leaf (.atom 2)) (.leaf (.adef 43787 [(17870093, .negSucc 0), (506775161, .ofNat 1), (3453329333, .ofNat 1), (3581511821, .negSucc 0), (288028163723, .ofNat 1), (357440652059, .negSucc 0)] 0))) (.node (.leaf (.adef 8521 [(22699, .negSucc 0), (100974539, .negSucc 0)] 0)) .nil)) (.node (.node (.leaf (.adef 14879 [(5866481, .ofNat 1), (7065529, .negSucc 0), (16725013, .negSucc 0)] 0)) .nil) (.node (.leaf (.adef 13963 [(25633, .ofNat 1), (12149677, .negSucc 0), (751053847, .ofNat 1), (918869923, .negSucc 0), (1230748357, .ofNat 1), (2602387253, .negSucc 0), (2807125073, .negSucc 0), (3453837781, .negSucc 0), (4500511237, .negSucc 0), (344163013573, .negSucc 0), (371008454077, .negSucc 0), (963129069659, .negSucc 0)] 0)) .nil))) (.node (.node (.node (.leaf (.atom 409)) (.leaf (.adef 16703 [(2010149, .ofNat 1), (3188351, .negSucc 0), (4792483, .ofNat 1), (79418393, .negSucc 0), (2792903694101, .ofNat 1), (2928024889949, .ofNat 1)] 0))) (.node (.leaf (.adef 8699 [(38713, .ofNat 1), (8204051, .negSucc 0), (10186963, .ofNat 1), (12282131, .ofNat 1), (14839709, .ofNat 1), (17485841, .negSucc 0), (19906919, .negSucc 0), (21768863, .ofNat 1), (23629831, .negSucc 0), (28078279, .ofNat 1), (44425609, .negSucc 0)] 0)) .nil)) (.node (.node (.leaf (.adef 3169 [(291748331, .ofNat 1), (438937649437, .negSucc 0)] 0)) .nil) (.node (.leaf (.adef 41959 [(4111, .ofNat 1), (1493407, .negSucc 0), (1613569, .ofNat 1), (1837301, .negSucc 0)] 0)) .nil)))) (.node (.node (.node (.node (.leaf (.atom 941)) (.leaf (.adef 27541 [(1388419469, .negSucc 3), (1993919237, .ofNat 2)] 1))) (.node (.leaf (.adef 24659 [(3398394343, .ofNat 4), (3446721877, .negSucc 3), (3604159369, .negSucc 3), (3681384979, .negSucc 3), (462115849483, .negSucc 3), (473412935057, .negSucc 3), (483224126551, .negSucc 3), (512834913221, .ofNat 4), (567537130463, .negSucc 3), (593460783611, .negSucc 3), (703356616307, .ofNat 1), (810630173567, .negSucc 0), (1071882128959, .negSucc 1), (1126540902043, .negSucc 1), (1186215860077, .ofNat 2), (1412208659689, .negSucc 1), (1935427940737, .ofNat 2), (2054772078199, .negSucc 1), (2308412246687, .negSucc 1), (2462985925121, .negSucc 1), (72104779788653, .ofNat 4), (77085391523683, .negSucc 3), (78109079299409, .negSucc 3), (83504435863999, .ofNat 4), (118884772682761, .ofNat 1), (120959006273701, .ofNat 1), (127096695604871, .negSucc 0), (129314206135211, .negSucc 0), (165921712856077, .negSucc 1), (186403016671301, .negSucc 1), (24758177231411231, .ofNat 2), (26468339420633041, .negSucc 1), (31506748853381023, .negSucc 1), (33683066200604753, .ofNat 2)] 1)) .nil)) (.node (.node (.leaf (.adef 4093 [(40758611, .negSucc 0), (30706358339, .ofNat 1), (1291520514307, .negSucc 0), (1875485859179, .ofNat 1)] 0)) (.leaf (.trans [] 0))) (.node (.leaf (.adef 25969 [(798987251, .ofNat 1), (993307411, .ofNat 1), (1263440753, .negSucc 0), (1405869407, .ofNat 1), (2883238079, .ofNat 1), (2894726609, .ofNat 1), (2933421053, .ofNat 1), (3044190497, .ofNat 1), (3383838323, .ofNat 1), (4325954491, .ofNat 1), (8507034271, .ofNat 1), (38590470731, .negSucc 0), (39351860167, .negSucc 0), (47801304367, .ofNat 1), (48744423419, .ofNat 1), (121972689029, .ofNat 1), (149148659447, .ofNat 1), (158057581657, .ofNat 1), (193273400851, .ofNat 1), (663825262097, .ofNat 1), (807601917341, .ofNat 1), (42217576333613, .negSucc 0)] 0)) .nil))) (.node (.node (.node (.leaf (.atom 7523)) (.leaf (.adef 35059 [(21883987, .negSucc 0), (22199141, .ofNat 1), (23084797, .ofNat 1), (23503523, .negSucc 0)] 0))) (.node (.leaf (.adef 39397 [(27570293, .ofNat 4), (37344067, .negSucc 3), (1595274301, .negSucc 1), (242986197859, .ofNat 2), (600433355903, .ofNat 1), (1175712318757, .ofNat 2), (1609997570791, .ofNat 2), (124536803757019, .ofNat 1), (181553075883931, .ofNat 1)] 1)) .nil)) (.node (.node (.leaf (.adef 15607 [(36161, .ofNat 1), (2959039, .negSucc 0), (749175949, .ofNat 1), (915408943, .ofNat 1), (2463916757, .ofNat 1), (3024206777, .ofNat 1), (3121450067, .ofNat 1), (4142727859, .ofNat 1), (5398167043, .ofNat 1), (400207443451, .negSucc 0), (550599063499, .negSucc 0), (689002761173, .negSucc 0)] 0)) .nil) (.node (.leaf (.adef 42727 [(37611443, .ofNat 1), (1130644033, .negSucc 0), (1208742863, .ofNat 1), (21561065527187, .negSucc 0), (151679351208233, .negSucc 0), (162156547849063, .ofNat 1), (3695292393732169, .ofNat 1), (5138494549443169, .negSucc 0)] 0)) .nil))))

def jac37 : JTree := .node (.node (.node (.node (.node .nil (.leaf (.adef 44027 [(10759891, .negSucc 0), (30603803, .ofNat 1), (33511567, .negSucc 0)] 0))) (.node (.leaf (.adef 11807 [(1114609, .negSucc 0), (2387261, .ofNat 1), (2445493, .ofNat 1), (3156217, .ofNat 1), (35760779, .negSucc 0), (58964669, .negSucc 0), (6055593119, .ofNat 1), (6348563831, .ofNat 1)] 0)) .nil)) (.node (.node (.leaf (.adef 12143 [(14463419, .ofNat 1), (57077063, .ofNat 1)] 0)) (.leaf (.trans [(15541, .ofNat 1)] 0))) (.node (.leaf (.adef 25799 [(40487, .ofNat 1), (1310849597, .ofNat 1)] 0)) .nil))) (.node (.node (.node (.leaf (.atom 12809)) (.leaf (.adef 9491 [(879787, .negSucc 0), (3472921, .ofNat 1), (194877047, .negSucc 0), (209770987, .negSucc 0), (245388337, .negSucc 0), (298985201, .ofNat 1), (312707903, .negSucc 0), (320230709, .negSucc 0), (443653099, .ofNat 1), (462302107, .negSucc 0), (2780245703, .negSucc 0), (2981680453, .negSucc 0), (3782571701, .negSucc 0), (65601276599, .ofNat 1), (70095797921, .negSucc 0), (70615009579, .ofNat 1), (75453035341, .negSucc 0), (82604844529, .ofNat 1), (88264326391, .negSucc 0), (107798961653, .ofNat 1), (115184560787, .negSucc 0)] 0))) (.node (.leaf (.adef 6271 [(586639, .ofNat 1), (687601, .ofNat 1), (1342603, .ofNat 1), (1413331, .ofNat 1), (1895059, .ofNat 2), (7313336549, .negSucc 0)] 0)) .nil)) (.node (.node (.leaf (.adef 35809 [(58052453, .ofNat 1), (58350449, .negSucc 0), (64332259, .negSucc 0), (64613429, .ofNat 1)] 0)) .nil) (.node (.leaf (.adef 42307 [(2820067, .ofNat 1), (7044241, .negSucc 0), (337403071, .negSucc 0), (463005427, .ofNat 1)] 0)) .nil)))) (.node (.node (.node (.node (.leaf (.atom 9601)) (.leaf (.adef 44867 [(12000941, .negSucc 0), (27589189, .ofNat 1), (27893189, .negSucc 0), (38494259, .negSucc 0), (1818724163, .ofNat 1), (1820704553, .ofNat 1), (1859405741, .ofNat 1), (1859540779, .ofNat 1), (2641066411, .negSucc 0), (2643942241, .negSucc 0), (2710691309, .ofNat 1), (2710888171, .ofNat 1)] 0))) (.node (.leaf (.adef 18583 [(5138141, .ofNat 1), (18730007, .negSucc 0), (26232197, .negSucc 0), (68598977, .negSucc 0), (1942630231, .ofNat 1), (44787138589849, .ofNat 1), (65037793955153, .negSucc 0)] 0)) .nil)) (.node (.node (.leaf (.adef 29327 [(974209, .negSucc 1), (2346247, .ofNat 2), (39662167, .negSucc 1)] 0)) .nil) (.node (.leaf (.adef 6317 [(388627, .ofNat 1), (557827, .ofNat 1), (1343999, .ofNat 1), (1426517, .ofNat 1), (1916357, .ofNat 1)] 0)) .nil))) (.node (.node (.node (.leaf (.atom 10799)) (.leaf (.adef 46819 [(23621131, .negSucc 0), (25158437, .negSucc 0), (25354891, .ofNat 1), (26997143, .ofNat 1), (27221431, .negSucc 0), (33677887, .negSucc 0)] 0))) (.node (.leaf (.adef 39727 [(2453963, .ofNat 1), (2596081, .negSucc 0), (128638271, .ofNat 1), (136504549, .negSucc 0), (163689571, .ofNat 1), (173699249, .negSucc 0)] 0)) .nil)) (.node (.node (.leaf (.adef 23993 [(5594137, .ofNat 4), (2341403699, .ofNat 2)] 1)) .nil) (.node (.leaf (.adef 42937 [(2559757, .negSucc 1), (5210533, .ofNat 2), (93852139, .negSucc 1), (23266642423, .negSucc 1)] 0)) .nil))))

def jac38 : JTree := .node (.node (.node (.node (.node (.leaf (.atom 4637)) (.leaf (.adef 33923 [(44293, .ofNat 1), (2996689, .negSucc 0), (3539707, .negSucc 0), (3791737, .ofNat 1), (634971647, .ofNat 1), (656638643, .ofNat 1), (675266489, .negSucc 0), (695124161, .negSucc 0), (879313819, .negSucc 0), (930361577, .negSucc 0), (930574537, .ofNat 1), (1077852779, .ofNat 1), (1132443869, .negSucc 0), (1145650717, .ofNat 1), (204761356193, .ofNat 1), (211748382317, .ofNat 1), (252731579297, .ofNat 1), (260163698153, .ofNat 1), (300085374103, .ofNat 1), (423839080037, .ofNat 1), (34114478436469, .ofNat 1), (35278559181361, .ofNat 1), (37502709198869, .negSucc 0), (38782405786961, .negSucc 0), (49996035454499, .ofNat 1), (54961613504899, .negSucc 0)] 0))) (.node (.leaf (.adef 4507 [(24419, .negSucc 0), (4733303, .ofNat 1), (458138671, .ofNat 1), (1395562703, .ofNat 1), (1786027391, .ofNat 1), (3025548217, .ofNat 1), (4959670801, .ofNat 1), (145706151191, .ofNat 1), (145868025691, .ofNat 2), (8547600701813, .ofNat 1)] 0)) .nil)) (.node (.node (.leaf (.adef 6803 [(1530181, .negSucc 3), (350631863, .negSucc 3), (168480244333, .negSucc 1), (509990193007, .ofNat 2)] 1)) (.leaf (.trans [(46681, .negSucc 0)] 0))) (.node (.leaf (.adef 25933 [(4836803, .negSucc 0), (7763341, .ofNat 1), (10420391, .negSucc 0)] 0)) .nil))) (.node (.node (.node (.leaf (.atom 28759)) (.leaf (.adef 14713 [(2160611, .negSucc 0), (2518837, .negSucc 0), (13317481, .negSucc 0), (1478811109, .ofNat 1), (1545570581, .ofNat 1), (2003145031, .negSucc 0), (2331256133, .negSucc 0), (2352560387, .negSucc 0), (2434620359, .ofNat 1), (3367795091, .negSucc 0), (3907697819, .negSucc 0)] 0))) (.node (.leaf (.adef 39119 [(6358727, .ofNat 1), (8677579, .ofNat 1), (13800263, .negSucc 0), (13804639, .negSucc 0), (17657489, .ofNat 1), (17678519, .ofNat 1), (27501403, .negSucc 0), (28464971, .negSucc 0), (28487519, .negSucc 0), (34981607, .ofNat 1), (34986229, .ofNat 1), (35723489, .ofNat 1), (523290949, .negSucc 0), (932419949, .negSucc 0), (933148459, .negSucc 0), (955331173, .ofNat 1), (955480199, .ofNat 1), (1579367249, .ofNat 1), (1711928411, .ofNat 1), (1712718547, .negSucc 0)] 0)) .nil)) (.node (.node (.leaf (.adef 17807 [(16331941, .ofNat 2), (368418553, .negSucc 1), (535000241, .ofNat 2), (24495925211, .negSucc 1)] 0)) .nil) (.node (.leaf (.adef 26681 [(527767, .negSucc 0), (909919, .negSucc 0), (2194727, .negSucc 0), (77652931, .ofNat 1), (284889373, .negSucc 0), (13308724697, .negSucc 0), (14107236881, .ofNat 1), (18506467697, .ofNat 1), (55308266591, .negSucc 0), (76908995591, .ofNat 1)] 0)) .nil)))) (.node (.node (.node (.node (.leaf (.atom 5923)) (.leaf (.adef 27943 [(3880707449, .negSucc 0), (3945871901, .negSucc 0), (4126109297, .negSucc 0), (4203861197, .ofNat 1), (256945576093, .ofNat 1), (268682196721, .ofNat 1), (38686519812491, .negSucc 0), (41908018479623, .ofNat 1), (42226127166299, .ofNat 1), (45742375540247, .negSucc 0)] 0))) (.node (.leaf (.adef 7013 [(38671, .negSucc 1), (755141381, .negSucc 1)] 0)) .nil)) (.node (.node (.leaf (.adef 15511 [(8069839, .negSucc 0), (9653069, .ofNat 1), (22922863, .negSucc 0)] 0)) .nil) (.node (.leaf (.adef 26393 [(3647231041, .ofNat 4), (3709372573, .negSucc 3), (3878807281, .negSucc 3), (3950942773, .negSucc 3), (421139214113, .negSucc 3), (440375782661, .negSucc 3), (477734762107, .negSucc 3), (517516626871, .ofNat 4), (578622183701, .negSucc 3), (605052173897, .negSucc 3), (640164460997, .ofNat 1), (740158169731, .negSucc 0), (1081667432309, .negSucc 1), (1136825189993, .negSucc 1), (1209384856879, .ofNat 2), (1230336769513, .ofNat 2), (1307872564861, .negSucc 1), (1439791715203, .negSucc 1), (1469092087159, .negSucc 1), (1565462983027, .negSucc 1), (63408021256231, .ofNat 4), (68688125461843, .negSucc 3), (69209512303159, .negSucc 3), (74972717489827, .ofNat 4), (104411309466367, .ofNat 1), (106572538289201, .ofNat 1), (113964379646863, .negSucc 0), (116323349219489, .negSucc 0), (150775172236789, .negSucc 1), (169361005364191, .negSucc 1), (21709539222009719, .ofNat 2), (23695844659936391, .negSucc 1), (27622908518032301, .negSucc 1), (30150255268215389, .ofNat 2)] 1)) .nil))) (.node (.node (.node (.leaf (.atom 12107)) (.leaf (.atom 2423))) (.node (.leaf (.adef 32027 [(11364683149, .ofNat 1)] 0)) .nil)) (.node (.node (.leaf (.adef 36931 [(3190223, .negSucc 0), (3754013, .ofNat 1), (6629453, .negSucc 0), (99136361, .ofNat 1), (122350859, .ofNat 1), (319888187, .negSucc 0), (394795553, .negSucc 0)] 0)) .nil) (.node (.leaf (.adef 9257 [(43691, .ofNat 1), (9090803, .ofNat 1), (11119841, .ofNat 1), (11970989, .ofNat 1), (15079769, .negSucc 0), (17725597, .negSucc 0), (20219153, .ofNat 1), (23029361, .negSucc 0), (25246579, .ofNat 1), (29957647, .ofNat 1), (44722127, .negSucc 0)] 0)) .nil))))

def jac39 : JTree := .node (.node (.node jac32 (.node (.node (.node (.node (.node (.leaf (.atom 1621)) (.leaf (.adef 3877 [(72731, .negSucc 0), (29131813, .negSucc 0)] 0))) (.node (.leaf (.adef 18329 [(13137601, .ofNat 1), (14107517, .ofNat 1), (38233319, .ofNat 1), (50297839, .ofNat 1), (79908163, .ofNat 1), (238562563, .negSucc 0), (265395101, .ofNat 1), (2024369467, .ofNat 1), (2073779003, .negSucc 0), (15962994503, .ofNat 1)] 0)) .nil)) (.node (.node (.leaf (.adef 883 [(90721, .negSucc 0), (95129, .negSucc 0), (17829283, .ofNat 1), (18691867, .ofNat 1)] 0)) (.leaf (.trans [] 0))) (.node (.leaf (.adef 40597 [(17447791, .ofNat 1), (38884409, .ofNat 1)] 0)) .nil))) (.node (.node (.node (.leaf (.atom 7507)) (.leaf (.adef 34549 [(3507732888679, .ofNat 1)] 0))) (.node (.leaf (.adef 8737 [(11946197, .ofNat 1), (13464641, .ofNat 1), (13548529, .ofNat 1), (3823869457, .ofNat 1), (4084726771, .ofNat 1)] 0)) .nil)) (.node (.node (.leaf (.adef 11159 [(380816443, .ofNat 1), (765642005009, .negSucc 0)] 0)) .nil) (.node (.leaf (.adef 42451 [(12805577, .ofNat 1), (12852989, .negSucc 0), (12855443, .negSucc 0)] 0)) .nil)))) (.node (.node (.node (.node (.leaf (.atom 48197)) (.leaf (.adef 21563 [(23879909, .ofNat 1), (201038161, .negSucc 0), (3402203851, .negSucc 0), (4817852653, .ofNat 1), (3483083756237, .negSucc 0)] 0))) (.node (.leaf (.adef 38153 [(28721263, .ofNat 1), (50695163, .ofNat 1), (58422479, .ofNat 1), (3769900039, .negSucc 0), (4118401849, .ofNat 1), (4782518987, .negSucc 0), (5158803751, .negSucc 0), (1159895551057, .ofNat 1), (1279322601163, .ofNat 1)] 0)) .nil)) (.node (.node (.leaf (.adef 23027 [(21523079, .negSucc 0), (84010057, .negSucc 0), (127532407, .ofNat 1), (141054311, .ofNat 1), (149963247739, .ofNat 1), (177710585497, .ofNat 1)] 0)) .nil) (.node (.leaf (.adef 9049 [(873557, .ofNat 1), (1176649, .ofNat 1)] 0)) .nil))) (.node (.node (.node (.leaf (.atom 6067)) (.leaf (.adef 47221 [(23502763, .negSucc 0), (23617273, .ofNat 1), (23675867, .negSucc 0), (33034061, .negSucc 0), (33190303, .ofNat 1), (33684787, .negSucc 0)] 0))) (.node (.leaf (.adef 39877 [(31941241, .ofNat 1), (46817207, .ofNat 1), (6336305341, .ofNat 1), (6760749427, .negSucc 0), (7302804491, .negSucc 0), (9168197161, .ofNat 1), (21677841929, .ofNat 1), (42337857217, .ofNat 1)] 0)) .nil)) (.node (.node (.leaf (.adef 30119 [(90327, .ofNat 2), (132105339, .negSucc 1), (146620197, .negSucc 0), (414150921, .negSucc 0), (269083157247, .ofNat 2)] 0)) .nil) (.node (.leaf (.adef 20849 [(7160453, .ofNat 1), (11897167, .ofNat 1), (25714463, .ofNat 1), (69509009, .ofNat 1), (83258927, .ofNat 1), (104438569, .ofNat 1), (120585851, .ofNat 1), (120705589, .ofNat 1), (163783801, .ofNat 1), (164367809, .ofNat 1), (165216371, .ofNat 1), (299731217, .ofNat 1)] 0)) .nil)))))) jac35) (.node (.node jac36 (.node (.node (.node (.node (.node (.leaf (.atom 809)) (.leaf (.adef 7069 [(67519, .negSucc 0), (98431, .negSucc 0), (7827623501, .ofNat 1)] 0))) (.node (.leaf (.adef 12289 [(4995443, .ofNat 1), (8415097, .ofNat 1), (8474069, .ofNat 1), (11258771, .ofNat 1), (2559094523, .ofNat 1), (2701967183, .ofNat 1)] 0)) .nil)) (.node (.node (.leaf (.adef 3673 [(367724413, .ofNat 1), (754420001783, .negSucc 0)] 0)) (.leaf (.trans [] 0))) (.node (.leaf (.adef 19841 [(8430407, .negSucc 0), (11134037, .ofNat 1), (14223529, .negSucc 0), (22585487, .ofNat 1)] 0)) .nil))) (.node (.node (.node (.leaf (.atom 14753)) (.leaf (.adef 45677 [(118051767, .ofNat 2), (162272223, .ofNat 1), (265823212779, .negSucc 1)] 0))) (.node (.leaf (.adef 9817 [(9779417, .ofNat 1), (1494967391, .ofNat 1), (2897148763, .negSucc 0)] 0)) .nil)) (.node (.node (.leaf (.adef 17609 [(17132827, .negSucc 0), (68586571, .negSucc 0)] 0)) .nil) (.node (.leaf (.adef 26557 [(10525661, .negSucc 0), (13079119, .negSucc 0), (17120437, .ofNat 1), (17394649, .ofNat 1), (68970929, .ofNat 1)] 0)) .nil)))) (.node (.node (.node (.node (.leaf (.atom 1759)) (.leaf (.adef 21673 [(1396968797921, .ofNat 1)] 0))) (.node (.leaf (.adef 31013 [(19545619, .ofNat 1), (20988479, .negSucc 0), (21368111, .negSucc 0), (21581837, .ofNat 1)] 0)) .nil)) (.node (.node (.leaf (.adef 3389 [(1524151, .negSucc 0), (1817021, .ofNat 1)] 0)) .nil) (.node (.leaf (.adef 5119 [(26161, .ofNat 1), (327639881, .negSucc 0), (521932891, .negSucc 0), (527661091, .negSucc 0), (995081713, .negSucc 0), (1015255231, .negSucc 0), (1314811781, .negSucc 0), (1682683157, .negSucc 0), (2927925241, .negSucc 0), (4672691227, .negSucc 0), (8485287119, .negSucc 0)] 0)) .nil))) (.node (.node (.node (.leaf (.atom 8233)) (.leaf (.adef 47501 [(772414747, .ofNat 1), (773779357, .ofNat 1)] 0))) (.node (.leaf (.adef 19457 [(7957141, .negSucc 0), (14195099, .negSucc 0), (22634071, .ofNat 1)] 0)) .nil)) (.node (.node (.leaf (.adef 18043 [(18041, .ofNat 1), (5943731, .ofNat 1), (6515869, .ofNat 1), (8362439, .ofNat 1), (10339991, .ofNat 1), (10974247, .ofNat 1), (16508941, .ofNat 1), (26512907, .negSucc 0), (30097927, .negSucc 0)] 0)) .nil) (.node (.leaf (.adef 14341 [(43313, .ofNat 1), (8246087, .negSucc 0), (10955849, .ofNat 1), (14825017, .negSucc 0), (19735367, .ofNat 1), (23594971, .ofNat 1), (25837219, .negSucc 0), (30713009, .negSucc 0), (43786987, .ofNat 1)] 0)) .nil)))))) (.node jac37 jac38))

def jac40 : JTree := .node (.node (.node (.node (.node (.node (.leaf (.atom 557)) (.leaf (.adef 21023 [(11716547, .negSucc 0), (13788617, .ofNat 1), (16582457, .ofNat 1), (17999339, .negSucc 0)] 0))) (.node (.leaf (.adef 18121 [(43962907529, .ofNat 1), (46034438039, .negSucc 0)] 0)) .nil)) (.node (.node (.leaf (.adef 17159 [(27856663, .negSucc 0), (61865831, .ofNat 1)] 0)) .nil) (.node (.leaf (.adef 12421 [(39849533, .ofNat 1), (46932247, .negSucc 0), (48441149, .negSucc 0), (16637645971, .ofNat 1)] 0)) .nil))) (.node (.node (.node (.leaf (.atom 2767)) (.leaf (.adef 12601 [(74513, .negSucc 0), (30441461, .ofNat 1)] 0))) (.node (.leaf (.adef 18917 [(142335921649, .ofNat 1), (159829526621, .ofNat 1), (162982960897, .ofNat 1), (173897781059, .ofNat 1), (22872868799567, .ofNat 1), (27944745673597, .ofNat 1), (31387569632579, .negSucc 0), (38347513745689, .negSucc 0)] 0)) .nil)) (.node (.node (.leaf (.adef 2963 [(293478353, .ofNat 1), (546031597853, .ofNat 1), (94903324851559, .ofNat 1), (114501095637817, .ofNat 1)] 0)) .nil) (.node (.leaf (.adef 41947 [(6605161, .ofNat 1), (27506537, .ofNat 1), (28698473, .ofNat 1), (28725317, .ofNat 1), (30098407, .ofNat 1), (1742677187, .ofNat 1), (1743205291, .ofNat 1), (2530634539, .negSucc 0), (2531401427, .negSucc 0)] 0)) .nil)))) (.node (.node (.node (.node (.leaf (.atom 5431)) (.leaf (.adef 33961 [(1633501, .negSucc 0), (36403139, .ofNat 1), (38899387, .ofNat 1), (48008353, .ofNat 1)] 0))) (.node (.leaf (.adef 37579 [(1344907211, .negSucc 3), (1812933247, .ofNat 1), (570262244239, .ofNat 2), (11435979963913, .ofNat 2), (16606796772161, .negSucc 1)] 1)) .nil)) (.node (.node (.leaf (.adef 17419 [(8304442331, .negSucc 0), (141488241929, .negSucc 0), (157831321267, .ofNat 1)] 0)) .nil) (.node (.leaf (.adef 4297 [(1524151, .negSucc 0), (1939451, .negSucc 0), (2454427, .ofNat 1)] 0)) .nil))) (.node (.node (.node (.leaf (.atom 14797)) (.leaf (.adef 46261 [(23030353, .negSucc 0), (24524869, .negSucc 0), (24883961, .ofNat 1), (25600789, .ofNat 1), (26038459, .negSucc 0), (31958483, .negSucc 0)] 0))) (.node (.leaf (.adef 39301 [(16869, .ofNat 4), (64042191, .negSucc 1), (116260713, .negSucc 3), (147848859, .negSucc 1), (238839723, .negSucc 1), (244216179, .negSucc 1), (6311304891, .negSucc 1), (9164982627, .ofNat 2), (261957347973, .ofNat 4), (304271545959, .ofNat 4), (338605207173, .ofNat 2), (346129378443, .ofNat 4), (358396592409, .ofNat 2), (416877894189, .ofNat 2), (12513660012423, .ofNat 3), (18171753479631, .negSucc 2), (519392621162169, .negSucc 7)] 0)) .nil)) (.node (.node (.leaf (.adef 23773 [(4415083, .negSucc 0), (4727389, .negSucc 0)] 0)) .nil) (.node (.leaf (.adef 5147 [(26701, .ofNat 1), (294060391, .negSucc 0), (468440501, .negSucc 0), (531467483, .negSucc 0), (997480739, .negSucc 0), (1017702893, .negSucc 0), (1315361107, .negSucc 0), (1683386179, .negSucc 0), (2949046433, .negSucc 0), (4674643469, .negSucc 0), (8505744157, .negSucc 0)] 0)) .nil))))) (.node (.node (.node (.node (.node (.leaf (.atom 839)) (.leaf (.adef 21187 [(97047023, .ofNat 1), (97114679, .negSucc 0), (73475845777, .negSucc 0), (73575436373, .ofNat 1)] 0))) (.node (.leaf (.adef 6257 [(430733, .ofNat 1), (727841, .ofNat 1), (1337717, .ofNat 1), (1394593, .ofNat 1), (7650355697, .negSucc 0), (49116378533, .ofNat 2), (71324514301, .negSucc 1), (2065852608229, .negSucc 1), (2861495150837, .negSucc 1), (2999934814013, .ofNat 2), (4155329808589, .ofNat 2)] 0)) .nil)) (.node (.node (.leaf (.adef 22783 [(105616949, .ofNat 1), (137422933, .ofNat 1), (4264019371, .ofNat 2)] 0)) (.leaf (.trans [] 0))) (.node (.leaf (.adef 40709 [(1060762897, .ofNat 4), (1085232887, .negSucc 3), (2405768567, .ofNat 4), (2459130481, .negSucc 3), (113121041101, .ofNat 2), (150659437699, .negSucc 3), (154367911483, .ofNat 4), (300930069611, .negSucc 3), (307718795029, .negSucc 3), (18314002034281, .ofNat 4), (18379974870893, .negSucc 3), (18965550189181, .negSucc 3), (31301149887193, .ofNat 2)] 1)) .nil))) (.node (.node (.node (.leaf (.atom 28643)) (.leaf (.adef 28351 [(129133, .ofNat 1), (6130001, .ofNat 1)] 0))) (.node (.leaf (.adef 15907 [(13105429, .ofNat 1), (960193366831, .ofNat 1)] 0)) .nil)) (.node (.node (.leaf (.adef 10139 [(81911591, .negSucc 0), (196604351, .ofNat 1), (211448827, .negSucc 0), (242642669, .ofNat 1), (290163199, .ofNat 1)] 0)) .nil) (.node (.leaf (.adef 42467 [(37679053, .ofNat 1), (1120255267, .negSucc 0), (1221757591, .ofNat 1), (21022434940909, .negSucc 0), (150285666511067, .negSucc 0), (163902513370991, .ofNat 1), (3602977962147383, .ofNat 1), (5010126573924383, .negSucc 0)] 0)) .nil)))) (.node (.node (.node (.node (.leaf (.atom 719)) (.leaf (.adef 27763 [(260306689, .ofNat 1), (321841561, .ofNat 1)] 0))) (.node (.leaf (.adef 38231 [(2994289, .ofNat 1), (3029701, .negSucc 0), (3322409, .negSucc 0), (3460549, .ofNat 1), (5200639, .ofNat 1), (5702317, .negSucc 0), (7328261, .ofNat 1), (9899129, .negSucc 0), (11713727, .negSucc 0), (12731057, .negSucc 0)] 0)) .nil)) (.node (.node (.leaf (.adef 17519 [(38737393, .negSucc 0), (44312563, .negSucc 0), (58602767, .ofNat 1), (62548991, .ofNat 1)] 0)) .nil) (.node (.leaf (.adef 41467 [(12070363, .ofNat 1), (15362377, .ofNat 1)] 0)) .nil))) (.node (.node (.node (.leaf (.atom 2857)) (.leaf (.adef 47353 [(891043673, .negSucc 0), (957561371, .negSucc 0), (1001883259, .ofNat 1)] 0))) (.node (.leaf (.adef 16001 [(34696523, .ofNat 1), (34749149, .negSucc 0), (35294297, .ofNat 1), (35362277, .negSucc 0)] 0)) .nil)) (.node (.node (.leaf (.adef 36583 [(10564231, .negSucc 0), (28944599, .ofNat 1), (32847559, .ofNat 1), (36588421, .ofNat 1), (169734797, .negSucc 0), (209481143, .negSucc 0), (845225707, .ofNat 1), (846922331, .negSucc 0), (1577644687, .ofNat 1), (1613231467, .ofNat 1), (2290982039, .negSucc 0), (2351811883, .ofNat 1), (32559072229, .ofNat 1)] 0)) .nil) (.node (.leaf (.adef 26959 [(5200733, .ofNat 1), (6502747, .negSucc 0), (7850827, .negSucc 0), (10541437, .ofNat 1)] 0)) .nil)))))

def jac41 : JTree := .node (.leaf (.adef 24151 [(269980769, .negSucc 0), (279943159, .negSucc 0), (647722249, .negSucc 0), (671623439, .negSucc 0), (698699357, .negSucc 0), (833667673, .ofNat 1), (954588191, .ofNat 1), (984985543, .ofNat 1), (1047589637, .negSucc 0), (1060881803, .negSucc 0), (1079951531, .negSucc 0), (1086009481, .ofNat 1), (1089392459, .ofNat 1), (1094908351, .negSucc 0), (1148680079, .ofNat 1), (1363216013, .ofNat 1), (1574475559, .ofNat 1), (2716550591, .ofNat 1), (3015570373, .ofNat 1), (3133103371, .ofNat 2), (3162005993, .ofNat 1), (3326249827, .ofNat 1), (3527886007, .ofNat 2), (4006132777, .ofNat 1), (4191733723, .ofNat 1), (4213726343, .ofNat 1), (4313775577, .ofNat 2), (4620826387, .ofNat 1), (4724718769, .ofNat 1), (4811300987, .negSucc 0), (4844455543, .ofNat 1), (4944905807, .ofNat 1), (5162717363, .ofNat 1), (5174405503, .ofNat 1), (5373078449, .negSucc 0), (6612724253, .ofNat 1), (6796108439, .ofNat 1), (8248934989, .ofNat 1), (9845120249, .ofNat 1), (10841109289, .ofNat 1), (13072804733, .ofNat 1), (13199476837, .ofNat 1), (13476082901, .ofNat 1), (13492626853, .ofNat 1), (16763721631, .ofNat 1), (23718895859, .negSucc 0), (27335546633, .negSucc 0), (49061525911, .ofNat 1), (50871914321, .ofNat 1), (70310032123, .ofNat 1), (87174387497, .ofNat 1), (89468079023, .ofNat 1), (113030274289, .negSucc 0), (119660865439, .negSucc 0), (127254800579, .ofNat 1), (130830215533, .negSucc 0), (135502303229, .negSucc 0), (139302794723, .negSucc 0), (141947128963, .negSucc 0), (142842156649, .negSucc 0), (145617214849, .negSucc 0), (145726591289, .ofNat 1), (147247498513, .negSucc 0), (147899101211, .ofNat 1), (148709314639, .ofNat 1), (148833917879, .negSucc 0), (149342372783, .ofNat 1), (152152099873, .negSucc 1), (152909970757, .negSucc 0), (154987137647, .ofNat 1), (157766568503, .negSucc 1), (159334128689, .ofNat 1), (166918509931, .ofNat 1), (167182849279, .negSucc 0), (172478324251, .ofNat 2), (177621025333, .ofNat 2), (188838934237, .ofNat 1), (191654168263, .ofNat 1), (194597940349, .ofNat 1), (195216878237, .ofNat 1), (216792407311, .ofNat 1), (217715296367, .ofNat 1), (269469372463, .ofNat 1), (276158661497, .negSucc 0), (282586053653, .negSucc 0), (283484846389, .negSucc 0), (434858482829, .ofNat 1), (644817507599, .ofNat 1), (666076490213, .negSucc 0), (684302701601, .ofNat 1), (691768176977, .ofNat 1), (1244433856579, .ofNat 1), (1382005685623, .negSucc 0), (1638987202579, .negSucc 1), (1870611425359, .ofNat 2), (11556869684077, .ofNat 1), (11983322439947, .ofNat 1), (14315281333289, .negSucc 0), (14705880497177, .ofNat 1), (14843520496879, .negSucc 0), (18215902949989, .negSucc 0), (21598455286729, .ofNat 1), (22600438729667, .ofNat 1), (23049782337431, .ofNat 1), (26778996590531, .ofNat 1), (1556255742849817, .ofNat 1), (1877771152331197, .ofNat 1), (1980303629184917, .ofNat 1), (1988678748532771, .ofNat 1), (2259922011805649, .negSucc 0), (2446221657869149, .ofNat 1), (2726811695175509, .negSucc 0), (2875704576330349, .negSucc 0), (2887866534062987, .negSucc 0), (3061220315680973, .ofNat 1), (3552289008907253, .negSucc 0), (4006581597196103, .ofNat 1), (4445361378538981, .negSucc 0), (5818170943432591, .negSucc 0), (254077505883635327, .ofNat 1), (263453059606278697, .ofNat 1), (323308433917323427, .ofNat 1), (368959504817402119, .negSucc 0), (382574246692583009, .negSucc 0), (469493429835767819, .negSucc 0)] 0)) .nil

def jac42 : JTree := .node (.node (.node (.node (.node (.leaf (.atom 2251)) (.leaf (.adef 44273 [(266813, .ofNat 1), (8680603, .ofNat 1), (23265947, .ofNat 1)] 0))) (.node (.leaf (.adef 30577 [(24419, .negSucc 0), (37363, .ofNat 1), (1588640957, .negSucc 0), (1947337837, .ofNat 1), (3038901133, .negSucc 0), (3742114193, .ofNat 1), (4839251101, .negSucc 0), (4981559749, .negSucc 0), (5277340331, .ofNat 1), (5457417839, .ofNat 1), (7734138301, .ofNat 1), (8115581521, .negSucc 0), (713994750373, .negSucc 0), (714787973873, .negSucc 1), (970434768101, .ofNat 1), (971512887601, .ofNat 2), (41885273747839, .negSucc 0), (56928886234943, .ofNat 1)] 0)) .nil)) (.node (.node (.leaf (.adef 13249 [(87393, .ofNat 2), (235829043, .negSucc 0)] 0)) (.leaf (.trans [(46099, .ofNat 1)] 0))) (.node (.leaf (.adef 41047 [(3469673, .ofNat 1), (4151869, .negSucc 0)] 0)) .nil))) (.node (.node (.node (.leaf (.atom 17077)) (.leaf (.adef 45959 [(91071131, .ofNat 1), (63980608543, .ofNat 1)] 0))) (.node (.leaf (.adef 25183 [(8425349, .negSucc 0), (244877459, .negSucc 0), (27703609697, .negSucc 0)] 0)) .nil)) (.node (.node (.leaf (.adef 23671 [(10347193, .ofNat 1), (969057809, .ofNat 1), (2581060147, .ofNat 1), (3138043771, .negSucc 0), (43591365650233, .negSucc 0), (47920835507033, .ofNat 1)] 0)) .nil) (.node (.leaf (.adef 6329 [(405193, .ofNat 1), (1734701, .ofNat 1)] 0)) .nil)))) (.node (.node (.node (.node (.leaf (.atom 5881)) (.leaf (.adef 45179 [(45161, .ofNat 1), (12336221, .ofNat 1), (14393069, .ofNat 1), (31276673, .negSucc 0), (34255037, .ofNat 1), (21648144481, .negSucc 0), (21651117923, .negSucc 0)] 0))) (.node (.leaf (.adef 38609 [(12185083, .negSucc 0), (12304681, .ofNat 1), (12362101, .negSucc 0)] 0)) .nil)) (.node (.node (.leaf (.adef 12203 [(14759321, .ofNat 1), (57157439, .ofNat 1)] 0)) .nil) (.node (.leaf (.adef 26309 [(408803159021, .negSucc 3), (427476247937, .negSucc 3), (429927116233, .negSucc 3), (465727949149, .ofNat 4), (621412694849, .ofNat 1), (707942816881, .negSucc 0), (718477377127, .negSucc 0), (722596654943, .negSucc 0), (1070029778731, .ofNat 4), (1087345882421, .negSucc 3), (1137013077737, .negSucc 3), (1159133154343, .negSucc 3), (146358649697713, .negSucc 1), (147197774154617, .negSucc 1), (164400064604947, .negSucc 1), (187292351438243, .ofNat 2), (348048622377473, .ofNat 2), (370082747956771, .negSucc 1), (415702302521449, .negSucc 1), (442852110191867, .negSucc 1), (10294398501684701, .negSucc 3), (11661010475936741, .negSucc 3), (24496713366485599, .negSucc 1), (27748724818245559, .negSucc 1)] 1)) .nil))) (.node (.node (.node (.leaf (.atom 48989)) (.leaf (.atom 773))) (.node (.leaf (.adef 31991 [(5741773, .negSucc 0), (6191797, .ofNat 1), (6664327, .negSucc 0), (7696991, .ofNat 1), (580395199, .negSucc 0), (617620637, .negSucc 0)] 0)) .nil)) (.node (.node (.leaf (.adef 36871 [(2342383, .negSucc 0), (2573429, .ofNat 1)] 0)) .nil) (.node (.leaf (.adef 43609 [(23469869, .negSucc 0), (25186481, .negSucc 0), (25356119, .ofNat 1), (26582771, .ofNat 1), (26620259, .negSucc 0), (33176447, .negSucc 0)] 0)) .nil))))

def jac43 : JTree := .node (.node (.node (.node (.node (.leaf (.atom 503)) (.leaf (.adef 12517 [(49488251, .negSucc 0), (51021937, .negSucc 0), (7908700621, .ofNat 2), (17543758343, .ofNat 1)] 0))) (.node (.leaf (.adef 24121 [(23394943101377, .ofNat 1), (33973045318969, .negSucc 0)] 0)) .nil)) (.node (.node (.leaf (.adef 1901 [(10083, .ofNat 2), (17718291, .negSucc 0)] 0)) .nil) (.node (.leaf (.adef 25643 [(699274579, .negSucc 0), (725078069, .negSucc 0), (3568785973, .negSucc 0), (5830747541, .ofNat 1), (8152245571, .negSucc 0), (9356630771, .ofNat 1), (9780561943, .ofNat 1), (124305624953, .ofNat 1), (128892548383, .ofNat 1), (149940101939, .ofNat 1), (155472947029, .ofNat 1), (170579890661, .negSucc 0), (176874351571, .negSucc 0), (185051176841, .ofNat 1), (191879633551, .ofNat 1), (269397221719, .ofNat 1), (279535473241, .ofNat 1), (318615897007, .negSucc 0), (330879324533, .negSucc 0), (332481252661, .ofNat 1), (344993551579, .ofNat 1), (371672562641, .negSucc 0), (385560062627, .negSucc 0), (476943979063, .ofNat 1), (487414485893, .ofNat 1), (588628682197, .ofNat 1), (668860397441, .negSucc 0), (51200424497681, .negSucc 0), (53171113032139, .negSucc 0), (57091776907687, .ofNat 1), (59225004190789, .ofNat 1), (70260399043997, .ofNat 1), (72964700115343, .ofNat 1), (78344878329019, .negSucc 0), (81272225155393, .negSucc 0), (154383603414721, .ofNat 1), (190535201239699, .ofNat 1), (200837596676953, .ofNat 1), (275601810414661, .negSucc 0)] 0)) .nil))) (.node (.node (.node (.leaf (.atom 35353)) (.leaf (.adef 28081 [(6801881, .ofNat 1), (7232681, .ofNat 1), (278930059, .negSucc 0), (304450651, .ofNat 1)] 0))) (.node (.leaf (.adef 11273 [(3178573, .ofNat 1), (3417059, .ofNat 1), (4103969, .ofNat 1), (406337381, .ofNat 1), (679701107, .ofNat 1)] 0)) .nil)) (.node (.node (.leaf (.adef 3229 [(291809329, .negSucc 0), (292199159, .negSucc 0), (445116522683, .ofNat 1)] 0)) .nil) (.node (.leaf (.adef 42043 [(415733, .negSucc 0), (3452947, .ofNat 1), (4142807, .ofNat 1), (158741083, .negSucc 0), (46212208171, .negSucc 0)] 0)) .nil)))) (.node (.node (.node (.node (.leaf (.atom 2749)) (.leaf (.adef 34057 [(7461931, .ofNat 4), (2197028693, .ofNat 2)] 1))) (.node (.leaf (.adef 18523 [(15235463, .ofNat 1), (143232389, .ofNat 1), (1244285429, .negSucc 0), (1285733297, .ofNat 1), (1666530773, .negSucc 0), (1763149879, .ofNat 1), (2209418807, .ofNat 1), (12658457849, .ofNat 1), (19019990287, .ofNat 1)] 0)) .nil)) (.node (.node (.leaf (.adef 22961 [(8279718677, .ofNat 1), (12771332051, .negSucc 0)] 0)) (.leaf (.trans [] 0))) (.node (.leaf (.adef 11887 [(12177400289, .ofNat 1), (12766545161, .ofNat 1)] 0)) .nil))) (.node (.node (.node (.leaf (.atom 7561)) (.leaf (.adef 46477 [(894387793, .ofNat 1), (894549461, .ofNat 1), (956728253, .ofNat 1), (956987447, .ofNat 1), (999214229, .negSucc 0), (999304423, .ofNat 1), (1346866079, .negSucc 0), (545437144213, .negSucc 0)] 0))) (.node (.leaf (.adef 31583 [(1837133, .ofNat 1), (17451277, .negSucc 0), (18295573, .negSucc 0), (9220012367, .negSucc 0)] 0)) .nil)) (.node (.node (.leaf (.adef 23831 [(18190169, .ofNat 1), (10115491739, .ofNat 1)] 0)) .nil) (.node (.leaf (.adef 33331 [(52128907, .negSucc 0), (100207187, .ofNat 1), (137510519, .negSucc 0), (14133160651, .ofNat 1)] 0)) .nil))))

def jac44 : JTree := .node (.node (.node (.node (.node (.leaf (.atom 28477)) (.leaf (.adef 16619 [(3175519, .negSucc 0), (4785713, .ofNat 1), (81360163, .negSucc 0), (682411843, .negSucc 0), (845810513, .ofNat 1), (948928843, .ofNat 1), (1233045137, .ofNat 1), (8638453027, .negSucc 0)] 0))) (.node (.leaf (.adef 8597 [(8771359, .ofNat 1), (12935119, .ofNat 1), (13020143, .ofNat 1), (3924421783, .ofNat 1), (4047651137, .ofNat 1)] 0)) .nil)) (.node (.node (.leaf (.adef 3343 [(4809113063, .negSucc 0), (5031043247, .negSucc 0), (6983569711, .ofNat 1), (7334389103, .negSucc 0), (10463154391, .ofNat 1), (13714811939, .negSucc 0)] 0)) (.leaf (.trans [(1459, .ofNat 1)] 0))) (.node (.leaf (.adef 32353 [(2531779, .negSucc 0), (3054581, .negSucc 0), (3807283, .negSucc 0), (326561671, .ofNat 1), (403031749, .ofNat 1)] 0)) .nil))) (.node (.node (.node (.leaf (.trans [(647, .ofNat 1), (217799, .negSucc 0), (232721, .ofNat 1)] 0)) (.leaf (.adef 45763 [(116843733, .ofNat 2), (162647343, .ofNat 1), (263103020721, .negSucc 1)] 0))) (.node (.leaf (.adef 11299 [(3827641, .negSucc 0), (901288859, .ofNat 1), (905586067, .negSucc 0), (1079245133, .ofNat 1), (1107066739, .ofNat 1), (1147723631, .negSucc 0), (1370531683, .ofNat 1), (1384801007, .ofNat 1), (1469558759, .ofNat 1), (1888229069, .ofNat 1), (2032541449, .ofNat 1), (2348017601, .negSucc 0), (2377649899, .ofNat 1), (2388001439, .negSucc 0), (2745824533, .negSucc 0), (3102822743, .ofNat 1), (96704842411, .negSucc 0), (99707903587, .negSucc 0), (111184718779, .negSucc 0)] 0)) .nil)) (.node (.node (.leaf (.adef 23627 [(12663799, .negSucc 0), (17096831, .ofNat 1), (17899201, .ofNat 1), (17989619, .negSucc 0), (19433191, .negSucc 0), (26112829, .ofNat 1), (68193131, .ofNat 1)] 0)) .nil) (.node (.leaf (.adef 9173 [(3585437, .ofNat 1), (5677267, .ofNat 1), (5710687, .negSucc 1), (6066427, .ofNat 1)] 0)) .nil)))) (.node (.node (.node (.node (.leaf (.atom 48407)) (.leaf (.adef 34337 [(44987, .ofNat 1), (3000203, .ofNat 1), (833755183, .ofNat 1), (1026689243, .negSucc 0), (183499454647, .negSucc 0), (189760965643, .negSucc 0), (226488571063, .negSucc 0), (233148957487, .negSucc 0), (268925267537, .negSucc 0), (379828701523, .negSucc 0)] 0))) (.node (.leaf (.adef 31051 [(805513, .ofNat 1), (1438111, .negSucc 0), (2097283, .ofNat 1), (2856727, .ofNat 1), (91978501, .negSucc 0), (97598063, .negSucc 0)] 0)) .nil)) (.node (.node (.leaf (.adef 15461 [(22723376087, .ofNat 1), (1390658837707, .ofNat 1), (2019449908979, .negSucc 0)] 0)) .nil) (.node (.leaf (.adef 41579 [(9535343, .ofNat 1), (9567541, .ofNat 1), (27169643, .ofNat 1), (27498479, .ofNat 1), (27547811, .ofNat 1), (31105199, .ofNat 1), (31146469, .ofNat 1), (34372901, .ofNat 1), (37327481, .ofNat 1), (1000325437, .ofNat 1), (1019197667, .ofNat 1), (1275063943, .negSucc 0), (2687305919, .negSucc 0), (2872930609, .ofNat 1), (35438859971, .ofNat 1), (36525345583, .ofNat 1), (38945488861, .negSucc 0), (39983570621, .negSucc 0), (40235344399, .negSucc 0), (40778526953, .negSucc 0), (41497347433, .ofNat 1), (45286206437, .ofNat 1), (45923235343, .ofNat 1), (48241058777, .ofNat 1), (49838779043, .ofNat 1), (53774090189, .ofNat 1), (75066065863, .ofNat 1), (93071189357, .ofNat 1), (95520034763, .ofNat 1), (120676065109, .negSucc 0), (135862791599, .ofNat 1), (152708798923, .ofNat 1), (153036173959, .ofNat 1), (157207870453, .negSucc 0), (168295093019, .ofNat 1), (178209502711, .ofNat 1), (196558603771, .negSucc 0), (197886786359, .ofNat 1), (198311013347, .ofNat 1), (375298490167, .ofNat 1), (418292756983, .ofNat 1), (573346516943, .ofNat 1), (12338619606337, .ofNat 1), (12793919222807, .ofNat 1), (15283620544109, .negSucc 0), (15700641297437, .ofNat 1), (15847591781899, .negSucc 0), (19448094806809, .negSucc 0), (24129569395931, .ofNat 1), (28254665230513, .ofNat 1), (29694003820541, .ofNat 1), (30704383945231, .ofNat 1), (38683156445597, .ofNat 1), (43165398440261, .negSucc 0), (47985275670509, .ofNat 1), (63275409901633, .ofNat 1), (4087775935069537, .ofNat 1), (4238616375478007, .ofNat 1), (5201611339720637, .ofNat 1), (6678552026380693, .negSucc 0)] 0)) .nil))) (.node (.node (.node (.leaf (.atom 48847)) (.leaf (.atom 2293))) (.node (.leaf (.adef 31891 [(408662819473, .negSucc 0), (449250980273, .ofNat 1), (494302049123, .ofNat 1), (543395849923, .negSucc 0), (67024394746391, .negSucc 0), (73681219839991, .ofNat 1), (80167062030631, .ofNat 1), (88129209428231, .negSucc 0)] 0)) .nil)) (.node (.node (.leaf (.adef 36713 [(2332819, .ofNat 1), (2563721, .ofNat 1)] 0)) .nil) (.node (.leaf (.adef 26987 [(5218063, .ofNat 1), (6510743, .negSucc 0), (7900819, .ofNat 1), (10516393, .negSucc 0)] 0)) .nil))))

def jac45 : JTree := .node (.node (.node (.node (.node (.leaf (.trans [(534959, .negSucc 0), (49351871, .ofNat 1), (54253471, .negSucc 0)] 0)) (.leaf (.adef 14519 [(44089, .ofNat 1), (9308759, .ofNat 1), (11345263, .ofNat 1), (23584123, .negSucc 0), (25864541, .ofNat 1)] 0))) (.node (.leaf (.adef 18301 [(22022953, .negSucc 0), (22676503, .ofNat 1), (29608703, .negSucc 0), (6629523623, .ofNat 1)] 0)) .nil)) (.node (.node (.leaf (.adef 17209 [(4765231, .ofNat 1), (4766339, .negSucc 0), (8212111, .negSucc 0), (8214299, .negSucc 0), (10493269, .ofNat 1), (10503083, .ofNat 1)] 0)) (.leaf (.trans [(397, .negSucc 0)] 0))) (.node (.leaf (.adef 32183 [(121587, .ofNat 2), (688866417, .negSucc 0)] 0)) .nil))) (.node (.node (.node (.leaf (.atom 2203)) (.leaf (.adef 34511 [(36691799, .ofNat 1), (36821887, .ofNat 1), (48453133, .negSucc 0), (8938704407, .negSucc 0)] 0))) (.node (.leaf (.adef 12377 [(6803569, .ofNat 1), (8667019, .ofNat 1), (8717671, .ofNat 1), (11569907, .ofNat 1), (2552584063, .ofNat 1), (2631042431, .ofNat 1)] 0)) .nil)) (.node (.node (.leaf (.adef 29717 [(101424923, .ofNat 1), (101748949, .negSucc 0), (125317957, .ofNat 1), (141468913, .ofNat 1), (146819573, .negSucc 0), (147130339, .ofNat 1)] 0)) .nil) (.node (.leaf (.adef 33083 [(8687821, .ofNat 1), (8715437, .ofNat 1), (25697723, .ofNat 1), (25874869, .ofNat 1), (31062467, .ofNat 1), (31219369, .ofNat 1), (34601597, .ofNat 1), (37467533, .ofNat 1), (1107630907, .ofNat 1), (1119564143, .ofNat 1), (1269380689, .ofNat 1), (1286360849, .ofNat 1), (1464687967, .ofNat 1), (1580380999, .ofNat 1), (1828790683, .ofNat 1), (2007622007, .ofNat 1), (3295875031, .ofNat 1), (3480652129, .ofNat 1), (3598162093, .ofNat 1), (35729938903, .ofNat 1), (37075288051, .ofNat 1), (39265369673, .negSucc 0), (40565819507, .negSucc 0), (41838188069, .ofNat 1), (43920991409, .negSucc 0), (45152862383, .negSucc 0), (47377070113, .ofNat 1), (76196295211, .ofNat 1), (87633850211, .ofNat 1), (91938105751, .ofNat 1), (96958228511, .ofNat 1), (97368285193, .ofNat 1), (102615386953, .ofNat 1), (107842781621, .ofNat 1), (111512283511, .ofNat 1), (119770178167, .ofNat 1), (140489615957, .ofNat 1), (149881308359, .ofNat 1), (153963080639, .ofNat 1), (154293144587, .ofNat 1), (174273083429, .ofNat 1), (196167420149, .ofNat 1), (196398626657, .ofNat 1), (198300088253, .ofNat 1), (229803843673, .ofNat 1), (448162255789, .negSucc 0), (489166678621, .ofNat 1), (12439963504541, .ofNat 1), (12899002748251, .ofNat 1), (14845998207097, .ofNat 1), (15393821019167, .ofNat 1), (15829599336841, .ofNat 1), (18891229326197, .ofNat 1)] 0)) .nil)))) (.node (.node (.node (.node (.leaf (.atom 1381)) (.leaf (.adef 21503 [(44953, .ofNat 1), (84441811, .ofNat 1), (84723241, .ofNat 1), (84824977, .negSucc 0), (109889867, .ofNat 1), (1233407515151, .ofNat 1)] 0))) (.node (.leaf (.adef 38039 [(1780781, .negSucc 0), (3774803, .ofNat 1), (3779887, .ofNat 1), (5166127, .ofNat 1), (7247473, .negSucc 0), (322346839, .negSucc 0), (397829941, .negSucc 0), (742695517, .negSucc 1), (25287108703, .ofNat 1), (26844578261, .ofNat 1)] 0)) .nil)) (.node (.node (.leaf (.adef 29347 [(21505487, .negSucc 0), (84065873, .negSucc 0), (127702661, .ofNat 1), (141346223, .negSucc 0), (8528552407, .ofNat 1), (105058102397, .negSucc 0)] 0)) .nil) (.node (.leaf (.adef 12451 [(4507117, .ofNat 1), (9050801, .ofNat 1), (9108551, .ofNat 1), (12087541, .ofNat 1), (2070823501, .ofNat 1), (2746537757, .ofNat 1)] 0)) .nil))) (.node (.node (.node (.leaf (.atom 48649)) (.leaf (.adef 47051 [(44557649, .negSucc 0), (49978741, .ofNat 1), (50550631, .negSucc 0), (101715277, .negSucc 0), (101880607, .ofNat 1), (103033093, .negSucc 0)] 0))) (.node (.leaf (.adef 39821 [(2113271, .ofNat 1), (2867113, .ofNat 1), (3079529, .ofNat 1), (4595317, .negSucc 0)] 0)) .nil)) (.node (.node (.leaf (.adef 30071 [(56234099, .negSucc 3), (4324072777, .negSucc 1), (419403341899, .ofNat 4), (650435549111, .negSucc 1), (904464158111, .ofNat 2)] 1)) .nil) (.node (.leaf (.adef 33521 [(56942933, .ofNat 4), (5101316881, .negSucc 1), (426584090459, .negSucc 3), (724958987387, .negSucc 1), (1008092840387, .ofNat 2)] 1)) .nil))))

def jac46 : JTree := .node (.node (.node (.node (.node (.leaf (.atom 47779)) (.leaf (.adef 9421 [(902831, .negSucc 0), (1459817, .negSucc 0), (3450901, .ofNat 1), (4391201, .ofNat 1), (199966231, .negSucc 0), (213539489, .negSucc 0), (248570327, .negSucc 0), (310994417, .negSucc 0), (323112269, .negSucc 0), (328642493, .negSucc 0), (457021393, .negSucc 0), (475820171, .negSucc 0), (2796848017, .negSucc 0), (2992925233, .negSucc 0), (3825335287, .negSucc 0), (68236256183, .negSucc 0), (72867979777, .negSucc 0), (73007885297, .negSucc 0), (77963496343, .negSucc 0), (84821864311, .negSucc 0), (90753292849, .negSucc 0), (112145601949, .negSucc 0), (119987726491, .negSucc 0)] 0))) (.node (.leaf (.adef 18493 [(37483, .ofNat 1), (10466021, .negSucc 0), (10682059, .ofNat 1), (12733829, .ofNat 1), (14190719, .ofNat 1), (15269431, .negSucc 0), (16757603, .ofNat 1), (18638537, .negSucc 0), (26104717, .negSucc 0), (35192539, .ofNat 1), (68554741, .negSucc 0)] 0)) .nil)) (.node (.node (.leaf (.adef 15199 [(363697, .ofNat 1), (564631, .ofNat 1)] 0)) (.leaf (.trans [(47303, .ofNat 1)] 0))) (.node (.leaf (.adef 41201 [(10297783, .negSucc 0), (17027891, .negSucc 0), (22522261, .ofNat 1), (30192671, .negSucc 0), (68904443, .ofNat 1)] 0)) .nil))) (.node (.node (.node (.leaf (.atom 48593)) (.leaf (.adef 46061 [(42525611, .negSucc 0), (49493363, .negSucc 0), (50023957, .ofNat 1), (59817409, .ofNat 1), (60911317, .negSucc 0)] 0))) (.node (.leaf (.adef 39161 [(6334109, .negSucc 0), (6348539, .ofNat 1), (6350803, .negSucc 0), (8691983, .ofNat 1), (8694199, .negSucc 0), (13842929, .negSucc 0), (13844023, .negSucc 0), (17736001, .ofNat 1), (17737403, .ofNat 1), (27569071, .negSucc 0), (28671661, .negSucc 0), (35221951, .ofNat 1), (35400133, .ofNat 1), (523870987, .negSucc 0), (726853409, .ofNat 1), (926154763, .negSucc 0), (926737571, .negSucc 0), (949221107, .ofNat 1), (949519159, .ofNat 1), (1581117887, .ofNat 1), (1717261829, .ofNat 1), (1717459363, .negSucc 0)] 0)) .nil)) (.node (.node (.leaf (.adef 23689 [(5519939, .ofNat 1), (5888159, .negSucc 0), (483946789, .negSucc 0), (586058339, .negSucc 0)] 0)) .nil) (.node (.leaf (.adef 9203 [(1647131, .ofNat 1), (2311073, .ofNat 1)] 0)) .nil)))) (.node (.node (.node (.node .nil (.leaf (.adef 45293 [(45289, .negSucc 0), (11055259, .negSucc 0), (31443779, .ofNat 1), (34421999, .negSucc 0), (21826196389, .ofNat 1), (21829194287, .ofNat 1)] 0))) (.node (.leaf (.adef 18773 [(3436930559, .negSucc 0), (3790465801, .negSucc 0), (3852118603, .ofNat 1), (4094196487, .negSucc 0), (1278727924211, .ofNat 1), (2574543534293, .negSucc 0), (4785257865937, .ofNat 1)] 0)) .nil)) (.node (.node (.leaf (.adef 5051 [(290496031, .ofNat 1), (372855931, .ofNat 1), (505836499, .negSucc 0), (21238077365309, .ofNat 1), (3066570551959859, .ofNat 1), (4453130742148123, .negSucc 0), (317723333942621159, .negSucc 0), (444029126047285751, .negSucc 0), (582296466702594511, .ofNat 1), (87726223843152643777, .ofNat 1), (105548585348476602829, .negSucc 0)] 0)) .nil) (.node (.leaf (.adef 41761 [(16953, .ofNat 4), (52533333, .negSucc 1), (62046459, .negSucc 1), (116617491, .negSucc 3), (153747621, .negSucc 1), (240245829, .negSucc 1), (243785439, .negSucc 1), (1288142703, .negSucc 1), (104202487503, .ofNat 3), (262240347879, .ofNat 4), (303592938489, .ofNat 4), (346645311183, .ofNat 4), (360506558007, .ofNat 2), (417694483539, .ofNat 2), (520166816231589, .negSucc 7)] 0)) .nil))) (.node (.node (.node (.leaf (.atom 11719)) .nil) (.node (.leaf (.adef 19681 [(1408531, .ofNat 1), (114321773, .negSucc 0), (124781597, .ofNat 1)] 0)) .nil)) (.node (.node (.leaf (.adef 37013 [(11918261, .negSucc 0), (11959529, .ofNat 1), (12696583, .ofNat 1), (12851647, .negSucc 0)] 0)) .nil) (.node (.leaf (.adef 9283 [(2628799, .ofNat 1), (617830817, .ofNat 1), (815378807, .negSucc 0)] 0)) .nil))))

def jac47 : JTree := .node (.node (.node (.node (.node (.leaf (.atom 331)) (.leaf (.adef 27061 [(2274374507, .ofNat 2), (3372491417, .ofNat 2), (3868811561, .negSucc 0), (4175520653, .negSucc 0), (9070660891, .ofNat 1), (11916212431, .ofNat 1), (942276662671, .negSucc 1), (366314643357349, .ofNat 1)] 0))) (.node (.leaf (.adef 24091 [(3584808181, .negSucc 0), (3927396989, .ofNat 2), (4143021721, .negSucc 0), (4471244893, .negSucc 0), (4956094219, .ofNat 1), (8004889447, .ofNat 1), (1010680033117, .ofNat 1), (1132971730703, .ofNat 1), (1249626606677, .ofNat 1)] 0)) .nil)) (.node (.node (.leaf (.adef 10867 [(8123497, .negSucc 0), (10404943, .ofNat 1), (24323093, .ofNat 1), (30018767, .ofNat 1)] 0)) .nil) (.node (.leaf (.adef 8923 [(1867379, .ofNat 1), (324720113, .negSucc 0), (29956585697, .ofNat 1), (32931856897, .negSucc 0)] 0)) .nil))) (.node (.node (.node (.leaf (.atom 11633)) (.leaf (.adef 27997 [(11950333, .ofNat 1), (659475281, .ofNat 1), (946315871, .negSucc 0), (3624428459, .negSucc 0), (29665338687097, .negSucc 0), (32611683398297, .ofNat 1)] 0))) (.node (.leaf (.adef 13763 [(8686247, .negSucc 0), (9869023, .negSucc 0), (11682119, .ofNat 1), (13919441, .negSucc 0), (15268291, .ofNat 1), (19480217, .negSucc 0)] 0)) .nil)) (.node (.node (.leaf (.adef 23269 [(15091759, .ofNat 1), (130401079, .negSucc 0), (130675561, .ofNat 1), (135852767, .ofNat 1), (136921991, .negSucc 0)] 0)) .nil) (.node (.leaf (.adef 41887 [(41843, .ofNat 4), (1236937129, .negSucc 3), (1262473759, .ofNat 4), (2333788987, .negSucc 3), (2395850837, .negSucc 3), (2452744421, .negSucc 3), (19992002161, .ofNat 4), (88499281447, .negSucc 3), (90677686399, .ofNat 4), (115120534369, .ofNat 4), (117539861233, .ofNat 4), (126502221163, .negSucc 0), (143595795271, .negSucc 3), (146715227861, .negSucc 3), (164516192749, .negSucc 3), (170535212209, .negSucc 3), (173499878891, .negSucc 3), (177146082587, .negSucc 3), (310814982997, .ofNat 4), (317984077667, .negSucc 3), (321766714853, .negSucc 3), (338534658103, .negSucc 3), (347217462607, .negSucc 3), (355935823231, .negSucc 3), (451880984161, .negSucc 3), (461155070473, .ofNat 4), (10261864956379, .negSucc 3), (10306550309173, .negSucc 3), (10343677768169, .ofNat 4), (10588802010443, .negSucc 3), (10673221330873, .ofNat 4), (10719720048407, .negSucc 3), (11297666031389, .ofNat 2), (13657745838283, .ofNat 4), (14143640678983, .negSucc 3), (14339491297631, .ofNat 4), (17682874691473, .ofNat 2), (17745820574627, .negSucc 1), (19720234397657, .ofNat 4), (20421811382957, .negSucc 3), (20704597440949, .ofNat 4), (31289252934977, .negSucc 0), (42480101742989, .ofNat 4), (42818774740879, .negSucc 3), (43515533872597, .negSucc 3), (43862461862567, .ofNat 4), (58124429415257, .negSucc 3), (59359877746921, .negSucc 3), (3821149007783981, .ofNat 2), (3974331507433279, .ofNat 2), (5297277638780219, .ofNat 2)] 1)) .nil)))) (.node (.node (.node (.node (.leaf (.atom 1697)) (.leaf (.adef 44533 [(22757159969, .ofNat 1), (27796289513, .negSucc 0), (16627488010241, .negSucc 0), (528414356115059, .ofNat 1), (589450648796257, .negSucc 0)] 0))) (.node (.leaf (.adef 24533 [(6438503, .ofNat 1), (8244581, .negSucc 0), (10146719543, .ofNat 1), (2683795944371, .negSucc 0)] 0)) .nil)) (.node (.node (.leaf (.adef 3371 [(1501397, .negSucc 0), (1688833, .ofNat 1)] 0)) .nil) (.node (.leaf (.adef 25943 [(15876941, .ofNat 1), (23815859, .ofNat 1), (991458107, .negSucc 1), (2392625987, .ofNat 1), (2400705169, .ofNat 1), (2886301687, .ofNat 1), (2890131197, .ofNat 1), (27663830947, .ofNat 2), (30283046489, .negSucc 1), (30885136277, .negSucc 1), (34299195233, .ofNat 2), (35848010351, .ofNat 2), (37511051173, .ofNat 2), (38256848689, .ofNat 2), (44446407589, .ofNat 2), (129636189569, .ofNat 1), (148870979839, .negSucc 1), (192913571387, .negSucc 1), (307725824591, .ofNat 1), (421794369511, .ofNat 1), (663064721411, .ofNat 1), (784439509057, .ofNat 1), (805219962121, .ofNat 1), (18835716756667, .ofNat 2), (23353595806313, .ofNat 2), (23968064646767, .ofNat 2), (30280262533681, .negSucc 1), (33134281144903, .negSucc 1), (34090944169091, .ofNat 2), (39446891024977, .negSucc 1), (44716659622699, .ofNat 2), (3096029362953133, .ofNat 2), (3210273988892363, .ofNat 2), (3834994471544681, .negSucc 1), (3939634094003033, .ofNat 2), (3976507182671791, .negSucc 1), (4879952093218981, .negSucc 1), (5058250135065937, .negSucc 1), (6554703271112021, .negSucc 1)] 0)) .nil))) (.node (.node (.node (.leaf (.atom 13001)) (.leaf (.adef 46199 [(783564379, .negSucc 0), (783726047, .ofNat 1), (838190197, .negSucc 0), (838794983, .ofNat 1), (875828837, .ofNat 1), (875919031, .negSucc 0), (1171035073, .negSucc 0), (1180170823, .ofNat 1), (1180292321, .ofNat 1), (1184547767, .ofNat 1), (1188098587, .negSucc 0), (1193056397, .ofNat 1), (7041386972399, .ofNat 1), (7634073842837, .ofNat 1), (7945323894157, .negSucc 0), (10778885761111, .negSucc 0)] 0))) (.node (.leaf (.adef 39239 [(17047451, .ofNat 1), (36246239, .ofNat 1), (38197267, .ofNat 1), (45126883, .ofNat 1)] 0)) .nil)) (.node (.node (.leaf (.adef 36083 [(16549847, .ofNat 1), (26382137, .ofNat 1), (31732291, .ofNat 1)] 0)) .nil) (.node (.leaf (.adef 42689 [(14881369, .ofNat 1), (16944101, .negSucc 0), (26951399, .negSucc 0)] 0)) .nil))))

def jac48 : JTree := .node (.node (.leaf (.atom 48809)) (.leaf (.adef 47303 [(856942333, .negSucc 0), (857672647, .ofNat 1), (915555329, .negSucc 0), (915815147, .ofNat 1), (962368459, .ofNat 1), (962641381, .negSucc 0), (1199137277, .negSucc 0), (1213018157, .ofNat 1), (1216552649, .negSucc 0), (1221728807, .ofNat 1), (1290949127, .ofNat 1), (1291558957, .negSucc 0), (7148831184053, .ofNat 1), (7739348984107, .ofNat 1), (8105037549661, .negSucc 0), (10943274761731, .negSucc 0)] 0))) (.node (.leaf (.adef 25411 [(8647553, .ofNat 1), (8675041, .ofNat 1), (9774799, .negSucc 0), (9778823, .ofNat 1), (19076353, .ofNat 1), (19077551, .negSucc 0), (35380669, .negSucc 0), (35559383, .negSucc 0), (277019723, .ofNat 1), (287241853, .ofNat 1), (355301867, .negSucc 0), (368412637, .negSucc 0), (999853919, .ofNat 1), (1016423711, .ofNat 1), (1246038581, .ofNat 1), (1269712777, .ofNat 1), (1283361847, .ofNat 1), (1380819001, .ofNat 1), (1759081487, .ofNat 1), (2886645071, .ofNat 1), (3028779661, .ofNat 1), (3157372181, .ofNat 1), (3186107669, .ofNat 1), (3357100807, .ofNat 1), (3555212777, .ofNat 1), (4256973337, .ofNat 1), (4459693207, .ofNat 1), (4535912497, .ofNat 1), (4821161179, .negSucc 0), (5324522153, .ofNat 1), (5547870931, .ofNat 1), (5617415593, .ofNat 1), (5733334157, .ofNat 1), (5872221967, .ofNat 1), (6223008637, .ofNat 1), (6663128249, .ofNat 1), (6947331499, .ofNat 1), (6973239667, .ofNat 1), (7148921449, .negSucc 0), (8355452153, .ofNat 1), (9990286513, .negSucc 0), (10926344747, .ofNat 1), (11954375119, .negSucc 0), (13066908401, .ofNat 1), (13218013189, .ofNat 1), (13487309489, .negSucc 0), (13545377401, .negSucc 0), (14525650241, .ofNat 1), (15681807181, .negSucc 0), (16814468059, .ofNat 1), (23740375103, .negSucc 0), (27397345607, .negSucc 0), (63783497389, .ofNat 1), (66137131979, .ofNat 1), (78553823939, .ofNat 1), (87227667823, .ofNat 1), (97395510721, .ofNat 1), (99958135639, .ofNat 1), (102139765229, .ofNat 1), (104332927121, .ofNat 1), (106877082971, .ofNat 1), (107342930953, .ofNat 1), (110995424723, .ofNat 1), (121952955797, .ofNat 1), (126282978377, .negSucc 0), (127610529031, .ofNat 1), (130147691083, .ofNat 1), (135938425603, .negSucc 0), (136875510509, .negSucc 0), (139838447401, .ofNat 1), (142175318347, .ofNat 1), (151204229383, .ofNat 1), (151762523281, .negSucc 0), (152619654547, .ofNat 1), (152636817401, .ofNat 1), (153330659903, .negSucc 0), (158988617833, .negSucc 0), (159422234759, .negSucc 0), (164512143209, .negSucc 0), (164702221181, .negSucc 0), (173465328697, .ofNat 1), (173814329861, .ofNat 1), (177707244563, .negSucc 0), (178996865963, .ofNat 1), (184096108253, .ofNat 1), (186489564083, .ofNat 1), (192787134853, .ofNat 1), (195733690069, .ofNat 1), (197771269151, .ofNat 1), (197793509533, .ofNat 1), (202725540761, .ofNat 1), (228738704189, .ofNat 1), (262933801777, .negSucc 0), (264156086437, .negSucc 0), (268254490741, .negSucc 0), (268962121487, .negSucc 0), (1276868315087, .ofNat 1), (1418025764819, .negSucc 0), (1651682688269, .negSucc 0), (1885101056849, .ofNat 1), (12911902882661, .ofNat 1), (13388356863571, .ofNat 1), (14777187091421, .ofNat 1), (15322470747931, .ofNat 1), (15993735965377, .negSucc 0), (16430132550961, .ofNat 1), (16549074369661, .ofNat 1), (16583910724247, .negSucc 0), (18186583655651, .negSucc 0), (18788914409009, .negSucc 0), (18803668587721, .ofNat 1), (19378238729303, .ofNat 1), (20351702168477, .negSucc 0)] 0)) .nil)

def jac49 : JTree := .node (.node (.node (.node (.node (.leaf (.atom 1303)) (.leaf (.adef 43963 [(2073959, .ofNat 1), (847612279, .ofNat 1), (288863391133, .ofNat 1)] 0))) (.node (.leaf (.adef 18257 [(149470793419, .ofNat 1), (217054515443, .negSucc 0), (6286795518347, .negSucc 0), (8708092154491, .negSucc 0), (9129391259059, .ofNat 1), (12645485313827, .ofNat 1)] 0)) .nil)) (.node (.node (.leaf (.adef 28921 [(202773, .ofNat 2), (280869, .ofNat 2), (49492449, .ofNat 2), (61646283, .ofNat 1), (2161991763, .ofNat 1), (3139543611, .negSucc 0), (89735742189, .negSucc 1)] 0)) .nil) (.node (.leaf (.adef 32089 [(52736767, .ofNat 1), (96853327, .ofNat 1), (119533213, .ofNat 1), (13698116191, .ofNat 1)] 0)) .nil))) (.node (.node (.node (.leaf (.atom 22441)) (.leaf (.adef 28123 [(28111, .ofNat 1), (19518043, .ofNat 1), (777810433, .negSucc 0), (792818237, .negSucc 0), (1045666987, .negSucc 0), (1112912621, .ofNat 1), (4273882967, .negSucc 0), (4419719723, .negSucc 0), (6263534257, .negSucc 0), (221701464893, .ofNat 1), (223853692259, .negSucc 0), (379531471733, .ofNat 1)] 0))) (.node (.leaf (.adef 5623 [(4082959, .negSucc 0), (6630433319, .negSucc 0)] 0)) .nil)) (.node (.node (.leaf (.adef 23399 [(23455787, .ofNat 1), (36991517, .negSucc 0), (37341253, .ofNat 1), (139722697, .ofNat 1), (139909421, .negSucc 0), (236898743, .ofNat 1)] 0)) .nil) (.node (.leaf (.adef 42187 [(2821193, .negSucc 0), (5068309, .negSucc 0), (7110629, .ofNat 1), (337941337, .ofNat 1), (463744069, .negSucc 0)] 0)) .nil)))) (.node (.node (.node (.node (.leaf (.atom 10459)) (.leaf (.adef 44729 [(67588317, .ofNat 2), (91573707, .ofNat 4), (119163843, .ofNat 2), (160115283, .ofNat 1), (267793493067, .negSucc 1)] 0))) (.node (.leaf (.adef 30829 [(113493, .ofNat 8), (500328063, .negSucc 3), (684621207, .negSucc 3), (737912781, .negSucc 3), (1356026104863, .ofNat 6)] 1)) .nil)) (.node (.node (.leaf (.adef 13313 [(87627, .ofNat 2), (237321927, .negSucc 0)] 0)) .nil) (.node (.leaf (.adef 5647 [(4161601, .negSucc 0), (23989151, .ofNat 1), (30564019, .negSucc 0), (6345103547, .negSucc 0)] 0)) .nil))) (.node (.node (.node (.leaf (.atom 5233)) (.leaf (.adef 46649 [(22925953, .negSucc 0), (22994039, .negSucc 0), (23109991, .ofNat 1), (25606583, .ofNat 1), (26019589, .negSucc 0)] 0))) (.node (.leaf (.adef 39569 [(27203567, .ofNat 1), (27325757, .ofNat 1), (30710791, .ofNat 1), (30833161, .ofNat 1), (34192373, .ofNat 1), (37315843, .ofNat 1), (1035959609, .ofNat 1), (1270307351, .ofNat 1), (1273949749, .ofNat 1), (1295255069, .ofNat 1), (1801383431, .ofNat 1), (2046659627, .ofNat 2), (3765875161, .ofNat 2), (3842757641, .ofNat 1), (4017089683, .ofNat 1), (160283708617, .ofNat 1), (162617403349, .ofNat 1), (165825842393, .ofNat 1), (195825347147, .ofNat 1), (514136976527, .negSucc 0), (549650803297, .ofNat 1)] 0)) .nil)) (.node (.node (.leaf (.adef 23899 [(6277547, .ofNat 1), (8055743, .negSucc 0), (9597218179, .ofNat 1), (10924018759, .negSucc 0), (14990616283, .ofNat 1)] 0)) .nil) (.node (.leaf (.adef 26881 [(1456853687, .negSucc 3), (1486506293, .negSucc 3), (1554406121, .negSucc 3), (1578168611, .ofNat 4), (3725987437, .ofNat 4), (3786405407, .negSucc 3), (3959358779, .negSucc 3), (4036257361, .negSucc 3), (117640132301, .negSucc 3), (127436245553, .ofNat 4), (266355957187, .negSucc 1), (279938317999, .negSucc 1), (467532025199, .negSucc 3), (480846477583, .negSucc 3), (488887699403, .negSucc 3), (520887460699, .ofNat 4), (712895451563, .ofNat 2), (821628460841, .negSucc 1), (1088712850721, .negSucc 1), (1144229877317, .negSucc 1), (72949875575209, .ofNat 4), (77988861997799, .negSucc 3), (79024547788477, .negSucc 3), (84483140009747, .ofNat 4), (120497073235249, .ofNat 2), (122600126901523, .ofNat 2), (128820365238239, .negSucc 1), (131068686580253, .negSucc 1)] 1)) .nil))))

def jac50 : JTree := .node (.node jac47 (.node (.node (.node (.node (.node (.leaf (.atom 1013)) (.leaf (.adef 11443 [(11987, .ofNat 1), (1291777, .ofNat 1), (3449167, .ofNat 1), (4140751, .ofNat 1), (220268903, .ofNat 1), (407809999, .ofNat 1)] 0))) (.node (.leaf (.adef 18353 [(12359437, .negSucc 0), (131594531, .negSucc 0), (146086769, .ofNat 1), (191842019, .negSucc 0), (212140393, .negSucc 0), (226134043, .negSucc 0), (314451043, .ofNat 1), (386522603, .negSucc 0), (462157013, .ofNat 1), (537479603, .ofNat 1), (671122861, .negSucc 0), (690246737, .negSucc 0), (854823377, .negSucc 0), (1006260113, .negSucc 0), (1184050081, .negSucc 0)] 0)) .nil)) (.node (.node (.leaf (.adef 5479 [(1252397, .ofNat 1), (1268723, .negSucc 0)] 0)) (.leaf (.trans [] 0))) (.node (.leaf (.adef 40639 [(16923, .ofNat 2), (116639361, .ofNat 2), (151440633, .ofNat 1), (6321998997, .ofNat 1), (9180512109, .negSucc 0), (262401218091, .negSucc 1)] 0)) .nil))) (.node (.node (.node (.leaf (.atom 22531)) (.leaf (.adef 28307 [(169109, .ofNat 1), (6128533, .ofNat 1), (1355477281, .ofNat 1)] 0))) (.node (.leaf (.adef 38839 [(16877251, .ofNat 1), (26480653, .ofNat 1), (32500673, .negSucc 0), (548971261, .negSucc 0), (8232724913099, .ofNat 1), (8631025662851, .ofNat 1), (14597312610697, .ofNat 1), (15303533287153, .ofNat 1)] 0)) .nil)) (.node (.node (.leaf (.adef 35963 [(23473770379, .ofNat 1), (1840563705881, .ofNat 1), (2672780776657, .negSucc 0)] 0)) .nil) (.node (.leaf (.adef 20479 [(10519309, .negSucc 0), (10773929, .negSucc 0), (14350711, .ofNat 1), (17098061, .ofNat 1), (69261427, .ofNat 1)] 0)) .nil)))) (.node (.node (.node (.node (.leaf (.atom 48271)) (.leaf (.adef 34313 [(134392043, .ofNat 1), (813217579, .ofNat 1)] 0))) (.node (.leaf (.adef 38183 [(22470593, .negSucc 0), (22637101, .negSucc 0), (22717493, .ofNat 1), (24678403, .ofNat 1), (24851587, .negSucc 0)] 0)) .nil)) (.node (.node (.leaf (.adef 4133 [(1515343, .negSucc 0), (1690589, .ofNat 1)] 0)) .nil) (.node (.leaf (.adef 20231 [(39571277, .negSucc 0), (47840579, .ofNat 1), (48480661, .negSucc 0), (48554801, .ofNat 1)] 0)) .nil))) (.node jac48 (.node (.node (.leaf (.adef 30161 [(109623, .ofNat 2), (681744411, .negSucc 0)] 0)) .nil) (.node (.leaf (.adef 20897 [(292242881, .ofNat 1), (377250293, .ofNat 1), (379348711, .ofNat 1), (505769579, .negSucc 0), (521910529, .ofNat 1), (643357183, .negSucc 0), (111991992133, .negSucc 0), (134263619539, .ofNat 1), (321435627715760159, .negSucc 0), (450889660145482747, .negSucc 0), (584887432550809409, .ofNat 1), (90142570709263911433, .ofNat 1), (109039242271033037089, .negSucc 0)] 0)) .nil)))))) (.node jac49 (.node (.node (.node (.node (.node (.leaf (.atom 2657)) (.leaf (.adef 44249 [(6646681, .ofNat 1), (8435657, .negSucc 0), (14663797, .negSucc 0)] 0))) (.node (.leaf (.adef 24407 [(4359703, .ofNat 1), (4828687, .ofNat 1), (823485569, .ofNat 1)] 0)) .nil)) (.node (.node (.leaf (.adef 22817 [(55203453, .ofNat 2), (64363311, .ofNat 1), (93167784279, .negSucc 1)] 0)) (.leaf (.trans [(43759, .negSucc 0)] 0))) (.node (.leaf (.adef 25931 [(5134879, .negSucc 0), (6438779, .ofNat 1), (7775839, .negSucc 0), (10432913, .ofNat 1)] 0)) .nil))) (.node (.node (.node (.leaf (.atom 17029)) (.leaf (.adef 22051 [(277348169, .negSucc 0), (556412213, .negSucc 0), (684753349, .ofNat 1), (74494059199, .ofNat 1), (89161000439, .negSucc 0)] 0))) (.node (.leaf (.adef 31277 [(1565393, .ofNat 1), (30645341, .negSucc 0), (31190279, .negSucc 0), (92492041, .ofNat 1), (116248313, .negSucc 0), (152968667, .ofNat 1), (8101521767, .negSucc 0)] 0)) .nil)) (.node (.node (.leaf (.adef 17713 [(100987613, .ofNat 1), (101230919, .negSucc 0), (76459329187, .negSucc 0), (76693957253, .ofNat 1)] 0)) .nil) (.node (.leaf (.adef 9851 [(6087703, .ofNat 1), (7152017, .ofNat 1), (7198823, .ofNat 1), (9555857, .ofNat 1), (742304659, .negSucc 0), (899695469, .ofNat 1)] 0)) .nil)))) (.node (.node (.node (.node (.leaf (.atom 2447)) (.leaf (.adef 7949 [(45137, .ofNat 1), (311374643, .negSucc 0), (434470051, .negSucc 0), (68319682757, .negSucc 0), (69483082523, .negSucc 0), (79894571881, .negSucc 0), (257416348697, .negSucc 0), (276066713947, .negSucc 0), (350219333099, .negSucc 0)] 0))) (.node (.leaf (.adef 38561 [(12130927, .negSucc 0), (12150997, .ofNat 1), (12270353, .negSucc 0)] 0)) .nil)) (.node (.node (.leaf (.adef 4951 [(372896573, .ofNat 1), (756525555793, .negSucc 0)] 0)) .nil) (.node (.leaf (.adef 41627 [(1355431771, .negSucc 3), (1827275533, .ofNat 1), (140496262111, .ofNat 2), (573862005907, .ofNat 2)] 1)) .nil))) (.node (.node (.node (.leaf (.atom 4003)) (.leaf (.atom 631))) (.node (.leaf (.adef 19501 [(1297159, .ofNat 1), (2235781, .ofNat 1), (114853183, .negSucc 0), (128670029, .ofNat 1), (14811852113, .negSucc 0), (16282956913, .ofNat 1), (19095753167, .negSucc 0), (37243666277, .negSucc 0)] 0)) .nil)) (.node (.node (.leaf (.adef 36821 [(3221171, .negSucc 0), (3757057, .ofNat 1), (5156401, .negSucc 0), (6986003, .negSucc 0), (101068159, .ofNat 1), (124735021, .ofNat 1), (321293131, .negSucc 0), (396529489, .negSucc 0)] 0)) .nil) (.node (.leaf (.adef 26993 [(4847201, .ofNat 1), (7871657, .negSucc 0), (10483001, .ofNat 1)] 0)) .nil))))))

def jac51 : JTree := .node (.node (.node (.node (.leaf (.atom 1949)) (.leaf (.adef 34033 [(7456543, .ofNat 4), (2500532273, .ofNat 2)] 1))) (.node (.leaf (.adef 24691 [(3401466401, .ofNat 4), (3450985687, .negSucc 3), (3608617939, .negSucc 3), (3684712853, .negSucc 3), (417296384287, .negSucc 3), (436357422139, .negSucc 3), (473585808139, .negSucc 3), (513022181767, .ofNat 4), (569120709497, .negSucc 3), (595116696509, .negSucc 3), (635139810023, .ofNat 1), (732009172163, .negSucc 0), (1072273541093, .negSucc 1), (1126952273561, .negSucc 1), (1189525716763, .ofNat 2), (1222619027101, .ofNat 2), (1299668450497, .negSucc 1), (1416149096191, .negSucc 1), (1460098956761, .negSucc 1), (1555879912733, .negSucc 1), (62829432924569, .ofNat 4), (68061357000557, .negSucc 3), (68577986268041, .negSucc 3), (74288603103773, .ofNat 4), (103591785078853, .ofNat 1), (105399195359473, .ofNat 1), (113069873209717, .negSucc 0), (115042651756897, .negSucc 0), (149829379206553, .negSucc 1), (168324252379889, .negSucc 1), (21573358108228163, .ofNat 2), (23547203710684307, .negSucc 1), (27453813319408579, .negSucc 1), (29965688773350931, .ofNat 2)] 1)) .nil)) (.node (.node (.leaf (.adef 3709 [(289166759, .negSucc 0), (352607017, .negSucc 0), (94014712673, .negSucc 0), (109695997579, .negSucc 0), (112509937981, .negSucc 0), (173741173627, .negSucc 0), (543546153017, .ofNat 1), (150744693071273, .ofNat 1), (181873844201399, .ofNat 1), (3127377648009671, .ofNat 1), (3773188850131673, .ofNat 1)] 0)) (.leaf (.trans [] 0))) (.node (.leaf (.adef 25999 [(10314457, .negSucc 0), (13016821, .negSucc 0), (17346167, .ofNat 1), (18185491, .negSucc 0), (18223189, .ofNat 1), (20018371, .negSucc 0), (68884507, .negSucc 0), (1535494875569, .negSucc 0)] 0)) .nil))) (.node (.node (.node (.leaf (.atom 6691)) (.leaf (.adef 35083 [(20695781, .ofNat 1), (22051517, .negSucc 0), (23470631, .negSucc 0), (23473031, .ofNat 1)] 0))) (.node (.leaf (.adef 19309 [(324801359, .negSucc 0), (336786649, .negSucc 0), (711838139, .negSucc 0), (738105229, .negSucc 0), (1164378871, .negSucc 0), (1192772221, .negSucc 0), (1632779653, .ofNat 1), (2183207651, .negSucc 0), (2262462511, .negSucc 0), (5231411749, .ofNat 1), (6589469851, .ofNat 1), (6891249307, .ofNat 1), (7012569307, .ofNat 1), (7782344033, .ofNat 1), (9200084161, .ofNat 1), (146776551461, .ofNat 1), (161299899451, .negSucc 0), (166642073209, .negSucc 0), (171868890703, .ofNat 1), (178944194551, .negSucc 0), (178964317733, .negSucc 0), (1704412964869, .negSucc 0), (10734542157121, .negSucc 0), (13033699821319, .negSucc 0), (13248221345299, .negSucc 0), (13514648154209, .negSucc 0), (13984169199457, .negSucc 0), (15139007281313, .negSucc 0), (15697642236343, .negSucc 0), (16085766645061, .negSucc 0), (16679337369971, .negSucc 0), (17258804909683, .negSucc 0), (19264077385213, .negSucc 0), (28755686105033, .negSucc 0), (28758919827739, .negSucc 0), (39460336517621, .ofNat 1), (39464774032543, .ofNat 1), (61014979038373, .negSucc 0), (71326149688309, .ofNat 1), (75302694409087, .negSucc 0), (97878167779633, .negSucc 0), (100280451418363, .ofNat 1), (123762858028897, .ofNat 1), (130454817811459, .ofNat 1), (179018194606183, .negSucc 0), (2325468471944791, .ofNat 1), (2411279116666001, .ofNat 1), (2959111107352091, .ofNat 1), (3191152112625067, .negSucc 0), (3308906803127837, .negSucc 0), (4060675849035167, .negSucc 0), (28229144879539973, .ofNat 1), (34839488659939487, .ofNat 1), (36723288538760189, .ofNat 1), (50393974898743193, .negSucc 0)] 0)) .nil)) (.node (.node (.leaf (.adef 11239 [(3671357, .negSucc 0), (525387589, .ofNat 1), (527892557, .negSucc 0), (932398319, .ofNat 1), (991559333, .negSucc 0), (1872566617, .ofNat 1), (2015681957, .ofNat 1), (2334332521, .negSucc 0), (2357927807, .ofNat 1), (2374083319, .negSucc 0), (2729820893, .negSucc 0), (3077085499, .ofNat 1)] 0)) .nil) (.node (.leaf (.adef 42773 [(22089364237, .negSucc 0), (27066006007, .ofNat 1), (16304338082287, .negSucc 0), (515843685284171, .ofNat 1), (575427959989033, .negSucc 0)] 0)) .nil)))

def jac52 : JTree := .node (.node (.node (.node (.node (.leaf (.atom 2473)) (.leaf (.adef 33863 [(175951, .ofNat 1), (7844814233, .negSucc 0)] 0))) (.node (.leaf (.adef 18443 [(110800763, .negSucc 0), (110939629, .ofNat 1), (46546047139, .negSucc 0), (128369789857, .ofNat 1)] 0)) .nil)) (.node (.node (.leaf (.adef 3677 [(287527849, .negSucc 0), (348865951, .negSucc 0), (90967699109, .negSucc 0), (109633053383, .negSucc 0), (109752753467, .negSucc 0), (111582605197, .negSucc 0), (173011235369, .negSucc 0), (541799352311, .ofNat 1), (8953261089913, .negSucc 0), (34673645463961, .negSucc 0), (150260243066759, .ofNat 1), (181289354075417, .ofNat 1)] 0)) (.leaf (.trans [] 0))) (.node (.leaf (.adef 40829 [(5023943, .negSucc 0), (5748779, .ofNat 1), (7411967, .ofNat 1), (9990991, .negSucc 0)] 0)) .nil))) (.node (.node (.node (.leaf (.adef 17021 [(922723, .negSucc 0), (957469, .negSucc 0)] 0)) (.leaf (.adef 34667 [(137121, .ofNat 2), (689281623, .negSucc 0)] 0))) (.node (.leaf (.adef 6277 [(25097, .ofNat 1), (3668173, .negSucc 0), (389283949, .ofNat 1), (511945601, .ofNat 1), (560103457, .ofNat 1), (562908769, .negSucc 0), (874102259, .ofNat 1), (891823133, .ofNat 1), (7453667917, .ofNat 1)] 0)) .nil)) (.node (.node (.leaf (.adef 15559 [(550041383, .negSucc 0), (570338113, .negSucc 0), (900893701, .negSucc 0), (929788817, .negSucc 0), (1346927671, .ofNat 1), (1626237451, .negSucc 0), (5262986627, .ofNat 1), (6113125069, .ofNat 1), (6843742417, .ofNat 1), (10587264587, .negSucc 0), (10977938557, .negSucc 0), (49801064867, .negSucc 0), (128062542397, .ofNat 1), (151708432223, .negSucc 0), (155963464001, .negSucc 0), (163646147311, .ofNat 1), (4692486978997, .negSucc 0), (5313707127167, .negSucc 0), (5462742960929, .negSucc 0), (5996346793111, .negSucc 0)] 0)) .nil) (.node (.leaf (.adef 11909 [(10929350479, .ofNat 1), (11458114471, .ofNat 1)] 0)) .nil)))) (.node (.node (.node (.node (.leaf (.atom 48383)) (.leaf (.adef 27803 [(4713931, .ofNat 1), (4793153, .ofNat 1)] 0))) (.node (.leaf (.mult 49033 2475 (.negSucc 0) 0)) .nil)) (.node (.node (.leaf (.adef 5557 [(117869, .negSucc 0), (22883023, .negSucc 0), (31820023, .ofNat 1)] 0)) .nil) (.node (.leaf (.adef 9091 [(3307771, .ofNat 1), (522199261, .negSucc 0), (765761173, .negSucc 0), (772010609, .negSucc 0), (1136284727, .negSucc 0), (1187109191, .negSucc 0), (1211720183, .negSucc 0), (1291375061, .negSucc 0), (1902686717, .negSucc 0), (2048104057, .negSucc 0), (2395854907, .negSucc 0), (2880449783, .negSucc 0), (3089144533, .negSucc 0), (3126580199, .negSucc 0), (3918901061, .negSucc 0), (116486782933, .negSucc 0), (127092488231, .negSucc 0), (32993117354663, .negSucc 0), (41524418173769, .ofNat 1)] 0)) .nil))) (.node (.node (.node (.leaf (.atom 3917)) (.leaf (.atom 49103))) (.node (.leaf (.adef 19471 [(8465291, .negSucc 0), (10612919, .negSucc 0), (11154323, .ofNat 1), (30438911, .ofNat 1)] 0)) .nil)) (.node (.node (.leaf (.adef 36677 [(2076727, .negSucc 0), (2852111, .negSucc 0), (4247077, .ofNat 1), (5098921, .ofNat 1), (86535011, .ofNat 1), (97946977, .negSucc 0)] 0)) .nil) (.node (.leaf (.adef 43331 [(23404081, .negSucc 0), (23574283, .negSucc 0), (23647087, .ofNat 1), (26513099, .ofNat 1), (26649349, .negSucc 0)] 0)) .nil))))

def jac53 : JTree := .node (.node (.node (.node (.node (.leaf (.trans [(130813, .negSucc 0), (211103, .ofNat 1), (683093, .ofNat 1)] 0)) (.leaf (.adef 21169 [(44059, .ofNat 1), (54510427, .negSucc 0), (54550589, .ofNat 1), (93395333, .ofNat 1), (120414769, .ofNat 1)] 0))) (.node (.leaf (.adef 15727 [(1545053, .negSucc 0), (3437129, .ofNat 1), (3439279, .ofNat 1), (4654499, .negSucc 0), (117987319, .negSucc 0), (137608337, .negSucc 0), (308070121, .ofNat 1), (691744541, .ofNat 1)] 0)) .nil)) (.node (.node (.leaf (.adef 4019 [(111096731, .negSucc 0), (154485731, .ofNat 1), (4672768603, .ofNat 1), (6472438859, .ofNat 1), (6497725603, .negSucc 0), (9000259859, .negSucc 0)] 0)) (.leaf (.trans [(1181, .ofNat 1)] 0))) (.node (.leaf (.adef 40499 [(8908043, .ofNat 1), (8911921, .negSucc 0), (14135027, .negSucc 0), (14138309, .negSucc 0), (18099119, .ofNat 1), (930881239, .ofNat 1), (3190368067, .ofNat 1), (213010423069, .negSucc 0), (221126492599, .ofNat 1)] 0)) .nil))) (.node (.node (.node (.leaf (.atom 2179)) (.leaf (.adef 45503 [(8647580261, .ofNat 1), (9065951789, .ofNat 1)] 0))) (.node (.leaf (.adef 19121 [(1267099, .ofNat 1), (1630831, .ofNat 1), (2265563, .ofNat 1), (2284903, .ofNat 1), (3033113, .ofNat 1), (681716947, .negSucc 0)] 0)) .nil)) (.node (.node (.leaf (.adef 23531 [(4116377773699, .negSucc 0), (4248951717743, .ofNat 1)] 0)) .nil) (.node (.leaf (.adef 42349 [(2831363, .ofNat 1), (34621433477, .ofNat 1)] 0)) .nil)))) (.node (.node (.node (.node (.leaf (.atom 48073)) (.leaf (.adef 21487 [(275753513, .negSucc 0), (537561073, .negSucc 0), (662482429, .ofNat 1), (115286032561, .ofNat 1), (138243422737, .negSucc 0)] 0))) (.node (.leaf (.adef 18679 [(37463, .ofNat 1), (72625097, .negSucc 0), (73034491, .negSucc 0), (73358359, .ofNat 1), (81009701, .ofNat 1), (81417943, .negSucc 0), (82312343, .ofNat 1), (96991331, .negSucc 0), (100946873, .ofNat 1), (110234981, .ofNat 1), (110364437, .ofNat 1)] 0)) .nil)) (.node (.node (.leaf (.adef 15329 [(14039521, .ofNat 4), (215381400683, .ofNat 2), (49250504961491, .ofNat 2), (71798700423059, .ofNat 2)] 1)) .nil) (.node (.leaf (.adef 20147 [(839407, .ofNat 1), (1323037, .ofNat 1), (2280137, .ofNat 1), (2295373, .ofNat 1), (3047003, .ofNat 1), (45505684379, .ofNat 1)] 0)) .nil))) (.node (.node (.node (.leaf (.atom 10853)) (.leaf (.adef 46901 [(43308703, .negSucc 0), (49895627, .ofNat 1), (50518973, .negSucc 0), (97384699, .negSucc 0), (97707499, .ofNat 1), (98990393, .negSucc 0)] 0))) (.node (.leaf (.adef 39761 [(45147521, .negSucc 0), (45467657, .negSucc 0), (45649397, .ofNat 1), (62668139, .ofNat 1), (62942903, .negSucc 0)] 0)) .nil)) (.node (.node (.leaf (.adef 24023 [(3317962279, .ofNat 4), (3374237107, .negSucc 3), (3528363679, .negSucc 3), (3594255187, .negSucc 3), (449439826607, .negSucc 3), (469969095179, .negSucc 3), (684235530817, .ofNat 2), (789279460121, .negSucc 1), (71262826996709, .ofNat 4), (77197015527977, .negSucc 3), (77719696933457, .negSucc 3), (84191561068421, .ofNat 4), (117526168733287, .ofNat 2), (119680817729591, .ofNat 2), (128174794639051, .negSucc 1), (130524668676443, .negSucc 1)] 1)) .nil) (.node (.leaf (.adef 33479 [(128883, .ofNat 2), (690620391, .negSucc 0)] 0)) .nil))))

def jac54 : JTree := .node (.leaf (.adef 37447 [(9907657, .ofNat 1), (9919453, .ofNat 1), (9939113, .ofNat 1), (9960739, .ofNat 1), (12032831, .ofNat 1), (12645991, .ofNat 1), (13655597, .ofNat 1), (19168363, .ofNat 1), (19173551, .ofNat 1), (19230619, .ofNat 1), (19235807, .ofNat 1), (20008433, .ofNat 1), (20104471, .ofNat 1), (20110667, .ofNat 1), (21618119, .ofNat 1), (21965089, .ofNat 1), (25100923, .ofNat 1), (26891129, .ofNat 1), (27059927, .ofNat 1), (27076003, .ofNat 1), (27306479, .ofNat 1), (28844129, .ofNat 1), (29004389, .ofNat 1), (29041381, .ofNat 1), (30322361, .ofNat 1), (30451033, .ofNat 1), (30467117, .ofNat 1), (31754171, .ofNat 1), (34016123, .ofNat 1), (34054829, .ofNat 1), (35958301, .ofNat 1), (37194307, .ofNat 1), (37205261, .ofNat 1), (50827687, .ofNat 1), (51367249, .ofNat 1), (51405113, .ofNat 1), (58575241, .ofNat 1), (58826849, .ofNat 1), (58853807, .ofNat 1), (59797613, .ofNat 1), (60151363, .ofNat 1), (81039521, .ofNat 1), (81206347, .ofNat 1), (93199187, .ofNat 1), (93315311, .ofNat 1), (785358271, .ofNat 1), (814338281, .ofNat 1), (1142890097, .ofNat 1), (1147674659, .ofNat 1), (1151927603, .ofNat 1), (1256401297, .negSucc 0), (1261661059, .negSucc 0), (1266336403, .negSucc 0), (1719337549, .negSucc 0), (1782781739, .negSucc 0), (2290001761, .ofNat 1), (2370145361, .ofNat 1), (2387013257, .ofNat 1), (2658775043, .negSucc 0), (2795735597, .ofNat 1), (2812381361, .negSucc 0), (2842428973, .ofNat 1), (2880961211, .negSucc 0), (3090305411, .negSucc 0), (3205477433, .negSucc 0), (3208870789, .ofNat 1), (3221224427, .ofNat 1), (4284383281, .ofNat 1), (4742962501, .ofNat 1), (5054922079, .negSucc 0), (5121899477, .ofNat 1), (5180026217, .negSucc 0), (6060739579, .negSucc 0), (6789846977, .ofNat 1), (7533160807, .negSucc 0), (8815640063, .negSucc 0), (9335920747, .ofNat 1), (9424348711, .ofNat 1), (9554185733, .ofNat 1), (10210743791, .ofNat 1), (10378228747, .ofNat 1), (10530070127, .ofNat 1), (10772082611, .ofNat 1), (10816151449, .ofNat 1), (11084606737, .ofNat 1), (11257808857, .ofNat 1), (11945767157, .negSucc 0), (12264688021, .ofNat 1), (12869079323, .ofNat 1), (14281727381, .ofNat 1), (14582249701, .ofNat 1), (15091231933, .ofNat 1), (16161179077, .ofNat 1), (16650059897, .ofNat 1), (18748029149, .ofNat 1), (20685285893, .ofNat 1), (22048476193, .ofNat 1), (25293165907, .ofNat 1), (31838698117, .ofNat 1), (39862983893, .ofNat 1), (44172204877, .ofNat 1), (56085014189, .ofNat 1), (221636045677, .ofNat 1), (247241015641, .ofNat 1), (256364300351, .ofNat 1), (279082184273, .ofNat 1), (282027338777, .ofNat 1), (282904005701, .negSucc 0), (335455464653, .ofNat 1), (345228070991, .negSucc 0), (352386469867, .ofNat 1), (353017235917, .ofNat 1), (357967114201, .negSucc 0), (364057337353, .ofNat 1), (366708976993, .ofNat 1), (368546457317, .negSucc 0), (370179631771, .ofNat 1), (392803605319, .ofNat 1), (404382489739, .ofNat 1), (406808422661, .negSucc 0), (419401560283, .ofNat 1), (420281718599, .negSucc 0), (433464078833, .ofNat 1), (437444346607, .ofNat 1), (437830680457, .ofNat 1), (441667358479, .negSucc 0), (442057421929, .negSucc 0), (562533940183, .negSucc 0), (687052693361, .negSucc 0), (711791445683, .negSucc 0), (733459580507, .negSucc 0), (1144814151937, .negSucc 0), (1223891777807, .ofNat 1), (2084013383957, .ofNat 1), (2736438416753, .ofNat 1), (3310000435799, .negSucc 0), (3624412672739, .ofNat 1), (3873509831791, .negSucc 0), (4007782162801, .negSucc 0), (4346235212171, .negSucc 0), (4477908145397, .negSucc 0), (5016600810511, .ofNat 1), (5086157887939, .negSucc 0), (5182266815129, .negSucc 0), (5926429781611, .ofNat 1), (30370723713367, .ofNat 1), (34998888551243, .negSucc 0), (35508988397893, .ofNat 1), (36792463478461, .ofNat 1), (36819283172723, .ofNat 1), (38150118957371, .ofNat 1), (45184462075793, .ofNat 1), (46817657886761, .ofNat 1), (107772164318257, .ofNat 1), (125819167917419, .ofNat 1), (130076387325413, .ofNat 1), (135705773534693, .ofNat 1)] 0)) .nil

def jac55 : JTree := .node (.node (.node (.node (.node (.node (.node (.leaf (.atom 35257)) (.leaf (.adef 33757 [(3762023, .ofNat 1), (1113677771, .ofNat 2)] 0))) (.node (.leaf (.adef 37123 [(497339170709, .ofNat 1)] 0)) .nil)) (.node (.node (.leaf (.adef 14887 [(545801, .negSucc 0), (596747, .negSucc 0), (7098443903, .ofNat 1), (10308029191, .negSucc 0)] 0)) .nil) (.node (.leaf (.adef 40237 [(3608711, .negSucc 0), (4592011, .negSucc 0), (6108493, .ofNat 1)] 0)) .nil))) (.node (.node (.node (.leaf (.atom 10531)) (.leaf (.adef 28027 [(6792551, .ofNat 1), (7236653, .negSucc 0), (300765923, .negSucc 0), (364226773, .negSucc 0)] 0))) (.node (.leaf (.adef 3863 [(24702583, .ofNat 1), (24790517, .negSucc 0), (71682337, .negSucc 0)] 0)) .nil)) (.node (.node (.leaf (.adef 3203 [(289076641, .negSucc 0), (292048883, .negSucc 0), (443690628857, .ofNat 1)] 0)) .nil) (.node (.leaf (.adef 42017 [(3150109, .negSucc 0), (4129891, .negSucc 0)] 0)) .nil)))) jac51) jac52) (.node jac53 (.node (.node (.node (.node (.node (.leaf (.atom 47713)) (.leaf (.adef 44381 [(15711239, .ofNat 1), (18737317, .negSucc 0)] 0))) jac54) (.node (.node (.leaf (.adef 15193 [(914623, .negSucc 0), (54174829, .ofNat 1), (51856870699, .ofNat 1), (52059466883, .ofNat 1), (91834742653, .ofNat 1), (2963005882633, .ofNat 1), (2968953532889, .negSucc 0)] 0)) (.leaf (.trans [] 0))) (.node (.leaf (.adef 41177 [(22970419, .negSucc 0), (24653693, .negSucc 0), (24828413, .ofNat 1), (25653811, .ofNat 1), (25689379, .negSucc 0), (32029051, .negSucc 0)] 0)) .nil))) (.node (.node (.node (.leaf (.atom 22639)) (.leaf (.adef 22147 [(12314087, .negSucc 0), (14216431, .ofNat 1), (32742497, .ofNat 1), (35512817, .negSucc 0)] 0))) (.node (.leaf (.adef 39139 [(6352501, .ofNat 1), (6354199, .negSucc 0), (8680349, .ofNat 1), (8685889, .negSucc 0), (13813391, .negSucc 0), (13817767, .negSucc 0), (17695343, .ofNat 1), (17698147, .ofNat 1), (27648017, .negSucc 0), (28611533, .negSucc 0), (35124889, .ofNat 1), (35166487, .ofNat 1), (35503019, .ofNat 1), (523677641, .negSucc 0), (929360207, .negSucc 0), (929797313, .negSucc 0), (952350653, .ofNat 1), (953095783, .ofNat 1), (1580534341, .ofNat 1), (1714496353, .ofNat 1), (1716274159, .negSucc 0)] 0)) .nil)) (.node (.node (.leaf (.adef 12241 [(3056021, .ofNat 1), (4727491, .ofNat 1), (116700377, .negSucc 0), (12390716633, .negSucc 0), (4103997848789, .ofNat 1), (4302550021661, .ofNat 1)] 0)) .nil) (.node (.leaf (.adef 20747 [(4050091, .ofNat 1), (9259001, .ofNat 1), (9313763, .ofNat 1), (12358859, .ofNat 1), (2087725499, .ofNat 1), (2808387713, .ofNat 1)] 0)) .nil)))) (.node (.node (.node (.node (.leaf (.atom 8087)) (.leaf (.adef 27953 [(421023953, .negSucc 0), (430590503, .ofNat 1), (549497557, .ofNat 1), (675530429, .negSucc 0)] 0))) (.node (.leaf (.adef 5323 [(155670953, .negSucc 0), (167424781, .ofNat 1)] 0)) .nil)) (.node (.node (.leaf (.adef 29527 [(21624233, .negSucc 0), (84219367, .negSucc 0), (127848593, .ofNat 1), (141904031, .negSucc 0), (8806355417, .ofNat 1), (105301786021, .negSucc 0)] 0)) .nil) (.node (.leaf (.adef 41729 [(3057191, .ofNat 1), (4979341, .ofNat 1), (6608443, .ofNat 1), (155482181, .ofNat 1)] 0)) .nil))) (.node (.node (.node (.leaf (.atom 7211)) (.leaf (.atom 49211))) (.node (.leaf (.adef 32029 [(4231151, .ofNat 1), (8875291, .ofNat 1)] 0)) .nil)) (.node (.node (.leaf (.adef 18119 [(36973, .ofNat 1), (42276511, .negSucc 0), (42428497, .ofNat 1), (53325323, .negSucc 0), (53346401, .negSucc 0), (70284581, .negSucc 0), (97740949, .ofNat 1)] 0)) .nil) (.node (.leaf (.adef 43759 [(840124597, .negSucc 0), (840445853, .ofNat 1), (903455033, .negSucc 0), (903800209, .ofNat 1), (944643089, .ofNat 1), (944823373, .negSucc 0), (1078155767, .negSucc 0), (1114776637, .negSucc 0), (1116783109, .ofNat 1), (1126464079, .ofNat 1), (1271847239, .ofNat 1), (7044978271747, .ofNat 1), (7678166524873, .ofNat 1), (7996232388443, .negSucc 0), (10830980223713, .negSucc 0)] 0)) .nil))))))

def jac56 : JTree := .node (.node (.node (.node (.leaf (.atom 22283)) (.leaf (.adef 7451 [(3965557, .ofNat 1), (4331693, .negSucc 0), (2015018373397, .negSucc 0), (2108007120493, .negSucc 0), (2926115708909, .ofNat 1), (3073109034157, .negSucc 0)] 0))) (.node (.leaf (.adef 24593 [(405072893779, .negSucc 3), (423575593663, .negSucc 3), (426004098167, .negSucc 3), (461478254051, .ofNat 4), (616535226491, .ofNat 1), (702386173579, .negSucc 0), (710567080871, .negSucc 0), (714641006239, .negSucc 0), (997202454671, .ofNat 4), (1013137680419, .negSucc 3), (1059415233743, .negSucc 3), (1080241363163, .negSucc 3), (138558034532623, .negSucc 3), (145440560938501, .negSucc 1), (146274421676909, .negSucc 1), (150096020521819, .ofNat 4), (163393680300413, .negSucc 1), (165515064797389, .negSucc 3), (173075372132833, .negSucc 3), (186145830703597, .ofNat 2), (313717412519201, .negSucc 1), (329714888734277, .negSucc 1), (345865358672021, .ofNat 2), (345944933654231, .ofNat 2), (367761267049567, .negSucc 1), (411852890797067, .negSucc 1), (413157557337671, .negSucc 1), (440141165923093, .negSucc 1)] 1)) .nil)) (.node (.node (.leaf (.adef 2017 [(87809, .negSucc 0), (22328417, .negSucc 0)] 0)) (.leaf (.trans [] 0))) (.node (.leaf (.adef 41269 [(26490901, .ofNat 1), (27685771, .ofNat 1), (27735439, .ofNat 1), (31301161, .ofNat 1), (31342691, .ofNat 1), (34425211, .ofNat 1), (37395091, .ofNat 1), (798987251, .ofNat 1), (993307411, .ofNat 1), (1263440753, .negSucc 0), (2662613981, .negSucc 0), (2903863913, .ofNat 1), (38590470731, .negSucc 0), (39351860167, .negSucc 0), (47801304367, .ofNat 1), (48744423419, .ofNat 1), (121972689029, .ofNat 1), (149148659447, .ofNat 1), (158057581657, .ofNat 1), (166748736881, .ofNat 1), (193273400851, .ofNat 1), (379339389119, .ofNat 1), (42217576333613, .negSucc 0)] 0)) .nil))) (.node (.node (.node (.leaf (.atom 9631)) (.leaf (.adef 46301 [(47198441, .negSucc 0), (49837729, .negSucc 0), (50337659, .ofNat 1), (64908653, .ofNat 1), (65979083, .negSucc 0)] 0))) (.node (.leaf (.adef 39341 [(1050860947, .ofNat 4), (1075105037, .negSucc 3), (1236937129, .negSucc 3), (1262473759, .ofNat 4), (2349946817, .ofNat 4), (2401273961, .negSucc 3), (88499281447, .negSucc 3), (90677686399, .ofNat 4), (112824857339, .ofNat 1), (115120534369, .ofNat 4), (117539861233, .ofNat 4), (143595795271, .negSucc 3), (146715227861, .negSucc 3), (152240413807, .negSucc 3), (156433253671, .ofNat 4), (199307967899, .negSucc 3), (202917078827, .negSucc 3), (255897661067, .negSucc 3), (262196567939, .ofNat 4), (298121663561, .negSucc 3), (304846318879, .negSucc 3), (337923661709, .negSucc 3), (344800785583, .ofNat 4), (456913453393, .negSucc 3), (468465232091, .negSucc 3), (10261864956379, .negSucc 3), (10306550309173, .negSucc 3), (10343677768169, .ofNat 4), (10588802010443, .negSucc 3), (10673221330873, .ofNat 4), (10719720048407, .negSucc 3), (11297666031389, .ofNat 2), (13657745838283, .ofNat 4), (13672690257301, .ofNat 2), (14143640678983, .negSucc 3), (14339491297631, .ofNat 4), (19105632727889, .negSucc 1), (31106649254273, .ofNat 4), (31218705258469, .negSucc 3), (31219194379727, .ofNat 1), (32213315065973, .negSucc 3), (41376420229987, .negSucc 3), (42125673217651, .negSucc 3), (43532632896737, .negSucc 3), (44320931040401, .negSucc 3), (56267969196431, .negSucc 3), (57817640393543, .ofNat 4), (3966337607282857, .negSucc 1), (3980456613832043, .ofNat 2), (5053418438585333, .ofNat 2)] 1)) .nil)) (.node (.node (.leaf (.adef 36131 [(31761377, .ofNat 1), (53317307, .ofNat 1), (56070673, .negSucc 0)] 0)) .nil) (.node (.leaf (.adef 9239 [(3369427, .ofNat 1), (468679571, .negSucc 0), (692887999, .negSucc 0), (771285149, .negSucc 0), (1144481551, .negSucc 0), (1908710737, .negSucc 0), (2054588477, .negSucc 0), (2403440327, .negSucc 0), (2885459987, .negSucc 0), (3094517737, .negSucc 0), (3136479139, .negSucc 0), (3925717529, .negSucc 0)] 0)) .nil)))

def jac57 : JTree := .node (.node (.node (.node (.node (.leaf (.atom 1637)) (.leaf (.adef 27241 [(14723, .ofNat 1), (11746297, .ofNat 1), (675599371, .ofNat 1), (968170741, .ofNat 1), (1803914341, .ofNat 1), (3561316259, .ofNat 1), (30390652591427, .negSucc 0), (33409035070627, .ofNat 1)] 0))) (.node (.leaf (.adef 18397 [(930353, .ofNat 1), (1726271, .ofNat 1), (2238497, .ofNat 1), (2257681, .ofNat 1), (2996999, .ofNat 1), (675405727, .ofNat 1)] 0)) .nil)) (.node (.node (.leaf (.adef 8291 [(4048409, .negSucc 0), (4179011, .ofNat 1)] 0)) (.leaf (.trans [] 0))) (.node (.leaf (.adef 40801 [(37652099, .ofNat 4), (233645786261, .negSucc 3), (602009591977, .ofNat 2), (124924433441893, .ofNat 2), (182118172782757, .ofNat 2)] 1)) .nil))) (.node (.node (.node (.leaf (.atom 4457)) (.leaf (.adef 28409 [(8022253, .negSucc 0), (9605759, .ofNat 1)] 0))) (.node (.leaf (.adef 7789 [(3488549, .ofNat 1), (4316413, .ofNat 1)] 0)) .nil)) (.node (.node (.leaf (.adef 23609 [(6823435471, .ofNat 2), (7132357979, .ofNat 2), (12049171919, .negSucc 1), (12493790809, .negSucc 1), (13687476403, .ofNat 2), (14192549333, .ofNat 2), (17295674821, .negSucc 1), (18108937879, .ofNat 2), (18777164369, .ofNat 2), (18782804311, .negSucc 1), (19475896721, .negSucc 1), (19647336977, .ofNat 2), (22349459701, .ofNat 2), (23174163011, .ofNat 2), (25994010461, .ofNat 2), (26961294749, .negSucc 1), (32080958759, .ofNat 2), (28797719078243, .ofNat 2), (35541204366617, .ofNat 2), (37462946592299, .ofNat 2), (51408979569263, .negSucc 1)] 0)) .nil) (.node (.leaf (.adef 26501 [(3067306751, .ofNat 1), (11040830981, .ofNat 1), (110115888731, .negSucc 0), (120093095663, .ofNat 1), (192494089009, .negSucc 0), (32991038502083, .ofNat 1), (45875739579083, .negSucc 0)] 0)) .nil)))) (.node (.node (.node (.node (.leaf (.atom 7151)) (.leaf (.adef 27793 [(315024947, .negSucc 0), (343568231, .ofNat 1)] 0))) (.node (.leaf (.adef 30971 [(1315021, .negSucc 0), (2511317, .ofNat 1), (3162013, .ofNat 1), (3772277, .negSucc 0), (222295999, .negSucc 1), (322873693, .ofNat 1), (398480167, .ofNat 1), (25917597611, .negSucc 0), (27237106619, .negSucc 0)] 0)) .nil)) (.node (.node (.leaf (.adef 17569 [(38632289, .negSucc 0), (44537749, .negSucc 0), (58572109, .ofNat 1), (62640079, .ofNat 1)] 0)) .nil) (.node (.leaf (.adef 14143 [(41513, .ofNat 1), (12776909, .negSucc 0), (2704598723, .ofNat 1), (2828747633, .negSucc 0), (4084778591, .ofNat 1), (4505954611, .negSucc 0), (8046759907, .ofNat 1), (8410022963, .ofNat 1), (8650615187, .negSucc 0), (8729669093, .negSucc 0), (10899855313, .negSucc 0), (12496910549, .negSucc 0), (13247672657, .ofNat 1), (14500332941, .negSucc 0)] 0)) .nil))) (.node (.node (.node (.leaf (.atom 6151)) (.leaf (.adef 47407 [(765792157, .ofNat 1), (767145067, .ofNat 1)] 0))) (.node (.leaf (.adef 39989 [(12422297, .negSucc 0), (12614699, .ofNat 1), (13260761, .ofNat 1), (13483517, .negSucc 0)] 0)) .nil)) (.node (.node (.leaf (.adef 24029 [(12587657, .ofNat 1), (17117609, .negSucc 0), (17463773, .negSucc 0), (17916167, .ofNat 1), (19153129, .ofNat 1), (26014321, .ofNat 1), (68069671, .ofNat 1)] 0)) .nil) (.node (.leaf (.adef 43261 [(3514171, .negSucc 0), (4193117, .ofNat 1)] 0)) .nil))))

def jac58 : JTree := .node (.node (.node (.node (.node (.leaf (.trans [(216143, .negSucc 0), (231073, .ofNat 1)] 0)) (.leaf (.adef 43997 [(827382869, .ofNat 1), (282342772823, .negSucc 0)] 0))) (.node (.leaf (.adef 30467 [(19454291, .ofNat 1), (21026461, .negSucc 0), (21714677, .negSucc 0), (21803539, .ofNat 1)] 0)) .nil)) (.node (.node (.leaf (.adef 14939 [(332737129, .negSucc 3), (384075431, .ofNat 4), (462688129, .ofNat 4), (214030341191, .ofNat 2), (48949015206589, .ofNat 2), (71359180612861, .ofNat 2)] 1)) (.leaf (.trans [] 0))) (.node (.leaf (.adef 25759 [(40471, .ofNat 1), (8447297, .negSucc 0), (37133330011, .negSucc 0)] 0)) .nil))) (.node (.node (.node (.leaf (.atom 48491)) (.leaf (.adef 5179 [(28099, .ofNat 1), (196200163, .negSucc 0), (206020967, .ofNat 1), (312548393, .negSucc 0), (1143184517, .ofNat 1), (1277457613, .negSucc 0), (1634877661, .negSucc 0), (4539938771, .negSucc 0), (37321818841, .ofNat 1), (38078452567, .ofNat 1), (318251601383, .ofNat 1), (6209814884093, .negSucc 0), (6335707874291, .negSucc 0), (6826570196893, .ofNat 1), (6964966807891, .ofNat 1), (52952497829059, .negSucc 0), (58211710055459, .ofNat 1)] 0))) (.node (.leaf (.adef 19073 [(12468713, .negSucc 0), (388734859, .negSucc 0), (463873351, .ofNat 1), (540555859, .ofNat 1), (673615247, .negSucc 0), (693487649, .negSucc 0), (1010984801, .negSucc 0), (36410592371, .ofNat 1), (42285731801, .ofNat 1), (62568515563, .ofNat 1), (247433989433, .negSucc 0)] 0)) .nil)) (.node (.node (.leaf (.adef 35759 [(10595419, .ofNat 1), (37136299, .ofNat 1)] 0)) .nil) (.node (.leaf (.adef 42239 [(83753027, .ofNat 1), (60937455193, .ofNat 1)] 0)) .nil)))) (.node (.node (.node (.node (.leaf (.atom 9547)) (.leaf (.adef 34253 [(15459, .negSucc 3), (34035201, .ofNat 2), (151371351, .ofNat 2), (166670739, .ofNat 1), (279012382353, .negSucc 1)] 0))) (.node (.leaf (.adef 37957 [(10836041, .negSucc 0), (10838159, .ofNat 1), (27334399, .ofNat 1), (27512263, .negSucc 0), (29377277, .ofNat 1), (29385073, .ofNat 1), (33307523, .negSucc 0), (33312289, .ofNat 1), (33322987, .ofNat 1), (33329993, .ofNat 1), (37047547, .negSucc 0), (861041749, .negSucc 0), (861312113, .negSucc 0), (878887829, .negSucc 0), (879440893, .negSucc 0), (1192663397, .negSucc 0), (1193037889, .negSucc 0), (1222138829, .ofNat 1), (1222907893, .ofNat 1), (1593483289, .negSucc 0), (1594051553, .ofNat 1), (1629398879, .ofNat 1), (1629926983, .ofNat 1), (1665761249, .ofNat 1), (1666166363, .ofNat 1), (2366137063, .negSucc 0), (2366903951, .negSucc 0), (2428391201, .ofNat 1), (2428981787, .ofNat 1)] 0)) .nil)) (.node (.node (.leaf (.adef 29297 [(6711, .negSucc 1), (52805619, .ofNat 2), (62546571, .ofNat 1), (2179815273, .ofNat 1), (3165426081, .negSucc 0), (90475525719, .negSucc 1)] 0)) .nil) (.node (.leaf (.adef 20117 [(1794743, .ofNat 1), (2547343, .negSucc 0), (9541507, .ofNat 1), (12619771, .negSucc 0), (28291339, .ofNat 1), (390394051, .negSucc 0), (464929559, .ofNat 1), (542863051, .ofNat 1), (675149023, .negSucc 0), (695648257, .negSucc 0), (1014134593, .negSucc 0)] 0)) .nil))) (.node (.node (.node (.leaf (.atom 10723)) (.leaf (.adef 46757 [(48041551, .negSucc 0), (50119483, .negSucc 0), (50230949, .ofNat 1), (66298157, .ofNat 1), (66970663, .negSucc 0)] 0))) (.node (.leaf (.adef 39679 [(2982241, .ofNat 1), (3238657, .negSucc 0), (3784453, .negSucc 0), (5201789, .ofNat 1), (7318783, .ofNat 1), (100604519, .ofNat 1), (325683581, .ofNat 1), (401948039, .ofNat 1), (516070883, .ofNat 2)] 0)) .nil)) (.node (.node (.leaf (.adef 23957 [(5718961, .ofNat 1), (1334412967, .ofNat 1)] 0)) .nil) (.node (.leaf (.adef 33403 [(52562871, .ofNat 1), (137029407, .ofNat 2), (146294271, .ofNat 2), (162580779, .ofNat 1), (274331773701, .negSucc 1)] 0)) .nil))))

end BP.EL
