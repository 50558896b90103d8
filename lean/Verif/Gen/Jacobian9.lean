import Verif.Lemmas.JTree
import Verif.Gen.Jacobian8

/-!
# Generated by tools/gen_jacobian.py
-/

namespace BP.EL

def jac232 : JTree := .node (.node (.node (.node (.node (.leaf (.atom 509)) (.leaf (.adef 16487 [(6222728927, .ofNat 1), (6246010909, .ofNat 1), (6528910277, .ofNat 1), (6963654431, .ofNat 1), (1439134387987, .ofNat 1), (1669411341461, .negSucc 0), (1746357326803, .ofNat 1)] 0))) (.node (.leaf (.adef 10211 [(40159591, .ofNat 1), (12146571967, .negSucc 0), (21536892101, .negSucc 0)] 0)) .nil)) (.node (.node (.leaf (.adef 28817 [(21119929, .negSucc 0), (3870291991, .ofNat 1), (108430705043, .negSucc 0)] 0)) .nil) (.node (.leaf (.adef 40153 [(17043079, .ofNat 1), (26507521, .ofNat 1), (32792941, .ofNat 1)] 0)) .nil))) (.node (.node (.node (.leaf (.atom 2833)) (.leaf (.adef 5659 [(67519, .negSucc 0), (4290101, .negSucc 0)] 0))) (.node (.leaf (.adef 18911 [(143543435411, .negSucc 0), (143831570563, .ofNat 1), (159354079343, .negSucc 0), (162498133051, .negSucc 0), (175373051401, .negSucc 0), (175725078233, .ofNat 1)] 0)) .nil)) (.node (.node (.leaf (.adef 3079 [(293352283, .negSucc 0), (353462081, .negSucc 0), (59061673643, .negSucc 0), (68912928889, .negSucc 0), (70680695071, .negSucc 0), (109147219657, .negSucc 0), (544864240081, .ofNat 1), (94700431586243, .ofNat 1), (114256304412509, .ofNat 1)] 0)) .nil) (.node (.leaf (.adef 41897 [(11519449, .negSucc 0), (28345027, .ofNat 1), (30039937, .ofNat 1), (36926303, .ofNat 1), (37686547, .negSucc 0), (332332849, .negSucc 0), (848026931, .negSucc 0), (1732907263, .ofNat 1), (1772306231, .ofNat 1), (2516447111, .negSucc 0), (2583715319, .ofNat 1), (53404689167, .negSucc 0), (73285227779, .ofNat 1), (136274866573, .negSucc 0), (187004826601, .ofNat 1), (4269456837383, .ofNat 1), (5269224190277, .ofNat 1)] 0)) .nil)))) (.node (.node (.node (.node (.leaf (.atom 4337)) (.leaf (.adef 33937 [(1581971, .ofNat 1), (37588909, .ofNat 1), (37672277, .negSucc 0), (49572143, .ofNat 1)] 0))) (.node (.leaf (.adef 37573 [(37571, .negSucc 0), (11000497187, .ofNat 1)] 0)) .nil)) (.node (.node (.leaf (.adef 15259 [(782693389, .negSucc 3), (818444833, .negSucc 3), (914216533, .ofNat 4), (990345049, .negSucc 3), (228143081129, .ofNat 2), (290435366447, .negSucc 1), (37210309690219, .ofNat 2), (40614851800891, .negSucc 1), (41818675354837, .ofNat 2), (45644858002693, .negSucc 1)] 1)) .nil) (.node (.leaf (.adef 19979 [(18250853, .negSucc 0), (69219277, .negSucc 0), (493096002137, .negSucc 0)] 0)) .nil))) (.node (.node (.node (.leaf (.atom 5717)) (.leaf (.adef 46219 [(45666553, .negSucc 0), (49689737, .negSucc 0), (50239807, .ofNat 1), (63611447, .ofNat 1), (64632193, .negSucc 0)] 0))) (.node (.leaf (.adef 31517 [(94533, .negSucc 3), (137620827, .ofNat 4), (153436797, .ofNat 2), (248492817, .ofNat 2), (256299489, .ofNat 2), (300293757, .ofNat 2), (415794843, .ofNat 2), (422336727, .ofNat 2), (270151250301, .negSucc 3), (317374952571, .negSucc 3), (358519521573, .negSucc 3), (371255762637, .negSucc 1), (432560903427, .negSucc 1), (824411970279, .negSucc 2), (535638977451153, .ofNat 8)] 0)) .nil)) (.node (.node (.leaf (.adef 29873 [(5312389, .ofNat 1), (12524777, .ofNat 1)] 0)) .nil) (.node (.leaf (.adef 14327 [(26701, .ofNat 1), (14410783, .ofNat 1), (963631709, .negSucc 0), (964856483, .negSucc 0), (1583489359, .negSucc 0), (2709276181, .negSucc 0), (2942538791, .negSucc 0), (3032211289, .negSucc 0), (3268730161, .negSucc 0), (3727379269, .negSucc 0), (4664327963, .negSucc 0), (8485545287, .negSucc 0)] 0)) .nil))))

def jac233 : JTree := .node (.node (.node (.node (.node (.leaf (.atom 491)) (.leaf (.adef 16573 [(1554677, .negSucc 0), (3484463, .ofNat 1), (3488581, .ofNat 1), (4747733, .negSucc 0)] 0))) (.node (.leaf (.adef 18367 [(44778319, .ofNat 1), (59849501, .negSucc 0), (81896453, .ofNat 1), (342928499, .ofNat 1), (589293547, .ofNat 1), (1110932777, .negSucc 0), (1137083393, .negSucc 0), (1575019729, .negSucc 0), (1613244769, .ofNat 1), (2015310877, .ofNat 1), (2926540469, .negSucc 0), (21603628603, .negSucc 0), (30819485891, .ofNat 1)] 0)) .nil)) (.node (.node (.leaf (.adef 17291 [(6082543, .negSucc 0), (6085367, .ofNat 1), (330452399, .negSucc 0), (333013661, .negSucc 0), (384927827, .negSucc 0), (457722847, .negSucc 0), (463072661, .ofNat 1), (995013949, .ofNat 1), (995278001, .ofNat 1), (1016363507, .ofNat 1), (1016903659, .ofNat 1), (1444912853, .negSucc 0), (1445296297, .negSucc 0), (1481681843, .ofNat 1), (1482469291, .ofNat 1)] 0)) (.leaf (.trans [(409, .ofNat 1)] 0))) (.node (.leaf (.adef 32309 [(122079, .ofNat 2), (685610271, .negSucc 0)] 0)) .nil))) (.node (.node (.node (.leaf (.atom 16937)) (.leaf (.adef 34589 [(7497851, .ofNat 4), (2503317347, .ofNat 2)] 1))) (.node (.leaf (.adef 13799 [(11937949, .ofNat 1), (13477133, .ofNat 1), (13558999, .ofNat 1), (3820665209, .ofNat 1), (4087672007, .ofNat 1)] 0)) .nil)) (.node (.node (.leaf (.adef 23603 [(23679847, .ofNat 1), (37371791, .negSucc 0), (37725187, .ofNat 1), (269165137, .ofNat 1), (269431753, .negSucc 0)] 0)) .nil) (.node (.leaf (.adef 9137 [(8902171, .ofNat 1), (11846689, .negSucc 0), (18520661, .ofNat 1), (26814881, .negSucc 0)] 0)) .nil)))) (.node (.node (.node (.node (.leaf (.atom 5209)) (.leaf (.adef 14563 [(2846935831, .ofNat 1), (3060571853, .negSucc 0), (1197634529417, .negSucc 0), (1284582893681, .ofNat 1)] 0))) (.node (.leaf (.adef 18701 [(38197, .ofNat 1), (73960049, .negSucc 0), (74486617, .negSucc 0), (74740013, .ofNat 1), (79423753, .ofNat 1), (79480771, .negSucc 0), (81155083, .ofNat 1), (99169243, .negSucc 0), (101095297, .ofNat 1), (107721233, .ofNat 1), (108392689, .ofNat 1)] 0)) .nil)) (.node (.node (.leaf (.adef 35533 [(785535929, .negSucc 3), (821417213, .negSucc 3), (918405703, .ofNat 4), (994883059, .negSucc 3), (228860888411, .ofNat 2), (291199334969, .negSucc 1), (37327384602721, .ofNat 2), (40742638434769, .negSucc 1), (41928676254499, .ofNat 2), (45764923389811, .negSucc 1)] 1)) .nil) (.node (.leaf (.adef 11897 [(3399815831, .ofNat 1), (8741604889, .ofNat 1)] 0)) .nil))) (.node (.node (.node (.leaf (.atom 3461)) (.leaf (.adef 47339 [(895567829, .ofNat 1), (956086937, .ofNat 1), (1004853317, .negSucc 0), (1347297419, .negSucc 0)] 0))) (.node (.leaf (.adef 13879 [(39887, .ofNat 1), (8514017, .ofNat 1), (10618717, .ofNat 1), (12013439, .negSucc 0), (14503331, .negSucc 0), (17427523, .negSucc 0), (19593923, .ofNat 1), (21762617, .negSucc 0), (23781689, .ofNat 1), (28160159, .ofNat 1), (43434277, .negSucc 0)] 0)) .nil)) (.node (.node (.leaf (.adef 30181 [(56136337, .negSucc 1), (4335935477, .negSucc 0), (416729055371, .negSucc 1), (652815798301, .negSucc 0), (907774017301, .ofNat 1)] 1)) .nil) (.node (.leaf (.adef 20921 [(42719, .ofNat 1), (81696869, .negSucc 0), (81978931, .negSucc 0), (82127887, .ofNat 1), (91004659, .ofNat 1), (91182337, .negSucc 0), (92451721, .ofNat 1), (105620969, .negSucc 0), (113569993, .ofNat 1), (120102779, .ofNat 1), (124000381, .ofNat 1)] 0)) .nil))))

def jac234 : JTree := .node (.node (.node (.leaf (.atom 2887)) (.leaf (.adef 45161 [(14097617, .negSucc 0), (14104147, .negSucc 0), (14105453, .ofNat 1), (14872393, .ofNat 1), (14876539, .negSucc 0), (14895887, .ofNat 1), (16025767, .negSucc 0), (16031711, .negSucc 0), (16039141, .ofNat 1), (21593963, .negSucc 0), (21596929, .negSucc 0), (24291049, .ofNat 1), (24295303, .negSucc 0), (24306647, .ofNat 1), (25846721, .negSucc 0), (29420737, .ofNat 1), (33307333, .ofNat 1), (37254487, .negSucc 0), (37257929, .negSucc 0), (37278581, .ofNat 1), (41142869, .negSucc 0), (41151767, .ofNat 1), (68432113, .ofNat 1), (70632307, .negSucc 0), (70664897, .ofNat 1), (795813451, .ofNat 1), (825179261, .ofNat 1), (1745691757, .negSucc 0), (1810108427, .negSucc 0), (2359566919, .ofNat 1), (2441400217, .ofNat 1), (2611132967, .ofNat 1), (2716701367, .negSucc 0), (2855489873, .negSucc 0), (2904356537, .ofNat 1), (2925120923, .negSucc 0), (3058169927, .ofNat 1), (3153994747, .negSucc 0), (3270947623, .negSucc 0), (4840723799, .negSucc 0), (4843033121, .negSucc 0), (4845342443, .ofNat 1), (5159100983, .negSucc 0), (5285825527, .negSucc 0), (7137115807, .negSucc 0), (7688433293, .ofNat 1), (7692101147, .ofNat 1), (7695769001, .negSucc 0), (7995711341, .ofNat 1), (8997346837, .ofNat 1), (9001639123, .ofNat 1), (9005931409, .negSucc 0), (10421293303, .ofNat 1), (11068542917, .ofNat 1), (11840688143, .ofNat 1), (12677991283, .ofNat 1), (12757217267, .negSucc 0), (13076539219, .ofNat 1), (33682427413, .ofNat 1), (50567685281, .ofNat 1), (339921257393, .ofNat 1), (357077658727, .ofNat 1), (363741114043, .ofNat 1), (368903896093, .ofNat 1), (376292289343, .ofNat 1), (377733530921, .ofNat 1), (398032852339, .ofNat 1), (413525919713, .negSucc 0), (427221695867, .negSucc 0), (440621732189, .ofNat 1), (442350475909, .ofNat 1), (458770579153, .ofNat 1), (1169407767049, .negSucc 0), (1250184188039, .ofNat 1), (4192375416833, .negSucc 0), (4720630256261, .negSucc 0), (5273350177889, .negSucc 0), (5907734575507, .ofNat 1), (30582770294101, .ofNat 1)] 0))) (.node (.leaf (.adef 38569 [(30475673, .ofNat 1), (30629611, .ofNat 1), (34054453, .ofNat 1), (37169257, .ofNat 1), (933991453, .ofNat 1), (1266145333, .ofNat 1), (1270945859, .ofNat 1), (1293487607, .ofNat 1), (1750868051, .ofNat 1), (2031295037, .ofNat 1), (3663812837, .ofNat 1), (3689565587, .ofNat 1), (3983077949, .ofNat 1), (144507191789, .ofNat 1), (195183747601, .ofNat 1), (505536230159, .negSucc 0), (551341060307, .ofNat 1), (707891131643, .ofNat 2), (712770944629, .ofNat 2), (1027966487971, .negSucc 1), (1035052724813, .negSucc 1), (29774156489659, .negSucc 1), (29979403185077, .negSucc 1), (41241376115627, .negSucc 1), (41525671530181, .negSucc 1), (43236641498723, .ofNat 2), (43534691177869, .ofNat 2), (50522879765879, .ofNat 1), (51519695461603, .ofNat 1), (59888803051219, .ofNat 2), (60301643593757, .ofNat 2)] 0)) .nil)) (.node (.node (.leaf (.adef 4957 [(291057809, .negSucc 0), (349077449, .negSucc 0), (91121639371, .negSucc 0), (108587933713, .negSucc 0), (109938482773, .negSucc 0), (110518900667, .negSucc 0), (171361938559, .negSucc 0), (542127815089, .ofNat 1), (8867910650543, .negSucc 0), (34343105469071, .negSucc 0), (148827828928849, .ofNat 1), (179561142883087, .ofNat 1)] 0)) .nil) (.node (.leaf (.adef 26267 [(7521011, .ofNat 1), (7694207, .ofNat 1), (8798183, .negSucc 0), (60654389, .negSucc 0), (75131473, .ofNat 1), (1107891893, .negSucc 0), (40850688293, .ofNat 1)] 0)) .nil))

def jac235 : JTree := .node (.node (.node (.node (.node (.node (.leaf (.atom 647)) (.leaf (.trans [(3335921, .ofNat 1)] 0))) (.node (.leaf (.adef 24137 [(9183271, .ofNat 2), (28346909, .ofNat 2), (716943119, .ofNat 1), (984523217, .ofNat 1), (1205461057, .negSucc 0), (1252835981, .negSucc 0), (1371340469, .ofNat 1), (3017771921, .ofNat 1), (3328306559, .ofNat 1), (8298096757, .ofNat 1), (9852645661, .ofNat 1), (10869963343, .ofNat 1), (109447904201, .ofNat 1), (141827413933, .ofNat 1), (142330712257, .negSucc 0), (142970017747, .negSucc 0), (147829681309, .ofNat 1), (148946711443, .ofNat 1), (149540203453, .ofNat 1), (157194240779, .negSucc 0), (160295680903, .negSucc 0), (179798312297, .ofNat 1), (183345730429, .ofNat 1), (191564210897, .ofNat 1), (217138490707, .ofNat 1), (218003699197, .ofNat 1)] 0)) .nil)) (.node (.node (.leaf (.adef 28927 [(1186433, .ofNat 2), (36018293, .negSucc 1), (38428853, .ofNat 2), (50085293, .ofNat 2), (211807103, .ofNat 2), (308778047, .ofNat 2)] 0)) .nil) (.node (.leaf (.adef 25733 [(8634631, .negSucc 0), (22353388073, .negSucc 0)] 0)) .nil))) (.node (.node (.node (.leaf (.atom 48479)) (.leaf (.adef 45389 [(23718311, .negSucc 0), (26393513, .negSucc 0)] 0))) (.node (.leaf (.adef 5639 [(26568323, .negSucc 0), (33730013, .negSucc 0), (76822903, .negSucc 0)] 0)) .nil)) (.node (.node (.leaf (.adef 35617 [(67555937, .ofNat 1), (75776551, .ofNat 1), (99083773, .negSucc 0), (101868071, .negSucc 0)] 0)) .nil) (.node (.leaf (.adef 32983 [(1460513, .ofNat 1), (1596241, .negSucc 0), (2150957, .negSucc 0), (2891347, .negSucc 0)] 0)) .nil)))) (.node (.node (.node (.node (.leaf (.atom 1511)) (.leaf (.adef 34159 [(1600931, .ofNat 1), (7661666819, .negSucc 0), (11125915243, .ofNat 1)] 0))) (.node (.leaf (.adef 30841 [(38564677, .ofNat 4), (56491069, .ofNat 4), (4489676069, .ofNat 1), (15361707281, .negSucc 1), (19555151699, .negSucc 1), (357937191839, .negSucc 1), (521810390111, .negSucc 1), (651779074693, .ofNat 2), (667313679731, .negSucc 1), (927934068731, .ofNat 2)] 1)) .nil)) (.node (.node (.leaf (.adef 35527 [(10478219, .ofNat 4), (3466399567, .ofNat 2), (497104224017, .negSucc 1), (691249047017, .ofNat 2)] 1)) .nil) (.node (.leaf (.adef 5651 [(25424999, .negSucc 0), (35246801, .negSucc 0), (50892379, .negSucc 0)] 0)) .nil))) (.node (.node (.node (.leaf (.atom 5273)) (.leaf (.adef 46679 [(22990397, .negSucc 0), (24506593, .negSucc 0), (24690437, .ofNat 1), (25583407, .ofNat 1), (25984753, .negSucc 0), (31905557, .negSucc 0)] 0))) (.node (.leaf (.adef 15971 [(34879711, .ofNat 1), (34934101, .negSucc 0), (35400227, .negSucc 0), (35437463, .ofNat 1)] 0)) .nil)) (.node (.node (.leaf (.adef 7309 [(3912281, .negSucc 0), (4168687, .ofNat 1), (2890276950863, .negSucc 0), (3023656991447, .negSucc 0), (4197125396311, .ofNat 1), (4407967850903, .negSucc 0)] 0)) .nil) (.node (.leaf (.adef 33359 [(5478281, .negSucc 0), (6888823, .ofNat 2)] 0)) .nil))))) (.node (.node (.node (.node (.node (.leaf (.atom 4621)) (.leaf (.adef 9419 [(35291, .ofNat 1), (4854953, .ofNat 1), (15354403, .ofNat 1), (15445693, .ofNat 1), (1239191053, .ofNat 1), (4655892181, .ofNat 1)] 0))) (.node (.leaf (.adef 7699 [(3473089, .negSucc 0), (4292831, .ofNat 1)] 0)) .nil)) (.node (.node (.leaf (.adef 13229 [(87369, .ofNat 2), (236354787, .negSucc 0)] 0)) (.leaf (.trans [(45317, .ofNat 1)] 0))) (.node (.leaf (.adef 41023 [(2814437, .ofNat 1), (5021539, .ofNat 1), (7025273, .negSucc 0), (334891163, .negSucc 0), (459558431, .ofNat 1)] 0)) .nil))) (.node (.node (.node (.leaf (.atom 28703)) (.leaf (.adef 22067 [(276844967, .negSucc 0), (554252587, .negSucc 0), (681977947, .ofNat 1), (117449662379, .ofNat 1), (140574020419, .negSucc 0)] 0))) (.node (.leaf (.adef 25169 [(8421583, .negSucc 0), (245608073, .negSucc 0), (28606007407, .negSucc 0)] 0)) .nil)) (.node (.node (.leaf (.adef 23669 [(20015363233, .negSucc 0), (22327305659, .ofNat 1)] 0)) .nil) (.node (.leaf (.adef 42569 [(11209073413, .ofNat 1)] 0)) .nil)))) (.node jac234 (.node (.node (.node (.leaf (.atom 4007)) (.leaf (.atom 1373))) (.node (.leaf (.adef 19541 [(22274431, .negSucc 0), (31053551, .negSucc 0), (2948690711, .negSucc 0), (6705225521, .ofNat 1)] 0)) .nil)) (.node (.node (.leaf (.adef 30241 [(1813363, .ofNat 1), (2774029, .negSucc 0), (2779531, .ofNat 1), (103257361, .ofNat 1), (141696157, .negSucc 0), (328252549, .negSucc 0), (450448513, .ofNat 1)] 0)) .nil) (.node (.leaf (.adef 43607 [(2827949, .ofNat 1), (6631687, .ofNat 1), (339017869, .negSucc 0), (465221353, .ofNat 1)] 0)) .nil)))))

def jac236 : JTree := .node (.node (.node (.node (.node (.leaf (.atom 1051)) (.leaf (.adef 43853 [(2977141, .negSucc 0), (926169577, .negSucc 0), (1923733423, .ofNat 1), (21946175153521, .negSucc 0), (24125856895121, .ofNat 1)] 0))) (.node (.leaf (.adef 18149 [(30026047847, .ofNat 1)] 0)) .nil)) (.node (.node (.leaf (.adef 1213 [(1634377, .ofNat 2), (1818301, .ofNat 2)] 0)) .nil) (.node (.leaf (.adef 11329 [(3889979, .negSucc 0), (530632723, .ofNat 1), (533162699, .negSucc 0), (870817397, .ofNat 1), (926071079, .negSucc 0), (1893650687, .ofNat 1), (2038377427, .ofNat 1), (2350754617, .negSucc 0), (2384476777, .ofNat 1), (2390785063, .negSucc 0), (2749025261, .negSucc 0), (3111731789, .ofNat 1)] 0)) .nil))) (.node (.node (.node (.leaf (.atom 10559)) (.leaf (.adef 28057 [(2201569, .negSucc 0), (174563989, .negSucc 0), (9412495733, .ofNat 1), (33889757063, .negSucc 0), (47125454063, .ofNat 1)] 0))) (.node (.leaf (.adef 9787 [(24264923, .negSucc 0), (25237657, .negSucc 0), (73235023, .ofNat 1)] 0)) .nil)) (.node (.node (.leaf (.adef 23327 [(1444595361757, .negSucc 0), (1490643903583, .ofNat 1)] 0)) .nil) (.node (.leaf (.adef 32941 [(2541223, .ofNat 1), (3066977, .negSucc 0), (3820981, .ofNat 1), (328317851, .negSucc 0), (405199169, .negSucc 0)] 0)) .nil)))) (.node (.node (.node (.node (.leaf (.atom 7121)) (.leaf (.adef 27631 [(3812005061, .ofNat 4), (3875945417, .negSucc 3), (4052988749, .negSucc 3), (4129437833, .negSucc 3), (282221441773, .negSucc 3), (295112599681, .negSucc 3), (713690354501, .ofNat 2), (823320505037, .negSucc 1), (44035526878043, .ofNat 4), (47077265061973, .negSucc 3), (47702447341079, .negSucc 3), (50997476737369, .ofNat 4), (120631431614623, .ofNat 2), (122852606998111, .ofNat 2), (128964004374353, .negSucc 1), (131338606648721, .negSucc 1)] 1))) (.node (.leaf (.adef 24697 [(6731147, .negSucc 0), (8064869, .ofNat 1)] 0)) .nil)) (.node (.node (.leaf (.adef 13309 [(163337151539, .negSucc 0), (182203963297, .ofNat 1), (479815296799, .negSucc 0), (535237990277, .ofNat 1), (554784233449, .negSucc 0), (621524815787, .ofNat 1), (1174147399699, .negSucc 0), (1315397414537, .ofNat 1)] 0)) (.leaf (.trans [] 0))) (.node (.leaf (.adef 9007 [(8827067, .negSucc 0), (11619581, .negSucc 0), (11776159, .ofNat 1)] 0)) .nil))) (.node (.node (.node (.leaf (.atom 10069)) (.leaf (.adef 46441 [(23641109, .negSucc 0), (25201081, .negSucc 0), (25553623, .ofNat 1), (27049289, .ofNat 1), (27277693, .negSucc 0), (33733753, .negSucc 0)] 0))) (.node (.leaf (.adef 19373 [(328214333, .ofNat 1), (340325563, .ofNat 1), (711289093, .negSucc 0), (737535923, .negSucc 0), (1163480777, .negSucc 0), (1191852227, .negSucc 0), (1627922599, .ofNat 1), (2206148537, .ofNat 1), (2260717457, .negSucc 0), (5229552857, .ofNat 1), (5241911321, .ofNat 1), (6602695079, .ofNat 1), (6904482623, .ofNat 1), (7008939143, .ofNat 1), (7773240989, .ofNat 1), (9187538999, .ofNat 1), (93031313209, .negSucc 0), (112957049551, .negSucc 0), (117125206361, .negSucc 0), (121194328153, .negSucc 0), (146339933063, .ofNat 1), (160820078233, .negSucc 0), (166146360547, .negSucc 0), (171357629749, .ofNat 1), (180462276389, .negSucc 0), (180482570287, .negSucc 0), (180824518837, .ofNat 1), (180844853471, .ofNat 1), (447622056097, .ofNat 1), (528788609917, .negSucc 0), (1472129444647, .ofNat 1), (1707685961441, .negSucc 0), (14593960046203, .ofNat 1), (15132482557133, .ofNat 1), (15298086166931, .ofNat 1), (15862591191541, .ofNat 1), (18570515917103, .ofNat 1), (19466502016231, .ofNat 1)] 0)) .nil)) (.node (.node (.leaf (.adef 8429 [(3069221, .ofNat 1), (459504767, .negSucc 0), (679324123, .negSucc 0), (815476957, .negSucc 0), (1210056143, .negSucc 0), (1873771421, .negSucc 0), (2016978841, .negSucc 0), (2359444891, .negSucc 0), (2848718491, .negSucc 0), (3055114241, .negSucc 0), (3079065287, .negSucc 0), (3875730097, .negSucc 0)] 0)) .nil) (.node (.leaf (.adef 33317 [(53826917, .negSucc 0), (97046077, .negSucc 0), (141989689, .negSucc 0), (13687319621, .negSucc 0)] 0)) .nil))))

def jac237 : JTree := .node (.leaf (.adef 26203 [(10091689, .ofNat 1), (10147019, .ofNat 1), (15907589, .ofNat 1), (19489663, .negSucc 0), (21116789, .ofNat 1), (21452359, .ofNat 1), (21995651, .ofNat 1), (24099793, .ofNat 1), (28423823, .ofNat 1), (30056449, .ofNat 1), (31282079, .ofNat 1), (38978497, .ofNat 1), (41857939, .ofNat 1), (42809659, .ofNat 1), (52785107, .ofNat 1), (596931971, .ofNat 1), (618958981, .ofNat 1), (855932633, .negSucc 0), (887516863, .negSucc 0), (1770079589, .ofNat 1), (1818559321, .ofNat 1), (1835396179, .ofNat 1), (1856130607, .ofNat 1), (1958354129, .ofNat 1), (2006547143, .negSucc 0), (2066375369, .negSucc 0), (2395002217, .ofNat 1), (2397853693, .ofNat 1), (2402606153, .ofNat 1), (2407833859, .ofNat 1), (2434506163, .ofNat 1), (2887833491, .ofNat 1), (2900087923, .ofNat 1), (2901619727, .ofNat 1), (3146397533, .negSucc 0), (3182671967, .ofNat 1), (3304177559, .ofNat 1), (3330688441, .ofNat 1), (3607849829, .negSucc 0), (3719998549, .negSucc 0), (6052868131, .ofNat 1), (6852868537, .ofNat 1), (7005334591, .ofNat 1), (7309101551, .ofNat 1), (7885182421, .ofNat 1), (8077146241, .ofNat 1), (8259809003, .ofNat 1), (8981807929, .negSucc 0), (9161409409, .ofNat 1), (9645527207, .ofNat 1), (10377755489, .ofNat 1), (10716830981, .ofNat 1), (10778827897, .ofNat 1), (11671988221, .ofNat 1), (12658403551, .ofNat 1), (13053580807, .ofNat 1), (13082915297, .ofNat 1), (14302595117, .ofNat 1), (15998588741, .ofNat 1), (20154276473, .ofNat 1), (21331738409, .ofNat 1), (21488490659, .negSucc 0), (21868624691, .ofNat 1), (24624152447, .ofNat 1), (31607991439, .ofNat 1), (36694817777, .ofNat 1), (38990218637, .ofNat 1), (78687458917, .ofNat 1), (79469608819, .ofNat 1), (80236794643, .negSucc 0), (83959095089, .negSucc 0), (85628376077, .negSucc 0), (86993802953, .negSucc 0), (88723420229, .negSucc 0), (96103407791, .negSucc 0), (98530953041, .ofNat 1), (99082565033, .ofNat 1), (99355164257, .negSucc 0), (99482153777, .negSucc 0), (101966674361, .ofNat 1), (119041518787, .ofNat 1), (123069409549, .ofNat 1), (128395550989, .ofNat 1), (262788575069, .ofNat 1), (273063184517, .ofNat 1), (274979715487, .ofNat 1), (280446882691, .ofNat 1), (283355261353, .ofNat 1), (290782650139, .ofNat 1), (318313993793, .negSucc 0), (321894938471, .ofNat 1), (324642736349, .negSucc 0), (325820261791, .ofNat 1), (334656464713, .ofNat 1), (353847299161, .ofNat 1), (360528912521, .ofNat 1), (367184225549, .ofNat 1), (398725323547, .negSucc 0), (414532790741, .negSucc 0), (427660165903, .negSucc 0), (431788722991, .ofNat 1), (668388506213, .ofNat 1), (669149046899, .ofNat 1), (808792894951, .ofNat 1), (809031090473, .ofNat 1), (53576624701837, .ofNat 1), (67463220624113, .ofNat 1), (68175160042937, .ofNat 1), (68387078887781, .negSucc 0), (89089638684677, .negSucc 0), (106590494410123, .negSucc 0), (135982708512823, .negSucc 0), (177300982603067, .negSucc 0), (8583674822047333, .ofNat 1), (8893932399941341, .ofNat 1), (8900415590388563, .ofNat 1), (9222121787393051, .ofNat 1), (10922550795357233, .ofNat 1), (11317347222813641, .ofNat 1), (14530784268906049, .negSucc 0), (14671061940689953, .ofNat 1)] 0)) .nil

def jac238 : JTree := .node (.node (.node (.node (.node (.leaf (.atom 1279)) (.leaf (.adef 27191 [(2021193329, .ofNat 1), (4226935109, .ofNat 1), (5643753491, .ofNat 1), (5757863039, .ofNat 1), (5993595887, .ofNat 1), (6988868893, .ofNat 1), (7085328281, .ofNat 1), (9094280207, .ofNat 1), (11929562683, .ofNat 1), (12067515287, .ofNat 1), (1279730179073, .ofNat 1), (1421204007101, .negSucc 0), (1567810901179, .ofNat 1), (591772846167571, .ofNat 1)] 0))) (.node (.leaf (.adef 30493 [(7586503, .ofNat 1), (15359863, .ofNat 1)] 0)) .nil)) (.node (.node (.leaf (.adef 4231 [(1475707, .negSucc 0), (1764341, .ofNat 1)] 0)) (.leaf (.trans [(1103, .ofNat 1)] 0))) (.node (.leaf (.adef 25867 [(3574898039, .ofNat 4), (3635182279, .negSucc 3), (3801228163, .negSucc 3), (3872586467, .negSucc 3), (452457467071, .negSucc 3), (473124573787, .negSucc 3), (690694238867, .ofNat 2), (797528330981, .negSucc 1), (71741301705877, .ofNat 4), (77715333718681, .negSucc 3), (78241524525121, .negSucc 3), (84756842217013, .ofNat 4), (118635534116837, .ofNat 2), (120931618820651, .ofNat 2), (129384675653201, .negSucc 1), (131888800381823, .negSucc 1)] 1)) .nil))) (.node (.node (.node (.leaf (.atom 10639)) (.leaf (.adef 28201 [(54267347, .negSucc 0), (60535681, .ofNat 1)] 0))) (.node (.leaf (.adef 19157 [(27530369, .negSucc 0), (30912439, .ofNat 1), (33759097, .negSucc 0), (10507301041, .ofNat 1)] 0)) .nil)) (.node (.node (.leaf (.adef 23549 [(513568687, .ofNat 1), (4111990610461, .negSucc 0), (4235864855851, .ofNat 1), (14271978715219, .ofNat 1), (14705432822513, .negSucc 0)] 0)) .nil) (.node (.leaf (.adef 42359 [(23261527, .negSucc 0), (24984389, .negSucc 0), (25109239, .ofNat 1), (26129903, .ofNat 1), (26178091, .negSucc 0), (32573701, .negSucc 0)] 0)) .nil)))) (.node (.node (.node (.node (.leaf (.atom 7477)) (.leaf (.adef 44917 [(13807627, .ofNat 1), (16006063, .ofNat 1), (28369933, .ofNat 1), (2335111879, .ofNat 1), (2382985937, .ofNat 1), (2685742937, .negSucc 0), (2929088501, .ofNat 1), (4305106297, .ofNat 1), (5251850393, .ofNat 1), (9472674593, .ofNat 1), (9793755703, .ofNat 1), (12226297249, .ofNat 1), (353357778311, .ofNat 1), (360329522227, .ofNat 1), (409439347571, .negSucc 0), (417517580047, .negSucc 0), (1157370602513, .negSucc 0), (1262235814349, .ofNat 1)] 0))) (.node (.leaf (.adef 24763 [(1549, .ofNat 1), (369977, .ofNat 1), (1533647, .negSucc 0), (282377761, .negSucc 0), (310423361, .ofNat 1), (9440411069, .negSucc 0)] 0)) .nil)) (.node (.node (.leaf (.adef 15331 [(148069, .negSucc 0), (155213, .negSucc 0)] 0)) .nil) (.node (.leaf (.adef 20173 [(28709147, .negSucc 0), (31119541, .ofNat 1), (33936181, .negSucc 0), (10562417293, .ofNat 1)] 0)) .nil))) (.node (.node (.node (.leaf (.atom 13099)) (.leaf (.adef 46957 [(43511621, .negSucc 0), (49930019, .ofNat 1), (50524729, .negSucc 0), (99606217, .negSucc 0), (99961643, .ofNat 1), (101348437, .negSucc 0)] 0))) (.node (.leaf (.adef 19421 [(39779, .ofNat 1), (75762163, .negSucc 0), (76230019, .negSucc 0), (76496807, .ofNat 1), (81881101, .ofNat 1), (81967681, .negSucc 0), (83985919, .ofNat 1), (100559483, .negSucc 0), (104990027, .ofNat 1), (111055069, .ofNat 1), (112241161, .ofNat 1)] 0)) .nil)) (.node (.node (.leaf (.adef 17957 [(12434749, .ofNat 1), (308927039, .negSucc 0), (318762203, .negSucc 0), (1015550167, .negSucc 0), (1049378731, .ofNat 1), (1639859227, .negSucc 0), (1754109251, .ofNat 1), (1760873819, .ofNat 1), (12531285703, .ofNat 1), (18838628737, .negSucc 1)] 0)) .nil) (.node (.leaf (.adef 42979 [(56575969, .negSucc 3), (5097046309, .ofNat 2), (424026887399, .negSucc 3), (724612769323, .negSucc 1), (1007611406323, .ofNat 2)] 1)) .nil))))

def jac239 : JTree := .node (.leaf (.adef 30593 [(8940073, .ofNat 1), (8950717, .ofNat 1), (8968457, .ofNat 1), (8987971, .ofNat 1), (10484963, .ofNat 1), (11405711, .ofNat 1), (11460457, .ofNat 1), (11463989, .ofNat 1), (12148519, .ofNat 1), (19079689, .ofNat 2), (19084853, .ofNat 2), (19141657, .ofNat 2), (19146821, .ofNat 2), (19221739, .ofNat 1), (22666447, .ofNat 1), (23598829, .ofNat 1), (23992139, .ofNat 1), (25414231, .ofNat 1), (25646603, .ofNat 1), (25807589, .ofNat 1), (25822921, .ofNat 1), (28174591, .ofNat 1), (28331131, .ofNat 1), (30367607, .ofNat 1), (30496471, .ofNat 1), (30512579, .ofNat 1), (31593841, .ofNat 1), (34111037, .ofNat 1), (34149851, .ofNat 1), (37207889, .ofNat 1), (37218847, .ofNat 1), (42866051, .negSucc 0), (49593959, .ofNat 1), (50720297, .ofNat 1), (51258719, .ofNat 1), (51296503, .ofNat 1), (51798743, .ofNat 1), (599705927, .ofNat 1), (621835297, .ofNat 1), (1335753851, .negSucc 0), (1385043661, .negSucc 0), (1621523503, .ofNat 1), (1782572303, .negSucc 0), (1891374853, .ofNat 1), (1955999681, .ofNat 1), (2014515133, .ofNat 1), (2187784897, .negSucc 0), (2257955549, .negSucc 0), (2316758039, .negSucc 0), (2400859189, .negSucc 0), (2417474753, .ofNat 1), (2490336367, .negSucc 0), (2528728871, .ofNat 1), (3070838531, .ofNat 1), (3125856817, .ofNat 1), (3733252813, .ofNat 1), (3932283983, .negSucc 0), (4059849503, .negSucc 0), (4447682479, .ofNat 1), (4453224187, .ofNat 1), (4520141459, .negSucc 0), (4529446513, .negSucc 0), (4556629279, .ofNat 1), (5306880331, .ofNat 1), (5329675859, .ofNat 1), (5332118237, .ofNat 1), (6592299757, .negSucc 0), (6938200253, .ofNat 1), (7784128111, .ofNat 1), (8212028203, .ofNat 1), (8238958139, .ofNat 1), (8304133543, .ofNat 1), (8499753391, .ofNat 1), (8633120179, .negSucc 0), (9220425481, .ofNat 1), (9767119861, .ofNat 1), (9857314849, .ofNat 1), (10705081003, .ofNat 1), (12272232103, .ofNat 2), (12372038023, .ofNat 1), (13259524753, .ofNat 1), (14007237511, .ofNat 1), (14570535347, .ofNat 1), (16385822807, .ofNat 1), (16406476799, .ofNat 1), (18174597113, .ofNat 1), (31671091693, .negSucc 0), (38263478647, .ofNat 1), (46241311177, .ofNat 1), (140938551847, .ofNat 1), (146139236417, .ofNat 1), (199991019853, .ofNat 1), (251826955697, .ofNat 1), (254484485753, .ofNat 1), (255275537189, .negSucc 0), (265801636537, .ofNat 1), (269566816229, .ofNat 1), (280021940441, .ofNat 1), (293315692559, .ofNat 1), (300990084107, .ofNat 1), (308789739443, .ofNat 1), (309432082709, .ofNat 1), (320258423171, .ofNat 1), (332554127813, .negSucc 0), (339657584131, .ofNat 1), (343631025173, .negSucc 1), (347474468581, .negSucc 0), (356311136803, .negSucc 1), (357220234747, .negSucc 0), (374816727317, .ofNat 1), (418627312553, .ofNat 1), (422668668041, .negSucc 0), (424868259947, .ofNat 1), (428969864459, .negSucc 0), (507596749687, .negSucc 0), (608163106333, .ofNat 1), (661829753723, .negSucc 0), (668565523133, .negSucc 0), (683874346283, .negSucc 1), (708498655649, .negSucc 1), (997548625501, .negSucc 0), (1088818930189, .ofNat 1), (1381242887963, .ofNat 1), (1518427152763, .negSucc 0), (1869798943933, .ofNat 1), (2055506320733, .negSucc 0), (2896594885949, .negSucc 0), (3540281790781, .ofNat 1), (3803408166521, .negSucc 0), (3914752400879, .negSucc 0), (4941033359527, .ofNat 1), (5158293337187, .negSucc 1), (5899013761033, .ofNat 2), (32041172643877, .ofNat 1), (33199303260829, .ofNat 1), (33223503737747, .ofNat 1), (34424369801819, .ofNat 1), (40771737396977, .ofNat 1), (42245434939529, .ofNat 1), (61435003933519, .ofNat 1), (71722611537173, .ofNat 1), (74149418985371, .ofNat 1), (77358423519131, .ofNat 1), (267221183587181, .ofNat 1), (293761440864781, .negSucc 0), (350877934934249, .ofNat 1), (385726933584649, .negSucc 0)] 0)) .nil

def jac240 : JTree := .node (.node jac236 (.node (.node (.node (.node (.node (.leaf (.atom 2731)) (.leaf (.adef 21283 [(16662983, .negSucc 1), (373435541, .ofNat 2), (542285677, .negSucc 1), (17077858009, .negSucc 1)] 0))) (.node (.leaf (.adef 37273 [(1776233, .ofNat 1), (5719141, .negSucc 0)] 0)) .nil)) (.node (.node (.leaf (.adef 9697 [(8359161683, .negSucc 0), (8763579467, .negSucc 0), (9324715009, .ofNat 1), (9775846441, .ofNat 1)] 0)) (.leaf (.trans [(2393, .ofNat 1)] 0))) (.node (.leaf (.adef 40847 [(3807283, .negSucc 0), (5214757, .negSucc 0), (7028789, .negSucc 0), (326561671, .ofNat 1), (403031749, .ofNat 1)] 0)) .nil))) (.node (.node (.node (.leaf (.adef 6653 [(1483, .ofNat 1), (483313, .ofNat 1), (545957, .ofNat 1)] 0)) (.leaf (.adef 16759 [(57205399, .ofNat 2), (5425643099, .negSucc 0), (283427024081, .negSucc 1), (750276183317, .ofNat 1), (1043297706317, .negSucc 0)] 1))) (.node (.leaf (.adef 5107 [(25073, .ofNat 1), (494577917, .negSucc 0), (650417233, .negSucc 0), (711600881, .negSucc 0), (715164977, .ofNat 1), (787866487, .negSucc 0), (990283661, .negSucc 0), (1010359907, .negSucc 0), (1304923913, .negSucc 0), (1670028761, .negSucc 0), (3609083683, .negSucc 0), (4637550871, .negSucc 0), (8444373043, .negSucc 0), (131111946221, .ofNat 2), (184547470577, .negSucc 0)] 0)) .nil)) (.node (.node (.leaf (.adef 17669 [(10431809, .negSucc 0), (14105009, .ofNat 1), (15442967, .ofNat 1), (16762829, .negSucc 0), (17966107, .negSucc 0), (26055571, .ofNat 1), (68480353, .ofNat 1)] 0)) .nil) (.node (.leaf (.adef 5821 [(561851, .ofNat 1), (54313639, .ofNat 1), (59708039, .negSucc 0)] 0)) .nil)))) (.node (.node (.node (.node (.leaf (.atom 9973)) (.leaf (.adef 27823 [(27817, .ofNat 1), (726902633, .negSucc 0), (1020384089, .ofNat 1), (4448048741, .negSucc 0), (203269010537, .ofNat 1), (205242299831, .negSucc 0), (347976892097, .ofNat 1), (546850263451, .ofNat 1), (565510313119, .ofNat 1), (801429375821, .ofNat 1)] 0))) (.node (.leaf (.adef 38333 [(2777809, .negSucc 0), (3046181, .negSucc 0), (5017147, .negSucc 0), (7320289, .negSucc 0), (9887147, .ofNat 1), (11489833, .negSucc 0), (12608741, .negSucc 0)] 0)) .nil)) (.node (.node (.leaf (.adef 5563 [(203083, .negSucc 0), (245933, .negSucc 0)] 0)) .nil) jac237)) (.node (.node (.node (.leaf (.atom 48823)) (.leaf (.atom 49121))) (.node (.leaf (.adef 19483 [(10642783, .negSucc 0), (11008159, .negSucc 0), (13036057, .ofNat 1), (14282143, .ofNat 1), (18112819, .negSucc 0), (26383211, .ofNat 1), (68914283, .ofNat 1)] 0)) .nil)) (.node (.node (.leaf (.adef 36697 [(3105547, .ofNat 1), (4053151, .ofNat 1)] 0)) .nil) (.node (.leaf (.adef 20939 [(43397, .ofNat 1), (83198573, .negSucc 0), (83608897, .negSucc 0), (83674709, .ofNat 1), (89357713, .ofNat 1), (89472041, .negSucc 0), (91338971, .ofNat 1), (107992657, .negSucc 0), (113736977, .ofNat 1), (118284323, .ofNat 1), (121945487, .ofNat 1)] 0)) .nil)))))) (.node jac238 (.node (.node (.node (.node (.node (.leaf (.trans [(151447, .negSucc 0), (151751, .ofNat 1)] 0)) (.leaf (.adef 11467 [(899501, .negSucc 0), (1032277, .ofNat 1), (5575979, .negSucc 0), (298633451, .negSucc 0), (311055551, .negSucc 0), (355584139, .ofNat 1), (369439423, .ofNat 1), (1822969331, .ofNat 1), (1878414673, .negSucc 0), (1903576319, .negSucc 0), (1946708389, .ofNat 1), (2266063027, .ofNat 1), (2357071411, .negSucc 0), (2996031793, .ofNat 1)] 0))) jac239) (.node (.node (.leaf (.adef 1301 [(25074649, .ofNat 1), (27565049, .negSucc 0), (27880327, .ofNat 1), (48194953, .negSucc 0)] 0)) (.leaf (.trans [(47041, .ofNat 1)] 0))) (.node (.leaf (.adef 41183 [(77231279, .ofNat 1), (3183783191, .negSucc 0), (3566792533, .ofNat 1), (603430348757, .negSucc 0), (676023062191, .ofNat 1), (1772622512137, .negSucc 0), (1985869125131, .ofNat 1)] 0)) .nil))) (.node (.node (.node (.leaf (.atom 22651)) (.leaf (.adef 22159 [(121709657, .ofNat 1), (36704383433, .negSucc 0), (46717368833, .ofNat 1)] 0))) (.node (.leaf (.adef 31379 [(6685901, .negSucc 0), (6980539, .negSucc 0)] 0)) .nil)) (.node (.node (.leaf (.adef 23687 [(24577249, .ofNat 1), (28089791, .negSucc 0), (30601099, .ofNat 1), (37345519, .negSucc 0)] 0)) .nil) (.node (.leaf (.adef 42577 [(19647843511, .ofNat 1), (25559875423, .ofNat 1)] 0)) .nil)))) (.node (.node (.node (.node (.leaf (.atom 12041)) (.leaf (.adef 21767 [(45179, .ofNat 1), (85151663, .ofNat 1), (85329173, .ofNat 1), (85483253, .negSucc 0), (109547807, .negSucc 0)] 0))) (.node (.leaf (.adef 7019 [(801544571, .ofNat 1), (1105258409, .ofNat 1)] 0)) .nil)) (.node (.node (.leaf (.adef 23189 [(7113774082603, .ofNat 1), (1861143069899833, .ofNat 1), (2702665169340401, .negSucc 0)] 0)) .nil) (.node (.leaf (.adef 41737 [(117418527, .ofNat 2), (153663219, .ofNat 1), (240317937, .ofNat 1), (243664947, .ofNat 1), (264041655363, .negSucc 1), (305678293533, .negSucc 1), (349026389451, .negSucc 1), (360614761371, .negSucc 0), (417488036247, .negSucc 0), (523739799514233, .ofNat 4)] 0)) .nil))) (.node (.node (.node (.leaf (.atom 7213)) .nil) (.node (.leaf (.adef 12401 [(3137023, .ofNat 1), (4765403, .ofNat 1), (117865439, .negSucc 0), (12514417631, .negSucc 0), (4144969541123, .ofNat 1), (4345503932027, .ofNat 1)] 0)) .nil)) (.node (.node (.leaf (.adef 36997 [(17015689, .negSucc 0), (20368289, .ofNat 1), (22014649, .negSucc 0), (22249919, .negSucc 0), (29829851, .ofNat 1), (68520229, .negSucc 0)] 0)) .nil) (.node (.leaf (.adef 10337 [(613351, .negSucc 0), (132107387, .ofNat 1), (227373863, .negSucc 0)] 0)) .nil))))))

def jac241 : JTree := .node (.node (.node (.node (.leaf (.atom 47911)) (.leaf (.adef 44587 [(1364114533, .negSucc 3), (1839568921, .ofNat 2)] 1))) (.node (.leaf (.adef 24623 [(7189981, .ofNat 4), (650125727, .ofNat 2), (2668565071, .ofNat 1), (8542368143, .ofNat 2)] 1)) .nil)) (.node (.node (.leaf (.adef 17449 [(40008443, .negSucc 0), (44064281, .negSucc 0), (58029527, .ofNat 1), (62378201, .ofNat 1)] 0)) (.leaf (.trans [] 0))) (.node (.leaf (.adef 20023 [(18422857, .ofNat 1), (26758981, .negSucc 0), (69157247, .negSucc 0), (1844958509, .ofNat 1), (537809997293, .negSucc 0)] 0)) .nil))) (.node (.node (.node (.leaf (.atom 10709)) (.leaf (.adef 35027 [(20533103, .ofNat 1), (21701227, .negSucc 0), (23290213, .ofNat 1), (23540551, .negSucc 0)] 0))) (.node (.leaf (.adef 39359 [(3880339, .negSucc 0), (5008403, .negSucc 0), (11055607, .negSucc 0), (37250959, .negSucc 0), (851586481, .negSucc 0), (853295873, .ofNat 1), (1054329091, .negSucc 0), (1170440209, .ofNat 1), (1594420033, .ofNat 1), (1662405379, .ofNat 1), (1699520749, .ofNat 1), (2414067563, .negSucc 0), (2477606701, .ofNat 1), (242718402317, .ofNat 1), (248412221383, .negSucc 0)] 0)) .nil)) (.node (.node (.leaf (.adef 36151 [(13263841, .ofNat 1), (15208411, .negSucc 0), (24003101, .negSucc 0)] 0)) .nil) (.node (.leaf (.adef 26729 [(10343189, .ofNat 1), (10427693, .ofNat 1), (15951007, .ofNat 1), (19874221, .negSucc 0), (21157421, .ofNat 1), (22018933, .ofNat 1), (22604429, .ofNat 1), (24753557, .ofNat 1), (29056603, .ofNat 1), (30805949, .ofNat 1), (32136229, .ofNat 1), (39814939, .ofNat 1), (42950371, .ofNat 1), (43896469, .ofNat 1), (53972929, .ofNat 1), (600099419, .ofNat 1), (622243309, .ofNat 1), (860614429, .negSucc 0), (892371419, .negSucc 0), (1775678449, .ofNat 1), (1821333277, .ofNat 1), (1841201639, .ofNat 1), (1858488197, .ofNat 1), (1992912049, .ofNat 1), (2012893963, .negSucc 0), (2072911429, .negSucc 0), (2474139527, .ofNat 1), (3194429573, .ofNat 1), (3315788479, .ofNat 1), (3334750669, .ofNat 1), (3621178151, .negSucc 0), (3733070669, .negSucc 0), (6158647709, .ofNat 1), (6872682469, .ofNat 1), (7033718753, .ofNat 1), (7321858637, .ofNat 1), (7909103089, .ofNat 1), (8189368589, .ofNat 1), (8363764741, .ofNat 1), (9015041647, .negSucc 0), (9263008429, .ofNat 1), (9814315921, .ofNat 1), (10667754701, .ofNat 1), (10756484483, .ofNat 1), (10797640939, .ofNat 1), (11057112991, .ofNat 1), (11060369393, .ofNat 1), (11889551077, .ofNat 1), (12879621089, .ofNat 1), (13214064313, .ofNat 1), (13243804919, .ofNat 1), (14552878651, .ofNat 1), (16296798317, .ofNat 1), (20178857357, .ofNat 1), (21531530401, .ofNat 1), (21553678631, .negSucc 0), (22261779413, .ofNat 1), (25066846121, .ofNat 1), (32430041737, .ofNat 1), (37231421203, .ofNat 1), (39841055941, .ofNat 1), (193817325061, .negSucc 0), (194037864403, .negSucc 0), (264182987141, .ofNat 1), (273479703929, .ofNat 1), (276438816343, .ofNat 1), (281934993499, .ofNat 1), (283715168963, .ofNat 1), (292373178407, .ofNat 1), (320055113509, .negSucc 0), (326418473137, .negSucc 0), (327549133399, .ofNat 1), (327575228551, .ofNat 1), (340104617477, .ofNat 1), (354387043357, .ofNat 1), (362500940173, .ofNat 1), (367650609679, .ofNat 1), (405761394107, .negSucc 0), (421281317089, .negSucc 0), (33217824331007, .ofNat 1), (33255621969161, .ofNat 1), (46191096964007, .negSucc 0), (46243656528161, .negSucc 0)] 0)) .nil)))

def jac242 : JTree := .node (.node (.node (.node (.node (.node (.leaf (.atom 353)) (.leaf (.adef 33749 [(22093861, .negSucc 0), (22248517, .ofNat 1), (23818687, .ofNat 1), (23828683, .negSucc 0)] 0))) (.node (.leaf (.adef 37117 [(18104843, .negSucc 0), (312140540561, .negSucc 0)] 0)) .nil)) (.node (.node (.leaf (.adef 17167 [(27891307, .negSucc 0), (61956919, .ofNat 1)] 0)) .nil) (.node (.leaf (.adef 40189 [(34082969, .ofNat 1), (57405721, .ofNat 1), (60388697, .negSucc 0)] 0)) .nil))) (.node (.node (.node (.leaf (.atom 1151)) (.leaf (.adef 21881 [(3100943, .ofNat 2), (16711193, .negSucc 1), (373567567, .ofNat 2), (542477399, .negSucc 1)] 0))) (.node (.leaf (.adef 38713 [(38711, .ofNat 1), (10771741, .negSucc 0), (12744031, .ofNat 1), (18883507, .ofNat 1), (21766561, .ofNat 1), (22450577, .negSucc 0), (23627333, .ofNat 1), (26381189, .negSucc 0), (30171191, .negSucc 0)] 0)) .nil)) (.node (.node (.leaf (.adef 3001 [(127594329877, .ofNat 1), (13470541851529, .negSucc 0), (1945014430935079, .negSucc 0), (2824459248388463, .ofNat 1), (318300837730459913, .ofNat 1), (445759270151004649, .ofNat 1), (584666201362473937, .negSucc 0), (55641560647389405437, .negSucc 0), (66945637867801810649, .ofNat 1)] 0)) .nil) (.node (.leaf (.adef 20353 [(292065403, .ofNat 1), (375653831, .ofNat 1), (377021071, .ofNat 1), (505149911, .negSucc 0), (508818247, .ofNat 1), (627017167, .negSucc 0), (109096250711, .negSucc 0), (111634769869, .negSucc 0), (130708843867, .ofNat 1), (177829682597, .ofNat 1), (548320676953, .negSucc 0), (769149721949, .negSucc 0), (997729701703, .ofNat 1), (153769623314111, .ofNat 1), (186004493532263, .negSucc 0)] 0)) .nil)))) jac241) (.node (.node (.node (.node (.node (.leaf (.atom 853)) (.leaf (.adef 10369 [(66013, .negSucc 0), (95861, .ofNat 1), (8006200463, .negSucc 0)] 0))) (.node (.leaf (.adef 18427 [(26917193, .negSucc 0), (30803957, .ofNat 1), (33611527, .negSucc 0), (10461370831, .ofNat 1)] 0)) .nil)) (.node (.node (.leaf (.adef 10909 [(8254777, .negSucc 0), (10573183, .ofNat 1), (6040575287, .ofNat 1)] 0)) (.leaf (.trans [] 0))) (.node (.leaf (.adef 40813 [(77303749, .negSucc 0), (3187093081, .negSucc 0), (3570500603, .ofNat 1), (77374441665581, .negSucc 0), (85059227583181, .ofNat 1), (11334650018990399, .ofNat 1), (12460401067680799, .negSucc 0), (12698209214178637, .negSucc 0), (13959388193273837, .ofNat 1)] 0)) .nil))) (.node (.node (.node (.leaf (.adef 4649 [(1201, .ofNat 1), (440369, .ofNat 1), (664057, .ofNat 1)] 0)) (.leaf (.adef 22031 [(35401, .negSucc 0), (4595429, .negSucc 0), (4775893, .ofNat 1), (12201751, .ofNat 1), (13235653, .negSucc 0), (15708967, .ofNat 1), (73602803, .ofNat 1), (88182977, .negSucc 0), (110588143, .ofNat 1), (127605157, .ofNat 1), (127729907, .ofNat 1), (173412997, .ofNat 1), (317284391, .ofNat 1)] 0))) (.node (.leaf (.adef 38873 [(23256199, .negSucc 0), (26088947, .negSucc 0)] 0)) .nil)) (.node (.node (.leaf (.adef 17581 [(5326549, .negSucc 0), (7968173, .negSucc 0), (10357049, .negSucc 0), (16589407, .negSucc 0), (26654561, .ofNat 1), (30037037, .ofNat 1)] 0)) .nil) (.node (.leaf (.adef 33119 [(37663147, .ofNat 1), (985577987, .negSucc 0), (1075753043, .ofNat 1), (99762979961, .negSucc 0), (108890753129, .ofNat 1), (452058613021, .negSucc 0), (493419531469, .ofNat 1)] 0)) .nil)))) (.node (.node (.node (.node (.leaf (.atom 7187)) (.leaf (.adef 21617 [(129903721, .negSucc 0), (3056516101, .negSucc 0), (150501791819, .ofNat 1), (1282397857291, .ofNat 1)] 0))) (.node (.leaf (.adef 38287 [(2439617, .ofNat 1), (2581519, .negSucc 0), (133141361, .ofNat 1), (169419661, .ofNat 1), (3073626209999, .negSucc 0), (3911126539699, .negSucc 0), (4463376639703, .ofNat 1), (5679555560603, .ofNat 1)] 0)) .nil)) (.node (.node (.leaf (.adef 3761 [(372185401, .ofNat 1), (759284612219, .negSucc 0)] 0)) .nil) (.node (.leaf (.adef 41519 [(15584923, .ofNat 1), (18643057, .negSucc 0)] 0)) .nil))) (.node (.node (.node (.leaf (.atom 8191)) (.leaf (.adef 47431 [(899697383, .negSucc 0), (960446461, .negSucc 0), (1008818707, .ofNat 1)] 0))) (.node (.leaf (.adef 40013 [(12430871, .negSucc 0), (12667517, .ofNat 1), (13221163, .ofNat 1), (13589201, .negSucc 0)] 0)) .nil)) (.node (.node (.leaf (.adef 24043 [(296274167, .ofNat 1), (347847871, .negSucc 0), (355748309, .ofNat 1), (356447357, .ofNat 1), (359910719, .negSucc 0), (362730431, .ofNat 1), (382424161, .ofNat 1), (454150487, .ofNat 1), (510692497, .negSucc 0), (558111841, .negSucc 0), (543003791029, .negSucc 0), (551679227603, .ofNat 1), (558684702821, .negSucc 0), (764823385921, .negSucc 0), (989665962019, .ofNat 1)] 0)) .nil) (.node (.leaf (.adef 43283 [(3490163, .negSucc 0), (4173599, .ofNat 1)] 0)) .nil)))))

def jac243 : JTree := .node (.node (.node (.node (.node (.leaf (.atom 1229)) (.leaf (.adef 21149 [(2610844079, .ofNat 1), (2972839813, .negSucc 0), (49214842513, .ofNat 1), (59408340619, .ofNat 1), (78413589823, .ofNat 1), (192196841191, .ofNat 1), (207981694463, .ofNat 1), (570603541537, .negSucc 0), (3234648762949, .negSucc 0), (5220001512119, .ofNat 1), (16891027095389, .ofNat 1), (94940238048101, .ofNat 1), (104369648957701, .negSucc 0)] 0))) (.node (.leaf (.adef 5077 [(24264923, .negSucc 0), (25237657, .negSucc 0), (53890073, .negSucc 0)] 0)) .nil)) (.node (.node (.leaf (.adef 14947 [(21915161, .ofNat 1), (5796535517, .negSucc 0)] 0)) (.leaf (.trans [(15473, .ofNat 1)] 0))) (.node (.leaf (.adef 25771 [(5894387, .ofNat 1), (1340754911, .ofNat 1)] 0)) .nil))) (.node (.node (.node (.leaf (.atom 22469)) (.leaf (.adef 7963 [(45439, .ofNat 1), (182674627, .ofNat 1), (185121581, .ofNat 1), (229223689, .ofNat 1), (272315063, .ofNat 1), (284018123, .negSucc 0), (477127463, .negSucc 0), (496096141, .ofNat 1), (2514346609, .ofNat 1), (2690618641, .ofNat 1), (3438949399, .ofNat 1), (61493587459, .negSucc 0), (62317303277, .negSucc 0), (65706679861, .ofNat 1), (66586830683, .ofNat 1), (77163354313, .negSucc 0), (82450024927, .ofNat 1)] 0))) (.node (.leaf (.adef 19079 [(2159737, .ofNat 1), (6768031, .ofNat 1), (45034607, .ofNat 1), (62298569, .negSucc 0), (82280981, .ofNat 1), (139852091, .ofNat 1), (530607073, .negSucc 0), (2062048081, .ofNat 1), (2994410057, .negSucc 0), (36490555943, .negSucc 0), (59812200871, .ofNat 1), (321566462033, .negSucc 0), (329135921897, .negSucc 0)] 0)) .nil)) (.node (.node (.leaf (.adef 23473 [(100968599, .ofNat 1), (101548907, .negSucc 0), (125301041, .ofNat 1), (141134933, .ofNat 1), (146406751, .negSucc 0), (146936323, .ofNat 1)] 0)) .nil) (.node (.leaf (.adef 42281 [(5439901, .negSucc 0), (10573999, .ofNat 1), (152245088189, .negSucc 0), (187895915591, .negSucc 0), (198055602677, .negSucc 0), (271784185649, .ofNat 1)] 0)) .nil)))) (.node (.node (.node (.node (.leaf (.atom 47981)) (.leaf (.adef 44819 [(44773, .ofNat 4), (30619751, .ofNat 4), (238686191, .negSucc 3), (241401899, .ofNat 4), (2429467003, .negSucc 3), (2492742667, .negSucc 3), (2552740867, .negSucc 3), (12264493273, .ofNat 4), (29834641363, .ofNat 4), (30203511487, .ofNat 4), (30247769291, .negSucc 3), (100925746357, .negSucc 3), (104618234137, .negSucc 3), (106436968163, .negSucc 3), (108673804691, .negSucc 3), (127068031889, .negSucc 1), (318466284197, .ofNat 4), (325770803989, .negSucc 3), (12097771907201, .ofNat 4), (12528168330101, .negSucc 3), (12701649088957, .ofNat 4), (31499758093949, .negSucc 1)] 1))) (.node (.leaf (.adef 18539 [(8842517, .ofNat 1), (15411997, .ofNat 1), (25416571, .ofNat 1), (61214963, .ofNat 1), (73306553, .ofNat 1), (91969811, .ofNat 1), (106127089, .ofNat 1), (106225291, .ofNat 1), (144160321, .ofNat 1), (160690867, .ofNat 1), (164706083, .ofNat 1), (263832683, .ofNat 1)] 0)) .nil)) (.node (.node (.leaf (.adef 29303 [(1241501, .ofNat 2), (1519757, .ofNat 2), (225986093, .ofNat 2), (329448557, .ofNat 2)] 0)) .nil) (.node (.leaf (.adef 20123 [(2164333, .ofNat 1), (6803039, .ofNat 1), (13648319, .negSucc 0), (37633051, .ofNat 1), (45226823, .ofNat 1), (66508909, .negSucc 0), (82537333, .ofNat 1), (140009927, .negSucc 0), (530008909, .ofNat 1), (2150241449, .ofNat 1), (3122480353, .negSucc 0), (38131481411, .negSucc 0), (62501865667, .ofNat 1)] 0)) .nil))) (.node (.node (.node (.leaf (.atom 10739)) (.leaf (.adef 35227 [(21960137, .negSucc 0), (22228589, .ofNat 1), (23754131, .ofNat 1), (23920727, .negSucc 0)] 0))) (.node (.leaf (.adef 31663 [(1899743, .negSucc 0), (2314661, .ofNat 1), (2519233, .negSucc 0), (2799799, .negSucc 0), (98471561, .negSucc 0), (332738099, .ofNat 1), (456603863, .negSucc 0)] 0)) .nil)) (.node (.node (.leaf (.adef 30011 [(6996767, .ofNat 4), (2458756163, .ofNat 2)] 1)) .nil) (.node (.leaf (.adef 42923 [(4065851, .ofNat 1), (23797440349, .negSucc 0)] 0)) .nil))))

def jac244 : JTree := .node (.leaf (.adef 38971 [(9978379, .ofNat 1), (10012073, .ofNat 1), (12278359, .negSucc 0), (12988727, .negSucc 0), (13031569, .negSucc 0), (13997377, .negSucc 0), (19217071, .ofNat 1), (19282121, .ofNat 1), (22066207, .negSucc 0), (22077551, .negSucc 0), (27244297, .ofNat 1), (27293173, .ofNat 1), (28833967, .ofNat 1), (30743423, .ofNat 1), (30784213, .ofNat 1), (34153199, .ofNat 1), (37205783, .ofNat 1), (51059311, .ofNat 1), (51544729, .ofNat 1), (58709617, .negSucc 0), (58863059, .negSucc 0), (80942833, .negSucc 0), (93314231, .ofNat 1), (277019723, .ofNat 1), (287241853, .ofNat 1), (355301867, .negSucc 0), (368412637, .negSucc 0), (999853919, .ofNat 1), (1016423711, .ofNat 1), (1246038581, .ofNat 1), (1269712777, .ofNat 1), (1512115739, .ofNat 1), (2066822707, .negSucc 0), (2072630419, .ofNat 1), (4459693207, .ofNat 1), (4535912497, .ofNat 1), (4609019951, .negSucc 0), (5324522153, .ofNat 1), (5547870931, .ofNat 1), (5617415593, .ofNat 1), (5733334157, .ofNat 1), (5872221967, .ofNat 1), (6223008637, .ofNat 1), (6947331499, .ofNat 1), (15681807181, .negSucc 0), (63783497389, .ofNat 1), (66137131979, .ofNat 1), (78553823939, .ofNat 1), (87227667823, .ofNat 1), (97395510721, .ofNat 1), (99958135639, .ofNat 1), (102139765229, .ofNat 1), (104332927121, .ofNat 1), (106877082971, .ofNat 1), (107342930953, .ofNat 1), (110995424723, .ofNat 1), (121952955797, .ofNat 1), (126282978377, .negSucc 0), (127610529031, .ofNat 1), (130147691083, .ofNat 1), (139838447401, .ofNat 1), (142175318347, .ofNat 1), (151204229383, .ofNat 1), (151762523281, .negSucc 0), (152619654547, .ofNat 1), (152636817401, .ofNat 1), (153330659903, .negSucc 0), (158988617833, .negSucc 0), (159422234759, .negSucc 0), (164512143209, .negSucc 0), (164702221181, .negSucc 0), (173465328697, .ofNat 1), (173814329861, .ofNat 1), (177707244563, .negSucc 0), (178996865963, .ofNat 1), (184096108253, .ofNat 1), (186489564083, .ofNat 1), (192787134853, .ofNat 1), (195733690069, .ofNat 1), (197771269151, .ofNat 1), (197793509533, .ofNat 1), (202725540761, .ofNat 1), (224999314361, .ofNat 1), (225836975657, .negSucc 0), (228738704189, .ofNat 1), (230193872813, .negSucc 0), (231299288359, .ofNat 1), (235884822689, .ofNat 1), (236763010193, .negSucc 0), (241330694837, .negSucc 0), (242489590591, .ofNat 1), (1113897007403, .negSucc 0), (1276868315087, .ofNat 1), (1323325771237, .ofNat 1), (1418025764819, .negSucc 0), (1651682688269, .negSucc 0), (1885101056849, .ofNat 1), (2664335190931, .negSucc 0), (5192687071589, .negSucc 0), (6399325147759, .ofNat 1), (12911902882661, .ofNat 1), (13388356863571, .ofNat 1), (14777187091421, .ofNat 1), (15322470747931, .ofNat 1), (15993735965377, .negSucc 0), (16430132550961, .ofNat 1), (16549074369661, .ofNat 1), (16583910724247, .negSucc 0), (18186583655651, .negSucc 0), (18788914409009, .negSucc 0), (18803668587721, .ofNat 1), (19378238729303, .ofNat 1), (20351702168477, .negSucc 0), (150150820765969, .negSucc 0), (160522434716159, .ofNat 1), (251831924739119, .negSucc 0), (387878129691263, .ofNat 1), (399980051496533, .ofNat 1), (468074458611997, .ofNat 1), (544892223708409, .ofNat 1), (610442796578267, .negSucc 0), (616059756716741, .negSucc 0), (720940546957069, .negSucc 0)] 0)) .nil

def jac245 : JTree := .node (.node (.node (.node (.node (.leaf (.atom 47623)) (.leaf (.adef 27283 [(1283287, .negSucc 0), (2198459, .negSucc 0), (171970871, .negSucc 0), (33386330557, .negSucc 0), (46425413557, .ofNat 1)] 0))) (.node (.leaf (.adef 13669 [(8765303, .ofNat 1), (12947611, .ofNat 1), (13025029, .ofNat 1), (3927367019, .ofNat 1), (4044259369, .ofNat 1)] 0)) .nil)) (.node (.node (.leaf (.adef 15161 [(221460289493, .ofNat 2), (229079303711, .negSucc 3), (239543063867, .negSucc 3), (252298066117, .negSucc 1), (265165105187, .negSucc 3), (281927902499, .negSucc 1), (283544292091, .negSucc 1), (287245898111, .ofNat 4)] 1)) (.leaf (.trans [] 0))) (.node (.leaf (.adef 16091 [(34794203, .negSucc 0), (35188493, .ofNat 1), (35594371, .ofNat 1), (35711449, .negSucc 0)] 0)) .nil))) (.node (.node (.node (.leaf (.atom 28649)) (.leaf (.adef 45823 [(23853, .ofNat 4), (119662479, .ofNat 2), (162891171, .ofNat 1), (6528209553, .ofNat 2), (9516998097, .ofNat 2), (269450135523, .negSucc 1)] 0))) jac244) (.node (.node (.leaf (.adef 11783 [(10715399083, .ofNat 1), (11233812067, .ofNat 1)] 0)) .nil) (.node (.leaf (.adef 33191 [(6228407, .ofNat 1), (6840599, .negSucc 0)] 0)) .nil)))) (.node (.node (.node (.node (.leaf (.atom 48463)) (.leaf (.adef 6359 [(27817, .ofNat 1), (148677691, .negSucc 0), (907721047, .ofNat 1), (40749684277, .ofNat 1), (41575811899, .ofNat 1), (347481786251, .ofNat 1)] 0))) (.node (.leaf (.adef 18731 [(218759117, .negSucc 0), (5181445459, .ofNat 1), (5239097147, .ofNat 1), (5737696933, .ofNat 1), (5801537789, .ofNat 1), (8464698563, .ofNat 1), (8558881579, .ofNat 1), (10462130893, .ofNat 1), (10593417251, .ofNat 1), (14850259631, .ofNat 1), (15123239647, .negSucc 0), (15291509351, .negSucc 0), (16450009483, .ofNat 1), (19747790651, .negSucc 0), (20141796841, .ofNat 1), (24271614421, .ofNat 1), (27466698031, .ofNat 1), (27847117777, .ofNat 1), (40404588869, .negSucc 0), (43362671201, .negSucc 0), (47330288141, .negSucc 0), (47954461967, .negSucc 0), (51361878367, .ofNat 1), (78391669093, .negSucc 0), (79301024051, .negSucc 0), (85749652361, .ofNat 1), (92567162767, .ofNat 1), (109369756087, .ofNat 1), (167378092859, .ofNat 1), (181188043891, .ofNat 1), (872548836877, .ofNat 1), (882257307941, .ofNat 1), (891762573217, .negSucc 0), (901684827161, .negSucc 0), (1502028756847, .negSucc 0), (1510375035391, .negSucc 0), (1520644692683, .negSucc 0), (1527278598217, .negSucc 0), (2955312775757, .negSucc 0), (3405340693501, .ofNat 1), (3479345361857, .negSucc 0), (4069460857513, .negSucc 0), (4115004769231, .negSucc 0), (4769215543567, .ofNat 1), (15432361232677, .ofNat 1)] 0)) .nil)) (.node (.node (.leaf (.adef 23057 [(21542137, .negSucc 0), (124277623, .negSucc 0), (108341342639, .ofNat 1)] 0)) .nil) (.node (.leaf (.adef 32647 [(59973547, .negSucc 0), (96351029, .negSucc 0), (140972753, .negSucc 0), (15250308811, .negSucc 0)] 0)) .nil))) (.node (.node (.node (.leaf (.atom 48871)) (.leaf (.atom 1823))) (.node (.leaf (.adef 13913 [(10592925139, .ofNat 1), (11105412811, .ofNat 1)] 0)) .nil)) (.node (.node (.leaf (.adef 13553 [(36761, .ofNat 1), (7759793, .negSucc 0), (9827861, .ofNat 1), (11512063, .negSucc 0), (14354257, .negSucc 0), (17307821, .ofNat 1), (19397473, .ofNat 1), (20767493, .ofNat 1), (22468261, .negSucc 0), (26629861, .ofNat 1), (43293193, .ofNat 1)] 0)) .nil) (.node (.leaf (.adef 43499 [(3501793, .negSucc 0), (4178731, .ofNat 1)] 0)) .nil))))

def jac246 : JTree := .node (.node (.node (.node (.node (.leaf (.atom 47563)) (.leaf (.adef 16567 [(36380551, .ofNat 1), (36863741, .negSucc 0), (36932461, .negSucc 0), (37084171, .ofNat 1)] 0))) (.node (.leaf (.adef 5591 [(2899301, .negSucc 0), (22906511, .negSucc 0), (32008579, .ofNat 1), (33263767, .ofNat 1), (14810431723, .negSucc 0)] 0)) .nil)) (.node (.node (.leaf (.adef 15031 [(125249, .ofNat 4), (29270867, .ofNat 4), (104498579, .negSucc 3), (107827843, .negSucc 3), (109161007, .negSucc 3), (151747963, .ofNat 4), (151794007, .ofNat 4), (157194307, .negSucc 3), (240872903, .negSucc 3), (249685523, .negSucc 3), (435894359, .negSucc 3), (444317791, .negSucc 3), (603774727, .negSucc 3), (617846791, .ofNat 4), (932450191, .ofNat 4), (40174682747, .ofNat 2), (51744397219, .negSucc 1), (58567724603, .ofNat 2)] 1)) (.leaf (.trans [] 0))) (.node (.leaf (.adef 32237 [(515343, .negSucc 3), (26528013, .ofNat 2), (142993413, .negSucc 1), (156942477, .negSucc 0), (276204595599, .ofNat 2)] 0)) .nil))) (.node (.node (.node (.leaf (.atom 7499)) (.leaf (.adef 7457 [(3966959, .ofNat 1), (4349197, .negSucc 0), (382765211, .ofNat 1), (468890339, .ofNat 1), (558005339, .ofNat 1), (680900683, .negSucc 0)] 0))) (.node (.leaf (.adef 38791 [(1780843, .ofNat 1), (5744969, .negSucc 0)] 0)) .nil)) (.node (.node (.leaf (.adef 35911 [(66936907, .ofNat 1), (76458533, .ofNat 1), (101871313, .negSucc 0), (103179809, .negSucc 0)] 0)) .nil) (.node (.leaf (.adef 9109 [(42433, .ofNat 1), (8869303, .ofNat 1), (10892743, .ofNat 1), (11843341, .negSucc 0), (14959739, .negSucc 0), (17594821, .negSucc 0), (20099063, .ofNat 1), (22452139, .negSucc 0), (24633541, .ofNat 1), (29213557, .ofNat 1), (44601917, .negSucc 0)] 0)) .nil)))) (.node (.node (.node (.node (.leaf (.atom 48187)) (.leaf (.adef 21523 [(666423597817, .ofNat 1)] 0))) (.node (.leaf (.adef 38119 [(360761, .ofNat 1), (2905697, .negSucc 0), (3177439, .negSucc 0), (136396651, .ofNat 1), (3144610649029, .ofNat 1), (4566456931613, .negSucc 0)] 0)) .nil)) (.node (.node (.leaf (.adef 5521 [(1283497, .ofNat 1), (1360741, .negSucc 0)] 0)) .nil) (.node (.leaf (.adef 9029 [(14361983, .ofNat 1), (970722629, .ofNat 1), (3097624421, .ofNat 1), (4354636613, .negSucc 0)] 0)) .nil))) (.node (.node (.node (.leaf (.atom 48761)) (.leaf (.adef 47147 [(23294129, .negSucc 0), (23428117, .ofNat 1), (23503187, .negSucc 0), (32440873, .negSucc 0), (32632361, .ofNat 1), (33140137, .negSucc 0)] 0))) (.node (.leaf (.adef 31799 [(1610629, .ofNat 1), (2657113, .ofNat 1)] 0)) .nil)) (.node (.node (.leaf (.adef 36479 [(1056379739, .negSucc 3), (1079788327, .negSucc 3), (1463233867, .negSucc 3), (1501501327, .ofNat 4), (2136033343, .ofNat 4), (18402470351, .ofNat 4), (111943868759, .ofNat 2), (130692734023, .negSucc 1), (143450400791, .negSucc 3), (145082541299, .ofNat 4), (163194759191, .ofNat 2), (17930619459163, .ofNat 4), (18152310403687, .ofNat 4), (18178909343891, .negSucc 3)] 1)) .nil) (.node (.leaf (.adef 43067 [(5412373, .ofNat 1), (11770079, .negSucc 0), (27569681, .negSucc 0), (38290097, .ofNat 1), (1771722907, .ofNat 1), (1772383037, .ofNat 1), (1810927099, .ofNat 1), (1811737327, .ofNat 1), (2572813379, .negSucc 0), (2573771989, .negSucc 0), (2640017851, .ofNat 1), (2641199023, .ofNat 1), (236217132941, .ofNat 1)] 0)) .nil))))

def jac247 : JTree := .node (.node (.node (.node (.node (.node (.node (.leaf (.atom 2467)) (.leaf (.adef 27103 [(21191281, .ofNat 1), (22313891, .ofNat 1), (43571071, .ofNat 1), (6259071359, .ofNat 1), (7057166539, .ofNat 1), (8271817661, .ofNat 1), (8438519429, .ofNat 1), (9109464053, .ofNat 1), (9160076873, .ofNat 1), (11553181943, .ofNat 1), (11947363019, .ofNat 1), (12074190413, .ofNat 1), (12083090581, .ofNat 1), (13080811031, .ofNat 1), (13089637739, .ofNat 1), (37606522627, .ofNat 1), (8274222529201, .ofNat 1), (12269195058331, .ofNat 1), (1144650856177823, .ofNat 1)] 0))) (.node (.leaf (.adef 4261 [(1477909, .negSucc 0), (1880609, .negSucc 0), (2272969, .ofNat 1)] 0)) .nil)) (.node (.node (.leaf (.adef 22709 [(52663509, .negSucc 1), (57384759, .negSucc 1), (63798507, .negSucc 0), (79485927, .negSucc 1), (142434099, .negSucc 0), (92542633893, .ofNat 2)] 0)) .nil) (.node (.leaf (.adef 25679 [(47309393, .negSucc 0), (50559979, .negSucc 0), (80538581, .negSucc 0), (89841463, .ofNat 1), (231666913, .negSucc 0), (247584539, .negSucc 0)] 0)) .nil))) (.node (.node (.node (.leaf (.atom 28591)) (.leaf (.adef 34483 [(6757417, .ofNat 1), (289889603, .negSucc 0), (330083041, .ofNat 1)] 0))) (.node (.leaf (.adef 18973 [(2203247, .ofNat 1), (2770909, .ofNat 1), (3364859, .ofNat 1), (1022522827, .negSucc 0)] 0)) .nil)) (.node (.node (.leaf (.adef 35543 [(64120057, .negSucc 0), (75734797, .ofNat 1)] 0)) .nil) (.node (.leaf (.adef 16301 [(35639011, .ofNat 1), (35690723, .negSucc 0), (36216547, .negSucc 0), (36240361, .ofNat 1)] 0)) .nil)))) (.node (.node (.node (.node (.leaf (.atom 22343)) (.leaf (.adef 44683 [(5159851, .ofNat 1), (16890532327, .negSucc 0)] 0))) (.node (.leaf (.adef 37747 [(2393557, .negSucc 1), (5140433, .ofNat 2), (7249607, .ofNat 2), (115898971, .negSucc 1), (331955887, .negSucc 1), (28732215847, .negSucc 1)] 0)) .nil)) (.node (.node (.leaf (.adef 3347 [(1568137, .ofNat 1), (1595599, .ofNat 1), (7297610347, .ofNat 1), (7326120899, .ofNat 1)] 0)) (.leaf (.trans [(47387, .ofNat 1)] 0))) (.node (.leaf (.adef 20029 [(1459571, .ofNat 1), (2247943, .ofNat 1)] 0)) .nil))) (.node (.node (.node (.leaf (.atom 6029)) (.leaf (.adef 35117 [(20860531, .negSucc 0), (21006851, .ofNat 1), (21521777, .ofNat 1), (21885557, .negSucc 0)] 0))) (.node (.leaf (.adef 31627 [(547721, .negSucc 0), (2520761, .ofNat 1), (2909693, .negSucc 0), (3168211, .negSucc 0), (3191983, .ofNat 1), (3795107, .ofNat 1), (102927949, .negSucc 0), (162110681, .ofNat 2), (324629873, .negSucc 0), (400647587, .negSucc 0)] 0)) .nil)) (.node (.node (.leaf (.adef 23873 [(79742483, .negSucc 0), (88953409, .ofNat 1)] 0)) .nil) (.node (.leaf (.adef 26821 [(8970343, .negSucc 0), (1109827451, .ofNat 1), (36663941323, .ofNat 1)] 0)) .nil))))) jac245) (.node jac246 (.node (.node (.node (.node (.node (.leaf (.atom 4817)) (.leaf (.adef 44449 [(44417, .ofNat 1), (12151933, .ofNat 1), (14217089, .ofNat 1), (30825227, .negSucc 0), (33762637, .ofNat 1), (40030583, .ofNat 1)] 0))) (.node (.leaf (.adef 37529 [(21614445977, .ofNat 1), (26124827137, .ofNat 1), (51137385769, .ofNat 1), (1603776174191, .ofNat 1), (1789025781493, .negSucc 0), (2215245588583, .ofNat 1), (2230223922881, .negSucc 0)] 0)) .nil)) (.node (.node (.leaf (.adef 9721 [(34024807, .ofNat 1), (36362621, .ofNat 1)] 0)) .nil) (.node (.leaf (.adef 16139 [(35059547, .ofNat 1), (35619631, .negSucc 0), (35708941, .negSucc 0), (35826127, .ofNat 1)] 0)) .nil))) (.node (.node (.node (.leaf (.atom 14767)) (.leaf (.adef 34847 [(19579867, .ofNat 1), (20878807, .negSucc 0), (21496567, .ofNat 1), (21643441, .negSucc 0)] 0))) (.node (.leaf (.adef 31397 [(38772931, .negSucc 3), (56588431, .negSucc 3), (4650059773, .negSucc 1), (15472188769, .negSucc 1), (19663566761, .ofNat 2), (622544132257, .ofNat 2), (679301480197, .ofNat 1), (944603723197, .negSucc 0), (98826324771827, .ofNat 2)] 1)) .nil)) (.node (.node (.leaf (.adef 17891 [(3970807, .ofNat 1), (8240209, .ofNat 1), (8289797, .ofNat 1), (11001343, .ofNat 1), (2207344507, .ofNat 1), (2499979429, .ofNat 1)] 0)) .nil) (.node (.leaf (.adef 16381 [(10708679, .ofNat 1), (784591068581, .ofNat 1)] 0)) .nil)))) (.node (.node (.node (.node (.leaf (.atom 3607)) (.leaf (.adef 16673 [(10255531441, .ofNat 1), (11274105041, .negSucc 0), (11403053743, .ofNat 1), (19711735777, .negSucc 0)] 0))) (.node (.leaf (.adef 31123 [(62916698387, .ofNat 1)] 0)) .nil)) (.node (.node (.leaf (.adef 29573 [(3349063, .negSucc 0), (3452447, .ofNat 1)] 0)) .nil) (.node (.leaf (.adef 41813 [(116216973, .ofNat 2), (153953937, .ofNat 1), (239993451, .ofNat 1), (244327653, .ofNat 1), (261339694137, .negSucc 1), (302550260967, .negSucc 1), (345454772049, .negSucc 1), (360127846233, .negSucc 0), (418623496353, .negSucc 0), (518380324590267, .ofNat 4)] 0)) .nil))) (.node (.node (.node (.leaf (.atom 3323)) .nil) (.node (.leaf (.adef 25589 [(6094667, .ofNat 1), (6478001, .ofNat 1), (451825261, .negSucc 0), (493164829, .ofNat 1)] 0)) .nil)) (.node (.node (.leaf (.adef 7649 [(10380549521, .negSucc 0), (12937514633, .ofNat 1)] 0)) .nil) (.node (.leaf (.adef 20983 [(27696161, .ofNat 2), (27768547, .ofNat 2), (3868811561, .negSucc 0), (4175520653, .negSucc 0), (942276662671, .negSucc 1), (1167427248913, .ofNat 1), (2588156565101, .ofNat 1), (366314643357349, .ofNat 1)] 0)) .nil))))))

def jac248 : JTree := .node (.node (.node (.node jac185 (.node (.node jac186 (.node (.node (.node (.node (.node (.leaf (.trans [(367, .ofNat 1), (467, .ofNat 1)] 0)) (.leaf (.adef 21227 [(15598717, .ofNat 1), (16752179, .ofNat 1), (38471471, .ofNat 1), (44229221, .ofNat 1), (51050771, .ofNat 1), (8835528001, .ofNat 1)] 0))) (.node (.leaf (.adef 24329 [(1275343, .negSucc 0), (2177311, .negSucc 0), (281589041, .negSucc 0), (13833900391, .negSucc 0), (14001372079, .ofNat 1), (20167429159, .negSucc 0), (54667541947, .negSucc 0), (76018034947, .ofNat 1)] 0)) .nil)) (.node (.node (.leaf (.adef 3671 [(285612061, .ofNat 1), (347110883, .ofNat 1), (365813329, .ofNat 1), (496895161, .negSucc 0), (531762301, .negSucc 0), (16232498443, .ofNat 1), (90882801583, .negSucc 0), (92626048571, .negSucc 0), (109346449891, .ofNat 1), (109530736021, .negSucc 0), (111518207087, .ofNat 1), (172370749537, .ofNat 1), (538189362179, .negSucc 0), (750499239539, .negSucc 0), (986499654343, .ofNat 1), (150120009522133, .ofNat 1), (180618222732241, .negSucc 0)] 0)) (.leaf (.trans [] 0))) (.node (.leaf (.adef 25889 [(298530673, .negSucc 0), (359040367, .negSucc 0), (362871551, .ofNat 1), (373073617, .negSucc 0), (383370617, .ofNat 1), (385371301, .ofNat 1), (391920053, .negSucc 0), (500180107, .negSucc 0), (615077911, .ofNat 1), (550059606397, .negSucc 0), (558847771979, .ofNat 1), (565944276653, .negSucc 0), (774761534953, .negSucc 0), (1002525725467, .ofNat 1)] 0)) .nil))) (.node (.node (.node (.leaf (.atom 14747)) (.leaf (.adef 34613 [(17007, .negSucc 1), (52887789, .ofNat 1), (150347007, .ofNat 2), (168501483, .ofNat 1), (276027558759, .negSucc 1)] 0))) (.node (.leaf (.adef 13807 [(38891, .ofNat 1), (38903, .ofNat 1), (4073438729, .ofNat 1), (4207870819, .ofNat 1), (4961891489, .ofNat 1), (5473360007, .ofNat 1), (7665162293, .ofNat 1), (8111031871, .ofNat 1), (8373198577, .ofNat 1), (8449717303, .ofNat 1), (11362729121, .ofNat 1), (11803927801, .ofNat 1), (12096147079, .ofNat 1), (14035321711, .ofNat 1), (1069182982243, .ofNat 1), (1252841415571, .ofNat 1), (392417525191841, .negSucc 1), (459824871814577, .negSucc 1), (644455191819797, .ofNat 1), (755156197022309, .ofNat 1)] 0)) .nil)) (.node (.node (.leaf (.adef 17599 [(10386193, .negSucc 0), (14093581, .ofNat 1), (15147793, .ofNat 1), (16601777, .negSucc 0), (17049157, .negSucc 0), (68542343, .negSucc 0)] 0)) .nil) (.node (.leaf (.adef 42499 [(10520897, .negSucc 0), (17154001, .ofNat 1), (22874287, .ofNat 1), (30474541, .ofNat 1)] 0)) .nil)))) jac187)) (.node jac188 jac189))) (.node jac194 (.node jac197 (.node jac198 jac200)))) (.node (.node (.node jac202 jac203) jac207) (.node (.node jac209 jac210) (.node (.node jac211 jac213) jac215)))) (.node (.node jac223 jac231) (.node (.node (.node (.node jac232 jac233) jac235) jac240) (.node (.node jac242 (.node jac243 (.node (.node (.node (.node (.node (.leaf (.atom 22277)) (.leaf (.adef 27407 [(4214467, .ofNat 1), (4606787, .ofNat 1), (6055351, .ofNat 1)] 0))) (.node (.leaf (.adef 15749 [(24419, .negSucc 0), (37409, .ofNat 1), (943637593, .ofNat 1), (1153019251, .ofNat 1), (2874469049, .ofNat 1), (3018871759, .ofNat 1), (3124714613, .ofNat 1), (3705357499, .ofNat 1), (3954649001, .ofNat 1), (4147060501, .ofNat 1), (4948726327, .ofNat 1), (5403812677, .ofNat 1), (475188944383, .ofNat 1), (475716862883, .ofNat 2), (690780707153, .ofNat 1), (691548140653, .ofNat 2), (27876141956269, .ofNat 1), (40523461837379, .ofNat 1)] 0)) .nil)) (.node (.node (.leaf (.adef 29173 [(218553, .negSucc 3), (23034159, .negSucc 1), (53464599, .negSucc 1), (62349633, .negSucc 0), (91264262409, .ofNat 2)] 0)) (.leaf (.trans [] 0))) (.node (.leaf (.adef 41113 [(81580987, .ofNat 1), (59841919987, .ofNat 1)] 0)) .nil))) (.node (.node (.node (.leaf (.atom 17117)) (.leaf (.adef 12637 [(14102219, .ofNat 1), (1113677771, .ofNat 2)] 0))) (.node (.leaf (.adef 5783 [(22107, .ofNat 4), (49811247, .negSucc 1), (57857301, .negSucc 1), (65816577, .negSucc 1), (98762620491, .ofNat 3)] 0)) .nil)) (.node (.node (.leaf (.adef 9739 [(5968531, .ofNat 1), (6158903, .ofNat 1), (6198589, .ofNat 1), (8233529, .ofNat 1), (734520821, .negSucc 0), (951244717, .ofNat 1)] 0)) .nil) (.node (.leaf (.adef 20719 [(124469777, .ofNat 1), (125068529, .negSucc 0), (52361314639, .negSucc 0), (52493749733, .ofNat 1)] 0)) .nil)))) (.node (.node (.node (.node (.leaf (.atom 28571)) (.leaf (.adef 27901 [(9042203, .negSucc 0), (8229148201, .ofNat 1)] 0))) (.node (.leaf (.adef 38653 [(4244913383, .ofNat 1), (4780545181, .negSucc 0)] 0)) .nil)) (.node (.node (.leaf (.adef 23143 [(2223585973009, .ofNat 1), (7923536754767, .negSucc 0)] 0)) .nil) (.node (.leaf (.adef 26371 [(7413911, .ofNat 4), (570761447, .ofNat 2), (2370768107, .ofNat 1), (5101727537, .ofNat 2)] 1)) .nil))) (.node (.node (.node (.leaf (.atom 3623)) (.leaf (.atom 2803))) (.node (.leaf (.adef 7039 [(11339779153, .ofNat 1)] 0)) .nil)) (.node (.node (.leaf (.adef 18089 [(36913, .ofNat 1), (70644001, .negSucc 0), (71025259, .negSucc 0), (71231509, .ofNat 1), (76670129, .ofNat 1), (76705903, .negSucc 0), (78333149, .ofNat 1), (95378581, .negSucc 0), (97848811, .ofNat 1), (104579851, .ofNat 1), (105314453, .ofNat 1)] 0)) .nil) (.node (.leaf (.adef 43651 [(13030411, .ofNat 1), (13032791, .negSucc 0), (13148143, .negSucc 0)] 0)) .nil))))))) jac247)))

def jac249 : JTree := .node (.node (.node (.node (.node (.node (.node .nil (.node (.node (.leaf (.mult 46499 4919 (.ofNat 1) 0)) .nil) .nil)) (.node (.node (.node (.leaf (.mult 23357 1596 (.ofNat 1) 0)) .nil) .nil) .nil)) .nil) (.node (.node .nil (.node (.node (.node (.leaf (.mult 36469 1914 (.ofNat 1) 0)) .nil) .nil) .nil)) (.node (.node (.node (.node (.leaf (.mult 7639 1834 (.ofNat 1) 0)) .nil) .nil) .nil) .nil))) (.node (.node (.node .nil (.node (.node (.node (.leaf (.mult 23893 1867 (.ofNat 1) 0)) .nil) .nil) .nil)) (.node (.node (.node (.node (.leaf (.mult 10169 1765 (.ofNat 1) 0)) .nil) .nil) .nil) (.node (.node (.node (.leaf (.trans [(7687747, .ofNat 1)] 0)) .nil) .nil) .nil))) (.node (.node (.node (.node (.node (.leaf (.mult 10159 1689 (.ofNat 1) 0)) .nil) .nil) .nil) (.node (.node (.node (.leaf (.mult 36677 1964 (.ofNat 1) 0)) .nil) .nil) .nil)) (.node .nil (.node (.node (.node (.leaf (.mult 13451 1703 (.ofNat 1) 0)) .nil) .nil) .nil))))) (.node (.node (.node (.node .nil (.node (.node (.node (.leaf (.mult 2927 1531 (.ofNat 1) 0)) .nil) .nil) .nil)) (.node (.node (.node (.node (.leaf (.mult 29819 1746 (.ofNat 1) 0)) .nil) .nil) .nil) (.node (.node (.node (.leaf (.mult 29863 1774 (.ofNat 1) 0)) .nil) .nil) .nil))) (.node (.node .nil (.node (.node (.node (.leaf (.mult 24049 1960 (.ofNat 1) 0)) .nil) .nil) .nil)) .nil)) (.node (.node (.node .nil (.node (.node (.node (.leaf (.trans [(1092837553, .ofNat 1)] 0)) .nil) .nil) .nil)) (.node (.node (.node (.node (.leaf (.trans [(969601, .ofNat 1)] 0)) .nil) .nil) .nil) .nil)) (.node (.node .nil (.node (.node (.node (.leaf (.mult 30223 1976 (.ofNat 1) 0)) .nil) .nil) .nil)) (.node .nil (.node (.node (.node (.leaf (.mult 37049 2043 (.ofNat 1) 0)) (.leaf (.trans [(15473, .ofNat 1)] 0))) .nil) .nil)))))) (.node (.node (.node (.node .nil (.node (.node (.node (.node (.leaf (.mult 11779 1726 (.ofNat 1) 0)) .nil) .nil) .nil) .nil)) (.node (.node .nil (.node (.node (.node (.leaf (.mult 30139 1930 (.ofNat 1) 0)) .nil) .nil) .nil)) (.node (.node (.node (.node (.leaf (.mult 13477 1822 (.ofNat 1) 0)) .nil) .nil) .nil) (.node (.node (.node (.leaf (.mult 13421 1697 (.ofNat 1) 0)) .nil) .nil) .nil)))) (.node (.node (.node .nil (.node (.node (.node (.leaf (.trans [(24001, .ofNat 1)] 0)) .nil) .nil) .nil)) (.node (.node (.node (.node (.leaf (.mult 8419 1801 (.ofNat 1) 0)) .nil) .nil) .nil) (.node (.node (.node (.leaf (.mult 17903 1792 (.ofNat 1) 0)) .nil) .nil) .nil))) (.node (.node .nil (.node (.node (.node (.leaf (.mult 30187 1968 (.ofNat 1) 0)) .nil) .nil) .nil)) (.node .nil (.node (.node (.node (.leaf (.mult 36781 1988 (.ofNat 1) 0)) .nil) .nil) .nil))))) (.node (.node (.node (.node .nil (.node (.node (.node (.leaf (.mult 17923 1854 (.negSucc 0) 0)) .nil) .nil) .nil)) (.node (.node (.node (.node (.leaf (.mult 6983 1756 (.ofNat 1) 0)) .nil) .nil) .nil) (.node (.node (.node (.leaf (.trans [(13606601, .ofNat 1)] 0)) .nil) .nil) .nil))) (.node (.node .nil (.node (.node (.node (.leaf (.mult 36643 1959 (.ofNat 1) 0)) .nil) .nil) .nil)) (.node .nil (.node (.node (.node (.leaf (.mult 17981 1950 (.ofNat 1) 0)) .nil) .nil) .nil)))) (.node (.node (.node .nil (.node (.node (.node (.leaf (.mult 36607 1943 (.ofNat 1) 0)) .nil) .nil) .nil)) (.node (.node (.node (.node (.leaf (.mult 15607 1828 (.ofNat 1) 0)) .nil) .nil) .nil) .nil)) (.node (.node .nil (.node (.node (.node (.leaf (.mult 24077 1994 (.ofNat 1) 0)) .nil) .nil) .nil)) (.node .nil (.node (.node (.node (.leaf (.mult 46061 4852 (.ofNat 1) 0)) .nil) .nil) .nil))))))

def jac250 : JTree := .node (.node (.node (.node (.node (.node (.node .nil (.node (.node (.leaf (.mult 46523 4923 (.negSucc 0) 0)) .nil) .nil)) (.node (.node (.node (.leaf (.mult 29399 1476 (.ofNat 1) 0)) .nil) .nil) .nil)) .nil) (.node (.node .nil (.node (.node (.node (.leaf (.mult 30113 1922 (.ofNat 1) 0)) .nil) .nil) .nil)) (.node (.node (.node (.node (.leaf (.mult 23813 1815 (.ofNat 1) 0)) .nil) .nil) .nil) .nil))) (.node (.node (.node .nil (.node (.node (.node (.leaf (.mult 5297 1873 (.ofNat 1) 0)) .nil) .nil) .nil)) (.node (.node (.node (.node (.leaf (.mult 12251 1784 (.ofNat 1) 0)) .nil) .nil) .nil) .nil)) (.node .nil (.node (.node (.node (.node (.leaf (.trans [(19971317, .negSucc 0), (20937533, .negSucc 0)] 0)) .nil) .nil) .nil) (.node (.node (.node (.leaf (.mult 37019 2037 (.ofNat 1) 0)) .nil) .nil) .nil))))) (.node (.node (.node .nil (.node (.node (.node (.node (.leaf (.trans [(44782313, .negSucc 0)] 0)) .nil) .nil) .nil) .nil)) .nil) (.node (.node (.node .nil (.node (.node (.node (.leaf (.mult 36341 1883 (.ofNat 1) 0)) .nil) .nil) .nil)) (.node .nil (.node (.node (.node (.leaf (.trans [(5285887, .ofNat 1)] 0)) .nil) .nil) .nil))) (.node (.node .nil (.node (.node (.node (.leaf (.mult 36653 1961 (.ofNat 1) 0)) .nil) .nil) .nil)) (.node (.node (.node (.node (.leaf (.mult 35543 1599 (.ofNat 1) 0)) .nil) .nil) .nil) (.node (.node (.node (.leaf (.mult 37039 2041 (.ofNat 1) 0)) (.leaf (.mult 2383 1607 (.ofNat 1) 0))) .nil) .nil)))))) (.node (.node (.node (.node (.node .nil (.node (.node (.node (.leaf (.mult 23297 1571 (.ofNat 1) 0)) .nil) .nil) .nil)) (.node (.node (.node (.node (.leaf (.mult 11177 1728 (.ofNat 1) 0)) .nil) .nil) .nil) (.node (.node (.node (.leaf (.trans [(13523507, .ofNat 1)] 0)) .nil) .nil) .nil))) (.node (.node .nil (.node (.node (.node (.leaf (.mult 15641 1938 (.ofNat 1) 0)) .nil) .nil) .nil)) .nil)) (.node (.node (.node .nil (.node (.node (.node (.leaf (.mult 23977 1889 (.ofNat 1) 0)) .nil) .nil) .nil)) (.node (.node (.node (.node (.leaf (.mult 36097 1805 (.ofNat 1) 0)) .nil) .nil) .nil) .nil)) (.node (.node .nil (.node (.node (.node (.leaf (.mult 30241 1999 (.ofNat 1) 0)) .nil) .nil) .nil)) (.node .nil (.node (.node (.node (.leaf (.mult 18119 2028 (.ofNat 1) 0)) .nil) .nil) .nil))))) (.node (.node (.node (.node .nil (.node (.node (.node (.leaf (.mult 17929 1859 (.ofNat 1) 0)) .nil) .nil) .nil)) (.node (.node (.node (.node (.leaf (.mult 15583 1771 (.ofNat 1) 0)) .nil) .nil) .nil) .nil)) (.node .nil (.node .nil (.node (.node (.node (.leaf (.mult 18049 1958 (.ofNat 1) 0)) .nil) .nil) .nil)))) (.node (.node (.node (.node (.node (.node (.leaf (.mult 2221 1050 (.ofNat 1) 0)) .nil) .nil) .nil) (.node (.node (.node (.leaf (.mult 30059 1906 (.ofNat 1) 0)) .nil) .nil) .nil)) (.node (.node (.node (.node (.leaf (.trans [(3069221, .ofNat 1)] 0)) .nil) .nil) .nil) (.node (.node (.node (.leaf (.mult 18041 1955 (.ofNat 1) 0)) .nil) .nil) .nil))) (.node .nil (.node (.node (.node (.node (.leaf (.mult 22679 1043 (.ofNat 1) 0)) .nil) .nil) .nil) (.node (.node (.node (.leaf (.mult 34819 4855 (.ofNat 1) 0)) .nil) .nil) .nil))))))

def jac251 : JTree := .node (.node (.node (.node (.node (.node (.node .nil (.node (.node (.leaf (.mult 46511 4922 (.ofNat 1) 0)) .nil) .nil)) .nil) .nil) (.node (.node .nil (.node (.node (.node (.leaf (.mult 15629 1918 (.ofNat 1) 0)) .nil) .nil) .nil)) (.node (.node (.node (.node (.leaf (.trans [(17232239, .ofNat 1)] 0)) .nil) .nil) .nil) (.node (.node (.node (.leaf (.mult 17623 1705 (.negSucc 0) 0)) .nil) .nil) .nil)))) (.node (.node (.node .nil (.node (.node (.node (.leaf (.mult 8431 1870 (.ofNat 1) 0)) .nil) .nil) .nil)) (.node (.node (.node (.node (.leaf (.mult 23743 1783 (.ofNat 1) 0)) .nil) .nil) .nil) .nil)) (.node (.node .nil (.node (.node (.node (.leaf (.mult 36931 2020 (.ofNat 1) 0)) .nil) .nil) .nil)) (.node .nil (.node (.node (.node (.leaf (.mult 13441 1701 (.ofNat 1) 0)) .nil) .nil) .nil))))) (.node (.node (.node (.node .nil (.node (.node (.node (.leaf (.mult 3181 1573 (.ofNat 1) 0)) .nil) .nil) .nil)) (.node (.node (.node (.node (.leaf (.mult 6217 1767 (.ofNat 1) 0)) .nil) .nil) .nil) .nil)) (.node (.node .nil (.node (.node (.node (.leaf (.trans [(1760461, .ofNat 1)] 0)) .nil) .nil) .nil)) .nil)) (.node (.node (.node .nil (.node (.node (.node (.leaf (.mult 23911 1879 (.ofNat 1) 0)) .nil) .nil) .nil)) (.node (.node (.node (.node (.leaf (.trans [(346033, .ofNat 1)] 0)) .nil) .nil) .nil) (.node (.node (.node (.leaf (.trans [(16957471, .ofNat 1)] 0)) .nil) .nil) .nil))) (.node (.node .nil (.node (.node (.node (.leaf (.trans [(3243607, .ofNat 1)] 0)) .nil) .nil) .nil)) (.node (.node (.node (.node (.leaf (.mult 17159 1044 (.ofNat 1) 0)) .nil) .nil) .nil) (.node (.node (.node (.leaf (.mult 37021 2040 (.ofNat 1) 0)) (.leaf (.mult 601 1574 (.ofNat 1) 0))) .nil) .nil)))))) (.node (.node (.node (.node (.node .nil (.node (.node (.node (.leaf (.mult 23339 1595 (.ofNat 1) 0)) .nil) .nil) .nil)) .nil) (.node (.node .nil (.node (.node (.node (.leaf (.mult 36551 1934 (.ofNat 1) 0)) .nil) .nil) .nil)) (.node .nil (.node (.node (.node (.leaf (.mult 13417 1694 (.ofNat 1) 0)) .nil) .nil) .nil)))) (.node (.node (.node .nil (.node (.node (.node (.leaf (.mult 30011 1887 (.ofNat 1) 0)) .nil) .nil) .nil)) (.node (.node (.node (.node (.leaf (.mult 36037 1793 (.ofNat 1) 0)) .nil) .nil) .nil) (.node (.node (.node (.leaf (.mult 29867 1802 (.ofNat 1) 0)) .nil) .nil) .nil))) (.node (.node .nil (.node (.node (.node (.leaf (.trans [(2222833, .ofNat 1)] 0)) .nil) .nil) .nil)) (.node (.node (.node (.node (.leaf (.mult 9661 1054 (.ofNat 1) 0)) .nil) .nil) .nil) (.node (.node (.node (.leaf (.mult 18061 1989 (.ofNat 1) 0)) .nil) .nil) .nil))))) (.node (.node (.node (.node .nil (.node (.node (.node (.leaf (.mult 36277 1857 (.negSucc 0) 0)) .nil) .nil) .nil)) (.node (.node (.node (.node (.leaf (.mult 6983 1756 (.negSucc 0) 0)) .nil) .nil) .nil) .nil)) (.node (.node .nil (.node (.node (.node (.leaf (.mult 36787 1990 (.ofNat 1) 0)) .nil) .nil) .nil)) (.node .nil (.node (.node (.node (.leaf (.mult 36217 1846 (.ofNat 1) 0)) .nil) .nil) .nil)))) (.node (.node (.node .nil (.node (.node (.node (.leaf (.mult 17959 1946 (.ofNat 1) 0)) .nil) .nil) .nil)) (.node (.node (.node (.node (.leaf (.mult 5059 1831 (.ofNat 1) 0)) .nil) .nil) .nil) .nil)) (.node .nil (.node .nil (.node (.node (.node (.leaf (.mult 30307 2010 (.ofNat 1) 0)) .nil) .nil) .nil))))))

def jac252 : JTree := .node (.node (.node (.node (.node (.node .nil (.node (.node (.node (.leaf (.mult 29537 1526 (.ofNat 1) 0)) .nil) .nil) .nil)) (.node (.node (.node (.node (.leaf (.trans [(41785727, .negSucc 0)] 0)) .nil) .nil) .nil) (.node (.node (.node (.leaf (.mult 29789 1732 (.ofNat 1) 0)) .nil) .nil) .nil))) (.node (.node .nil (.node (.node (.node (.leaf (.mult 36527 1926 (.ofNat 1) 0)) .nil) .nil) .nil)) (.node (.node (.node (.node (.leaf (.mult 36137 1821 (.ofNat 1) 0)) .nil) .nil) .nil) (.node (.node (.node (.leaf (.mult 36973 2027 (.ofNat 1) 0)) .nil) .nil) .nil)))) (.node (.node (.node .nil (.node (.node (.node (.leaf (.mult 30029 1894 (.ofNat 1) 0)) .nil) .nil) .nil)) (.node (.node (.node (.node (.leaf (.mult 23747 1787 (.ofNat 1) 0)) .nil) .nil) .nil) .nil)) (.node (.node .nil (.node (.node (.node (.leaf (.mult 30203 1970 (.ofNat 1) 0)) .nil) .nil) .nil)) (.node .nil (.node (.node (.node (.leaf (.mult 17627 1707 (.ofNat 1) 0)) .nil) .nil) .nil))))) (.node (.node (.node (.node .nil (.node (.node (.node (.leaf (.mult 36241 1850 (.ofNat 1) 0)) .nil) .nil) .nil)) (.node (.node (.node (.node (.leaf (.mult 5581 1750 (.negSucc 0) 0)) .nil) .nil) .nil) (.node (.node (.node (.leaf (.trans [(6554347, .ofNat 1)] 0)) .nil) .nil) .nil))) (.node .nil (.node .nil (.node (.node (.node (.leaf (.mult 17921 1847 (.ofNat 1) 0)) .nil) .nil) .nil)))) (.node (.node (.node .nil (.node (.node (.node (.leaf (.mult 17939 1902 (.ofNat 1) 0)) .nil) .nil) .nil)) (.node (.node (.node (.node (.leaf (.mult 36161 1827 (.ofNat 1) 0)) .nil) .nil) .nil) (.node (.node (.node (.leaf (.trans [(6927779, .ofNat 1)] 0)) .nil) .nil) .nil))) (.node (.node .nil (.node (.node (.node (.leaf (.mult 36923 2017 (.ofNat 1) 0)) .nil) .nil) .nil)) (.node .nil (.node (.node (.node (.leaf (.mult 29759 1723 (.ofNat 1) 0)) (.leaf (.trans [(46099, .ofNat 1)] 0))) .nil) .nil)))))) (.node (.node (.node (.node (.node .nil (.node (.node (.node (.leaf (.mult 3659 1059 (.ofNat 1) 0)) .nil) .nil) .nil)) (.node (.node (.node (.node (.leaf (.mult 23663 1742 (.ofNat 1) 0)) .nil) .nil) .nil) (.node (.node (.node (.leaf (.trans [(17492869, .ofNat 1)] 0)) .nil) .nil) .nil))) (.node (.node .nil (.node (.node (.node (.leaf (.mult 17977 1949 (.ofNat 1) 0)) .nil) .nil) .nil)) .nil)) (.node (.node (.node .nil (.node (.node (.node (.leaf (.trans [(139638143, .negSucc 0)] 0)) .nil) .nil) .nil)) (.node (.node (.node (.node (.leaf (.mult 36073 1797 (.ofNat 1) 0)) .nil) .nil) .nil) .nil)) (.node (.node .nil (.node (.node (.node (.leaf (.mult 36857 2002 (.ofNat 1) 0)) .nil) .nil) .nil)) (.node .nil (.node (.node (.node (.leaf (.trans [(18119, .ofNat 1)] 0)) .nil) .nil) .nil))))) (.node (.node (.node (.node .nil (.node (.node (.node (.leaf (.mult 23887 1863 (.ofNat 1) 0)) .nil) .nil) .nil)) (.node (.node (.node (.node (.leaf (.mult 36017 1762 (.negSucc 0) 0)) .nil) .nil) .nil) (.node (.node (.node (.leaf (.mult 17863 1779 (.ofNat 1) 0)) .nil) .nil) .nil))) (.node (.node (.node (.node (.node (.leaf (.mult 10139 1684 (.ofNat 1) 0)) .nil) .nil) .nil) (.node (.node (.node (.leaf (.mult 36847 1998 (.ofNat 1) 0)) .nil) .nil) .nil)) (.node .nil (.node (.node (.node (.leaf (.trans [(17099359, .negSucc 0)] 0)) .nil) .nil) .nil)))) (.node (.node (.node (.node (.node (.node (.leaf (.trans [(77057, .negSucc 0)] 0)) .nil) .nil) .nil) (.node (.node (.node (.leaf (.mult 30089 1910 (.ofNat 1) 0)) .nil) .nil) .nil)) (.node (.node (.node (.node (.leaf (.mult 11239 1836 (.ofNat 1) 0)) .nil) .nil) .nil) .nil)) (.node .nil (.node (.node (.node (.node (.leaf (.trans [(9342187, .ofNat 1)] 0)) .nil) .nil) .nil) (.node (.node (.node (.leaf (.mult 46507 4921 (.ofNat 1) 0)) .nil) .nil) .nil))))))

def jac253 : JTree := .node (.node (.node (.node (.node (.node (.node (.node (.node (.leaf (.trans [(317, .ofNat 1)] 0)) .nil) .nil) (.node (.node (.leaf (.mult 36947 2026 (.ofNat 1) 0)) .nil) .nil)) .nil) .nil) (.node (.node .nil (.node (.node (.node (.leaf (.mult 36473 1917 (.ofNat 1) 0)) .nil) .nil) .nil)) (.node (.node (.node (.node (.leaf (.mult 11213 1830 (.ofNat 1) 0)) .nil) .nil) .nil) .nil))) (.node (.node (.node .nil (.node (.node (.node (.leaf (.mult 36307 1869 (.ofNat 1) 0)) .nil) .nil) .nil)) (.node (.node (.node (.node (.leaf (.mult 17881 1785 (.ofNat 1) 0)) .nil) .nil) .nil) .nil)) (.node (.node .nil (.node (.node (.node (.leaf (.mult 36943 2021 (.ofNat 1) 0)) .nil) .nil) .nil)) (.node .nil (.node (.node (.node (.leaf (.mult 36913 2014 (.ofNat 1) 0)) .nil) .nil) .nil))))) (.node (.node (.node (.node .nil (.node (.node (.node (.leaf (.mult 2939 1533 (.ofNat 1) 0)) .nil) .nil) .nil)) (.node .nil (.node (.node (.node (.leaf (.trans [(11101021, .ofNat 1)] 0)) .nil) .nil) .nil))) (.node (.node .nil (.node (.node (.node (.leaf (.trans [(4180711, .ofNat 1)] 0)) .nil) .nil) .nil)) .nil)) (.node (.node (.node .nil (.node (.node (.node (.leaf (.trans [(136677617, .negSucc 0)] 0)) .nil) .nil) .nil)) .nil) (.node (.node .nil (.node (.node (.node (.leaf (.trans [(2657917, .ofNat 1)] 0)) .nil) .nil) .nil)) (.node (.node (.node (.node (.leaf (.mult 8263 1047 (.ofNat 1) 0)) .nil) .nil) .nil) (.node (.node (.node (.leaf (.mult 37013 2036 (.ofNat 1) 0)) (.leaf (.trans [(1181, .ofNat 1)] 0))) .nil) .nil)))))) (.node (.node (.node (.node (.node .nil (.node (.node (.node (.leaf (.trans [(10508389, .ofNat 1)] 0)) .nil) .nil) .nil)) (.node (.node (.node (.node (.leaf (.mult 15569 1733 (.ofNat 1) 0)) .nil) .nil) .nil) .nil)) (.node (.node .nil (.node (.node (.node (.leaf (.mult 30161 1932 (.ofNat 1) 0)) .nil) .nil) .nil)) (.node .nil (.node (.node (.node (.leaf (.mult 23609 1692 (.ofNat 1) 0)) .nil) .nil) .nil)))) (.node (.node (.node .nil (.node (.node (.node (.leaf (.mult 36373 1897 (.ofNat 1) 0)) .nil) .nil) .nil)) (.node .nil (.node (.node (.node (.leaf (.mult 12253 1786 (.ofNat 1) 0)) .nil) .nil) .nil))) (.node (.node .nil (.node (.node (.node (.leaf (.mult 30319 2022 (.ofNat 1) 0)) .nil) .nil) .nil)) (.node .nil (.node (.node (.node (.leaf (.mult 8311 1713 (.ofNat 1) 0)) .nil) .nil) .nil))))) (.node (.node (.node (.node .nil (.node (.node (.node (.leaf (.mult 36293 1858 (.ofNat 1) 0)) .nil) .nil) .nil)) (.node (.node (.node (.node (.leaf (.mult 7621 1757 (.negSucc 0) 0)) .nil) .nil) .nil) .nil)) (.node .nil (.node .nil (.node (.node (.node (.leaf (.mult 17989 1953 (.ofNat 1) 0)) .nil) .nil) .nil)))) (.node (.node (.node .nil (.node (.node (.node (.leaf (.mult 36587 1941 (.ofNat 1) 0)) .nil) .nil) .nil)) (.node (.node (.node (.node (.leaf (.trans [(3516613, .ofNat 1)] 0)) .nil) .nil) .nil) .nil)) (.node (.node .nil (.node (.node (.node (.leaf (.mult 18097 2025 (.ofNat 1) 0)) .nil) .nil) .nil)) (.node (.node (.node (.node (.leaf (.mult 28837 1041 (.negSucc 0) 0)) .nil) .nil) .nil) (.node (.node (.node (.leaf (.mult 46489 4918 (.ofNat 1) 0)) .nil) .nil) .nil))))))

def jac254 : JTree := .node (.node (.node (.node (.node (.node .nil (.node (.node (.node (.leaf (.trans [(886309, .negSucc 0)] 0)) .nil) .nil) .nil)) (.node (.node (.node (.node (.leaf (.mult 4721 1729 (.ofNat 1) 0)) .nil) .nil) .nil) (.node (.node (.node (.leaf (.mult 23633 1737 (.ofNat 1) 0)) .nil) .nil) .nil))) (.node (.node .nil (.node (.node (.node (.leaf (.mult 36497 1923 (.ofNat 1) 0)) .nil) .nil) .nil)) (.node (.node (.node (.node (.leaf (.mult 36131 1820 (.ofNat 1) 0)) .nil) .nil) .nil) (.node (.node (.node (.leaf (.mult 12239 1690 (.negSucc 0) 0)) .nil) .nil) .nil)))) (.node (.node (.node .nil (.node (.node (.node (.leaf (.mult 36383 1898 (.ofNat 1) 0)) .nil) .nil) .nil)) (.node (.node (.node (.node (.leaf (.mult 23753 1788 (.ofNat 1) 0)) .nil) .nil) .nil) (.node (.node (.node (.leaf (.trans [(9926881, .ofNat 1)] 0)) .nil) .nil) .nil))) (.node .nil (.node .nil (.node (.node (.node (.leaf (.mult 17669 1711 (.ofNat 1) 0)) .nil) .nil) .nil))))) (.node (.node (.node (.node .nil (.node (.node (.node (.leaf (.mult 23857 1848 (.ofNat 1) 0)) .nil) .nil) .nil)) (.node (.node (.node (.node (.leaf (.mult 36013 1754 (.negSucc 0) 0)) .nil) .nil) .nil) .nil)) (.node .nil (.node .nil (.node (.node (.node (.leaf (.mult 23831 1844 (.ofNat 1) 0)) .nil) .nil) .nil)))) (.node (.node (.node .nil (.node (.node (.node (.leaf (.mult 24023 1900 (.ofNat 1) 0)) .nil) .nil) .nil)) (.node (.node (.node (.node (.leaf (.trans [(2959039, .ofNat 1)] 0)) .nil) .nil) .nil) .nil)) (.node (.node (.node (.node (.node (.leaf (.mult 14843 1034 (.ofNat 1) 0)) .nil) .nil) .nil) (.node (.node (.node (.leaf (.mult 24061 1963 (.ofNat 1) 0)) .nil) .nil) .nil)) (.node (.node (.node (.node (.leaf (.mult 22691 1045 (.ofNat 1) 0)) .nil) .nil) .nil) (.node (.node (.node (.leaf (.mult 29753 1721 (.ofNat 1) 0)) .nil) .nil) .nil)))))) (.node (.node (.node (.node (.node .nil (.node (.node (.node (.leaf (.mult 3637 1057 (.ofNat 1) 0)) .nil) .nil) .nil)) (.node (.node (.node (.node (.leaf (.mult 4721 1729 (.ofNat 1) 0)) .nil) .nil) .nil) .nil)) (.node (.node .nil (.node (.node (.node (.leaf (.mult 18047 1957 (.negSucc 0) 0)) .nil) .nil) .nil)) .nil)) (.node (.node (.node .nil (.node (.node (.node (.leaf (.mult 36353 1891 (.ofNat 1) 0)) .nil) .nil) .nil)) (.node (.node (.node (.node (.leaf (.trans [(16562603, .negSucc 1)] 0)) .nil) .nil) .nil) (.node (.node (.node (.leaf (.trans [(12494917, .ofNat 1)] 0)) .nil) .nil) .nil))) (.node (.node (.node (.node (.node (.leaf (.trans [(81469, .ofNat 1)] 0)) .nil) .nil) .nil) (.node (.node (.node (.leaf (.mult 30259 2001 (.ofNat 1) 0)) .nil) .nil) .nil)) (.node .nil (.node (.node (.node (.leaf (.trans [(18089, .ofNat 1), (18097, .negSucc 0)] 0)) .nil) .nil) .nil))))) (.node (.node (.node (.node .nil (.node (.node (.node (.leaf (.mult 29921 1861 (.ofNat 1) 0)) .nil) .nil) .nil)) (.node (.node (.node (.node (.leaf (.mult 8363 1773 (.ofNat 1) 0)) .nil) .nil) .nil) (.node (.node (.node (.leaf (.trans [(14328121, .ofNat 1)] 0)) .nil) .nil) .nil))) (.node .nil (.node .nil (.node (.node (.node (.leaf (.mult 23629 1719 (.ofNat 1) 0)) .nil) .nil) .nil)))) (.node (.node (.node (.node (.node (.node (.leaf (.mult 2579 1049 (.ofNat 1) 0)) .nil) .nil) .nil) (.node (.node (.node (.leaf (.mult 30071 1908 (.ofNat 1) 0)) .nil) .nil) .nil)) (.node (.node (.node (.node (.leaf (.mult 7643 1838 (.ofNat 1) 0)) .nil) .nil) .nil) .nil)) (.node (.node .nil (.node (.node (.node (.leaf (.trans [(35607917, .ofNat 1)] 0)) .nil) .nil) .nil)) (.node .nil (.node (.node (.node (.leaf (.mult 46091 4856 (.ofNat 1) 0)) .nil) .nil) .nil))))))

def jac255 : JTree := .node (.node (.node (.node (.node (.node (.node .nil (.node (.node (.leaf (.mult 37061 2046 (.negSucc 0) 0)) .nil) .nil)) .nil) .nil) (.node (.node .nil (.node (.node (.node (.leaf (.mult 30109 1920 (.ofNat 1) 0)) .nil) .nil) .nil)) (.node (.node (.node (.node (.leaf (.mult 23789 1813 (.ofNat 1) 0)) .nil) .nil) .nil) .nil))) (.node (.node (.node .nil (.node (.node (.node (.leaf (.mult 5741 1878 (.ofNat 1) 0)) .nil) .nil) .nil)) (.node (.node (.node (.node (.leaf (.mult 23689 1780 (.ofNat 1) 0)) .nil) .nil) .nil) .nil)) (.node (.node .nil (.node (.node (.node (.leaf (.mult 36809 1995 (.ofNat 1) 0)) .nil) .nil) .nil)) (.node .nil (.node (.node (.node (.leaf (.mult 18089 2015 (.ofNat 1) 0)) .nil) .nil) .nil))))) (.node (.node (.node (.node .nil (.node (.node (.node (.leaf (.mult 11057 1606 (.ofNat 1) 0)) .nil) .nil) .nil)) (.node (.node (.node (.node (.leaf (.mult 6221 1768 (.ofNat 1) 0)) .nil) .nil) .nil) .nil)) (.node (.node .nil (.node (.node (.node (.leaf (.mult 24071 1991 (.ofNat 1) 0)) .nil) .nil) .nil)) .nil)) (.node (.node (.node .nil (.node (.node (.node (.leaf (.mult 23917 1881 (.ofNat 1) 0)) .nil) .nil) .nil)) (.node (.node (.node (.node (.leaf (.mult 11789 1811 (.ofNat 1) 0)) .nil) .nil) .nil) .nil)) (.node (.node .nil (.node (.node (.node (.leaf (.mult 36887 2006 (.ofNat 1) 0)) .nil) .nil) .nil)) (.node (.node (.node (.node (.leaf (.mult 35537 1598 (.ofNat 1) 0)) .nil) .nil) .nil) (.node (.node (.node (.leaf (.mult 37057 2044 (.ofNat 1) 0)) .nil) .nil) .nil)))))) (.node (.node (.node (.node (.node .nil (.node (.node (.node (.leaf (.mult 23063 1474 (.ofNat 1) 0)) .nil) .nil) .nil)) .nil) (.node (.node .nil (.node (.node (.node (.leaf (.mult 36559 1936 (.ofNat 1) 0)) .nil) .nil) .nil)) .nil)) (.node (.node (.node .nil (.node (.node (.node (.leaf (.mult 23971 1885 (.ofNat 1) 0)) .nil) .nil) .nil)) (.node (.node (.node (.node (.leaf (.mult 8369 1795 (.ofNat 1) 0)) .nil) .nil) .nil) .nil)) (.node (.node .nil (.node (.node (.node (.leaf (.trans [(3265919, .ofNat 1)] 0)) .nil) .nil) .nil)) (.node .nil (.node (.node (.node (.leaf (.mult 8329 1722 (.ofNat 1) 0)) .nil) .nil) .nil))))) (.node (.node (.node (.node .nil (.node (.node (.node (.leaf (.mult 36269 1856 (.negSucc 0) 0)) .nil) .nil) .nil)) (.node (.node (.node (.node (.leaf (.mult 7621 1757 (.ofNat 1) 0)) .nil) .nil) .nil) .nil)) (.node (.node (.node (.node (.node (.leaf (.mult 7607 1687 (.ofNat 1) 0)) .nil) .nil) .nil) (.node (.node (.node (.leaf (.mult 36697 1967 (.ofNat 1) 0)) .nil) .nil) .nil)) (.node .nil (.node (.node (.node (.leaf (.mult 13523 1979 (.ofNat 1) 0)) .nil) .nil) .nil)))) (.node (.node (.node .nil (.node (.node (.node (.leaf (.mult 36433 1904 (.ofNat 1) 0)) .nil) .nil) .nil)) (.node (.node (.node (.node (.leaf (.mult 6229 1829 (.ofNat 1) 0)) .nil) .nil) .nil) .nil)) (.node (.node .nil (.node (.node (.node (.leaf (.mult 29761 1731 (.ofNat 1) 0)) .nil) .nil) .nil)) (.node (.node (.node (.node (.leaf (.trans [(9330583, .ofNat 1)] 0)) .nil) .nil) .nil) (.node (.node (.node (.leaf (.mult 30313 2011 (.ofNat 1) 0)) .nil) .nil) .nil))))))

def jac256 : JTree := .node (.node (.node (.node (.node (.node .nil (.node (.node (.node (.leaf (.mult 29669 1594 (.ofNat 1) 0)) .nil) .nil) .nil)) (.node (.node (.node (.node (.leaf (.mult 13463 1725 (.negSucc 0) 0)) .nil) .nil) .nil) (.node (.node (.node (.leaf (.trans [(7643299, .ofNat 1)] 0)) .nil) .nil) .nil))) (.node (.node .nil (.node (.node (.node (.leaf (.mult 36529 1929 (.ofNat 1) 0)) .nil) .nil) .nil)) (.node (.node (.node (.node (.leaf (.trans [(10411537, .ofNat 1)] 0)) .nil) .nil) .nil) (.node (.node (.node (.leaf (.mult 13411 1693 (.ofNat 1) 0)) .nil) .nil) .nil)))) (.node (.node (.node .nil (.node (.node (.node (.leaf (.mult 23993 1892 (.ofNat 1) 0)) .nil) .nil) .nil)) (.node (.node (.node (.node (.leaf (.mult 8389 1800 (.ofNat 1) 0)) .nil) .nil) .nil) .nil)) (.node (.node .nil (.node (.node (.node (.leaf (.mult 30211 1973 (.ofNat 1) 0)) .nil) .nil) .nil)) (.node (.node (.node (.node (.leaf (.mult 10867 1036 (.ofNat 1) 0)) .nil) .nil) .nil) (.node (.node (.node (.leaf (.mult 35983 1704 (.ofNat 1) 0)) .nil) .nil) .nil))))) (.node (.node (.node (.node .nil (.node (.node (.node (.leaf (.mult 36251 1852 (.ofNat 1) 0)) .nil) .nil) .nil)) (.node (.node (.node (.node (.leaf (.mult 17749 1752 (.ofNat 1) 0)) .nil) .nil) .nil) .nil)) (.node .nil (.node .nil (.node (.node (.node (.leaf (.mult 36749 1978 (.ofNat 1) 0)) .nil) .nil) .nil)))) (.node (.node (.node .nil (.node (.node (.node (.leaf (.mult 36583 1940 (.ofNat 1) 0)) .nil) .nil) .nil)) (.node (.node (.node (.node (.leaf (.trans [(13122563, .ofNat 1)] 0)) .nil) .nil) .nil) (.node (.node (.node (.leaf (.mult 12263 1809 (.ofNat 1) 0)) .nil) .nil) .nil))) (.node (.node (.node (.node (.node (.leaf (.mult 14869 1052 (.ofNat 1) 0)) .nil) .nil) .nil) (.node (.node (.node (.leaf (.mult 36791 1992 (.ofNat 1) 0)) .nil) .nil) .nil)) (.node (.node (.node (.node (.leaf (.mult 1847 1056 (.ofNat 1) 0)) .nil) .nil) .nil) (.node (.node (.node (.leaf (.mult 34781 4851 (.ofNat 1) 0)) (.leaf (.trans [(46933, .ofNat 1)] 0))) .nil) .nil)))))) (.node (.node (.node (.node (.node .nil (.node (.node (.node (.leaf (.mult 4933 1472 (.ofNat 1) 0)) .nil) .nil) .nil)) (.node .nil (.node (.node (.node (.leaf (.mult 17713 1740 (.ofNat 1) 0)) .nil) .nil) .nil))) (.node (.node .nil (.node (.node (.node (.leaf (.trans [(1753273, .negSucc 0)] 0)) .nil) .nil) .nil)) .nil)) (.node (.node (.node .nil (.node (.node (.node (.leaf (.mult 36313 1874 (.ofNat 1) 0)) .nil) .nil) .nil)) (.node (.node (.node (.node (.leaf (.mult 36067 1796 (.ofNat 1) 0)) .nil) .nil) .nil) .nil)) (.node .nil (.node (.node (.node (.node (.leaf (.mult 8269 1048 (.ofNat 1) 0)) .nil) .nil) .nil) (.node (.node (.node (.leaf (.mult 37003 2034 (.ofNat 1) 0)) (.leaf (.trans [(14879, .ofNat 1)] 0))) .nil) .nil))))) (.node (.node (.node (.node .nil (.node (.node (.node (.leaf (.mult 29927 1865 (.ofNat 1) 0)) .nil) .nil) .nil)) (.node (.node (.node (.node (.leaf (.mult 17807 1764 (.ofNat 1) 0)) .nil) .nil) .nil) (.node (.node (.node (.leaf (.trans [(7688609, .ofNat 1)] 0)) .nil) .nil) .nil))) (.node .nil (.node .nil (.node (.node (.node (.leaf (.mult 17581 1695 (.ofNat 1) 0)) .nil) .nil) .nil)))) (.node (.node (.node .nil (.node (.node (.node (.leaf (.mult 30091 1911 (.ofNat 1) 0)) .nil) .nil) .nil)) (.node (.node (.node (.node (.leaf (.trans [(3069221, .ofNat 1), (3905521, .ofNat 1)] 0)) .nil) .nil) .nil) (.node (.node (.node (.leaf (.mult 36901 2013 (.ofNat 1) 0)) .nil) .nil) .nil))) (.node .nil (.node (.node (.node (.node (.leaf (.mult 29569 1528 (.ofNat 1) 0)) .nil) .nil) .nil) (.node (.node (.node (.leaf (.mult 36767 1986 (.ofNat 1) 0)) .nil) .nil) .nil))))))

def jac257 : JTree := .node (.node (.node (.node (.node (.node (.node (.node (.node (.leaf (.trans [(307, .negSucc 0)] 0)) .nil) .nil) (.node (.node (.leaf (.mult 46889 4971 (.ofNat 1) 0)) .nil) .nil)) (.node (.node (.node (.leaf (.mult 28813 1037 (.ofNat 1) 0)) .nil) .nil) .nil)) (.node .nil (.node (.node (.node (.leaf (.trans [(15227519, .ofNat 1)] 0)) .nil) .nil) .nil))) (.node (.node .nil (.node (.node (.node (.leaf (.mult 30097 1915 (.ofNat 1) 0)) .nil) .nil) .nil)) (.node (.node (.node (.node (.leaf (.mult 8423 1835 (.ofNat 1) 0)) .nil) .nil) .nil) .nil))) (.node (.node (.node .nil (.node (.node (.node (.leaf (.mult 23899 1868 (.ofNat 1) 0)) .nil) .nil) .nil)) (.node (.node (.node (.node (.leaf (.mult 17839 1777 (.ofNat 1) 0)) .nil) .nil) .nil) .nil)) (.node (.node (.node (.node (.node (.leaf (.mult 10141 1685 (.ofNat 1) 0)) .nil) .nil) .nil) (.node (.node (.node (.leaf (.mult 36683 1965 (.ofNat 1) 0)) .nil) .nil) .nil)) (.node .nil (.node (.node (.node (.leaf (.mult 17609 1700 (.ofNat 1) 0)) .nil) .nil) .nil))))) (.node (.node (.node (.node .nil (.node (.node (.node (.leaf (.mult 2789 1532 (.ofNat 1) 0)) .nil) .nil) .nil)) (.node (.node (.node (.node (.leaf (.mult 29833 1747 (.negSucc 0) 0)) .nil) .nil) .nil) (.node (.node (.node (.leaf (.mult 29851 1769 (.ofNat 1) 0)) .nil) .nil) .nil))) (.node (.node .nil (.node (.node (.node (.leaf (.trans [(1670611, .ofNat 1)] 0)) .nil) .nil) .nil)) .nil)) (.node (.node (.node .nil (.node (.node (.node (.leaf (.mult 29983 1876 (.negSucc 0) 0)) .nil) .nil) .nil)) .nil) (.node (.node .nil (.node (.node (.node (.leaf (.mult 36721 1974 (.ofNat 1) 0)) .nil) .nil) .nil)) (.node .nil (.node (.node (.node (.leaf (.mult 15667 2035 (.ofNat 1) 0)) (.leaf (.mult 1181 1534 (.ofNat 1) 0))) .nil) .nil)))))) (.node (.node (.node (.node .nil (.node (.node (.node (.node (.leaf (.trans [(43711331, .ofNat 1)] 0)) .nil) .nil) .nil) .nil)) (.node (.node .nil (.node (.node (.node (.leaf (.mult 36541 1931 (.ofNat 1) 0)) .nil) .nil) .nil)) (.node (.node (.node (.node (.leaf (.mult 13487 1824 (.ofNat 1) 0)) .nil) .nil) .nil) (.node (.node (.node (.leaf (.mult 23819 1841 (.ofNat 1) 0)) .nil) .nil) .nil)))) (.node (.node (.node .nil (.node (.node (.node (.leaf (.mult 24007 1896 (.ofNat 1) 0)) .nil) .nil) .nil)) (.node .nil (.node (.node (.node (.leaf (.mult 17851 1778 (.ofNat 1) 0)) .nil) .nil) .nil))) (.node (.node .nil (.node (.node (.node (.leaf (.mult 30341 2024 (.ofNat 1) 0)) .nil) .nil) .nil)) (.node .nil (.node (.node (.node (.leaf (.mult 8443 2038 (.ofNat 1) 0)) .nil) .nil) .nil))))) (.node (.node (.node (.node .nil (.node (.node (.node (.leaf (.mult 23873 1855 (.ofNat 1) 0)) .nil) .nil) .nil)) (.node (.node (.node (.node (.leaf (.trans [(43783451, .negSucc 0)] 0)) .nil) .nil) .nil) .nil)) (.node .nil (.node .nil (.node (.node (.node (.leaf (.mult 13537 1980 (.ofNat 1) 0)) .nil) .nil) .nil)))) (.node (.node (.node .nil (.node (.node (.node (.leaf (.mult 36599 1942 (.ofNat 1) 0)) .nil) .nil) .nil)) (.node (.node (.node (.node (.leaf (.mult 13499 1825 (.ofNat 1) 0)) .nil) .nil) .nil) .nil)) (.node (.node .nil (.node (.node (.node (.leaf (.mult 18059 1977 (.ofNat 1) 0)) .nil) .nil) .nil)) (.node .nil (.node (.node (.node (.leaf (.mult 35099 4917 (.ofNat 1) 0)) .nil) .nil) .nil))))))

def jac258 : JTree := .node (.node (.node (.node (.node (.node (.node .nil (.node (.node (.leaf (.mult 46933 4974 (.negSucc 0) 0)) .nil) .nil)) .nil) (.node (.node (.node (.node (.leaf (.trans [(707419, .negSucc 0)] 0)) .nil) .nil) .nil) (.node (.node (.node (.leaf (.trans [(20979229, .ofNat 1)] 0)) .nil) .nil) .nil))) (.node (.node .nil (.node (.node (.node (.leaf (.mult 30119 1924 (.ofNat 1) 0)) .nil) .nil) .nil)) (.node (.node (.node (.node (.leaf (.mult 36107 1816 (.ofNat 1) 0)) .nil) .nil) .nil) .nil))) (.node (.node (.node .nil (.node (.node (.node (.leaf (.trans [(1689462259, .ofNat 1)] 0)) .nil) .nil) .nil)) (.node (.node (.node (.node (.leaf (.mult 23767 1790 (.ofNat 1) 0)) .nil) .nil) .nil) .nil)) (.node .nil (.node (.node (.node (.node (.leaf (.trans [(19341307, .negSucc 0), (20277043, .negSucc 0)] 0)) .nil) .nil) .nil) (.node (.node (.node (.leaf (.mult 35993 1715 (.ofNat 1) 0)) .nil) .nil) .nil))))) (.node (.node (.node (.node .nil (.node (.node (.node (.leaf (.mult 17957 1903 (.ofNat 1) 0)) .nil) .nil) .nil)) (.node (.node (.node (.node (.leaf (.mult 36011 1753 (.negSucc 0) 0)) .nil) .nil) .nil) .nil)) (.node (.node .nil (.node (.node (.node (.leaf (.trans [(4180711, .negSucc 0)] 0)) .nil) .nil) .nil)) (.node .nil (.node (.node (.node .nil (.leaf (.trans [(1, .ofNat 1)] 0))) .nil) .nil)))) (.node (.node (.node .nil (.node (.node (.node (.leaf (.mult 24019 1899 (.ofNat 1) 0)) .nil) .nil) .nil)) (.node (.node (.node (.node (.leaf (.mult 23773 1812 (.ofNat 1) 0)) .nil) .nil) .nil) .nil)) (.node (.node (.node (.node (.node (.leaf (.mult 14867 1051 (.ofNat 1) 0)) .nil) .nil) .nil) (.node (.node (.node (.leaf (.mult 36671 1962 (.ofNat 1) 0)) .nil) .nil) .nil)) (.node (.node (.node (.node (.leaf (.mult 17167 1055 (.ofNat 1) 0)) .nil) .nil) .nil) (.node (.node (.node (.leaf (.mult 6827 2045 (.ofNat 1) 0)) (.leaf (.trans [(2383, .ofNat 1)] 0))) .nil) .nil)))))) (.node (.node (.node (.node (.node .nil (.node (.node (.node (.leaf (.mult 23371 1603 (.ofNat 1) 0)) .nil) .nil) .nil)) (.node (.node (.node (.node (.leaf (.mult 17707 1739 (.ofNat 1) 0)) .nil) .nil) .nil) .nil)) (.node (.node .nil (.node (.node (.node (.leaf (.mult 18013 1954 (.negSucc 0) 0)) .nil) .nil) .nil)) .nil)) (.node (.node (.node .nil (.node (.node (.node (.leaf (.mult 23981 1890 (.ofNat 1) 0)) .nil) .nil) .nil)) (.node (.node (.node (.node (.leaf (.mult 36083 1804 (.ofNat 1) 0)) .nil) .nil) .nil) .nil)) (.node (.node .nil (.node (.node (.node (.leaf (.mult 30253 2000 (.ofNat 1) 0)) .nil) .nil) .nil)) (.node .nil (.node (.node (.node (.leaf (.trans [(18049, .ofNat 1), (18059, .negSucc 0)] 0)) .nil) .nil) .nil))))) (.node (.node (.node (.node .nil (.node (.node (.node (.leaf (.mult 29917 1860 (.ofNat 1) 0)) .nil) .nil) .nil)) (.node (.node (.node (.node (.leaf (.mult 10163 1751 (.ofNat 1) 0)) .nil) .nil) .nil) .nil)) (.node (.node .nil (.node (.node (.node (.leaf (.trans [(2959129, .ofNat 1)] 0)) .nil) .nil) .nil)) (.node .nil (.node (.node (.node (.leaf (.mult 36997 2031 (.ofNat 1) 0)) .nil) .nil) .nil)))) (.node (.node (.node (.node (.node (.node (.leaf (.trans [(79567, .ofNat 1)] 0)) .nil) .nil) .nil) (.node (.node (.node (.leaf (.mult 36451 1907 (.ofNat 1) 0)) .nil) .nil) .nil)) (.node (.node (.node (.node (.leaf (.trans [(3671357, .ofNat 1)] 0)) .nil) .nil) .nil) (.node (.node (.node (.leaf (.mult 36209 1840 (.ofNat 1) 0)) .nil) .nil) .nil))) (.node .nil (.node (.node (.node (.node (.leaf (.mult 29389 1470 (.ofNat 1) 0)) .nil) .nil) .nil) (.node (.node (.node (.leaf (.mult 34807 4854 (.ofNat 1) 0)) .nil) .nil) .nil))))))

def jac259 : JTree := .node (.node (.node (.node (.node (.node (.node .nil (.node (.node (.leaf (.mult 46919 4973 (.ofNat 1) 0)) .nil) .nil)) .nil) (.node .nil (.node (.node (.node (.leaf (.trans [(14764817, .ofNat 1)] 0)) .nil) .nil) .nil))) (.node (.node .nil (.node (.node (.node (.leaf (.mult 36479 1919 (.ofNat 1) 0)) .nil) .nil) .nil)) (.node (.node (.node (.node (.leaf (.trans [(18435071, .ofNat 1)] 0)) .nil) .nil) .nil) (.node (.node (.node (.leaf (.mult 36779 1987 (.ofNat 1) 0)) .nil) .nil) .nil)))) (.node (.node (.node .nil (.node (.node (.node (.leaf (.mult 3527 1872 (.ofNat 1) 0)) .nil) .nil) .nil)) (.node (.node (.node (.node (.leaf (.mult 23719 1781 (.ofNat 1) 0)) .nil) .nil) .nil) (.node (.node (.node (.leaf (.trans [(5280181, .ofNat 1)] 0)) .nil) .nil) .nil))) (.node (.node .nil (.node (.node (.node (.leaf (.mult 36833 1997 (.ofNat 1) 0)) .nil) .nil) .nil)) (.node .nil (.node (.node (.node (.leaf (.mult 13457 1720 (.ofNat 1) 0)) .nil) .nil) .nil))))) (.node (.node (.node (.node .nil (.node (.node (.node (.leaf (.mult 11027 1604 (.ofNat 1) 0)) .nil) .nil) .nil)) (.node (.node (.node (.node (.leaf (.mult 6823 1766 (.ofNat 1) 0)) .nil) .nil) .nil) .nil)) (.node .nil (.node .nil (.node (.node (.node (.leaf (.mult 29881 1843 (.ofNat 1) 0)) .nil) .nil) .nil)))) (.node (.node (.node .nil (.node (.node (.node (.leaf (.mult 36319 1880 (.negSucc 0) 0)) .nil) .nil) .nil)) .nil) (.node (.node .nil (.node (.node (.node (.leaf (.mult 30271 2007 (.ofNat 1) 0)) .nil) .nil) .nil)) (.node (.node (.node (.node (.leaf (.mult 23059 1473 (.ofNat 1) 0)) .nil) .nil) .nil) (.node (.node (.node (.leaf (.mult 15643 1981 (.ofNat 1) 0)) (.leaf (.trans [(601, .ofNat 1)] 0))) .nil) .nil)))))) (.node (.node (.node (.node (.node .nil (.node (.node (.node (.leaf (.mult 22697 1046 (.ofNat 1) 0)) .nil) .nil) .nil)) (.node (.node (.node (.node (.leaf (.mult 8353 1735 (.ofNat 1) 0)) .nil) .nil) .nil) .nil)) (.node (.node .nil (.node (.node (.node (.leaf (.mult 30181 1935 (.ofNat 1) 0)) .nil) .nil) .nil)) (.node .nil (.node (.node (.node (.leaf (.mult 23833 1845 (.ofNat 1) 0)) .nil) .nil) .nil)))) (.node (.node (.node .nil (.node (.node (.node (.leaf (.mult 23957 1884 (.ofNat 1) 0)) .nil) .nil) .nil)) (.node (.node (.node (.node (.leaf (.mult 36061 1794 (.negSucc 0) 0)) .nil) .nil) .nil) (.node (.node (.node (.leaf (.trans [(10559233, .ofNat 1)] 0)) .nil) .nil) .nil))) (.node (.node .nil (.node (.node (.node (.leaf (.trans [(2379017, .ofNat 1)] 0)) .nil) .nil) .nil)) (.node (.node (.node (.node (.leaf (.mult 9649 1038 (.ofNat 1) 0)) .nil) .nil) .nil) (.node (.node (.node (.leaf (.mult 8447 2039 (.ofNat 1) 0)) .nil) .nil) .nil))))) (.node (.node (.node (.node .nil (.node (.node (.node (.leaf (.trans [(9105527, .negSucc 0)] 0)) .nil) .nil) .nil)) (.node (.node (.node (.node (.leaf (.mult 9739 1759 (.ofNat 1) 0)) .nil) .nil) .nil) (.node (.node (.node (.leaf (.trans [(6843737, .ofNat 1)] 0)) .nil) .nil) .nil))) (.node .nil (.node .nil (.node (.node (.node (.leaf (.mult 13567 2030 (.ofNat 1) 0)) .nil) .nil) .nil)))) (.node (.node .nil (.node (.node (.node (.node (.leaf (.mult 4483 1832 (.ofNat 1) 0)) .nil) .nil) .nil) .nil)) (.node (.node .nil (.node (.node (.node (.leaf (.mult 29803 1736 (.ofNat 1) 0)) .nil) .nil) .nil)) (.node .nil (.node (.node (.node (.leaf (.mult 30293 2009 (.ofNat 1) 0)) .nil) .nil) .nil))))))

def jac260 : JTree := .node (.node (.node (.node (.node (.node .nil (.node (.node (.node (.leaf (.mult 29567 1527 (.ofNat 1) 0)) .nil) .nil) .nil)) (.node (.node (.node (.node (.leaf (.trans [(42784589, .negSucc 0)] 0)) .nil) .nil) .nil) (.node (.node (.node (.leaf (.trans [(13085473, .ofNat 1)] 0)) .nil) .nil) .nil))) (.node (.node .nil (.node (.node (.node (.leaf (.mult 30133 1927 (.ofNat 1) 0)) .nil) .nil) .nil)) (.node (.node (.node (.node (.leaf (.trans [(12216383, .ofNat 1)] 0)) .nil) .nil) .nil) (.node (.node (.node (.leaf (.mult 23623 1696 (.ofNat 1) 0)) .nil) .nil) .nil)))) (.node (.node (.node .nil (.node (.node (.node (.leaf (.trans [(4492447, .ofNat 1)] 0)) .nil) .nil) .nil)) (.node (.node (.node (.node (.leaf (.mult 17891 1791 (.ofNat 1) 0)) .nil) .nil) .nil) .nil)) (.node (.node .nil (.node (.node (.node (.leaf (.mult 36713 1972 (.ofNat 1) 0)) .nil) .nil) .nil)) (.node (.node (.node (.node (.leaf (.mult 10883 1053 (.ofNat 1) 0)) .nil) .nil) .nil) (.node (.node (.node (.leaf (.mult 8297 1702 (.ofNat 1) 0)) .nil) .nil) .nil))))) (.node (.node (.node (.node .nil (.node (.node (.node (.leaf (.mult 23869 1851 (.ofNat 1) 0)) .nil) .nil) .nil)) (.node (.node (.node (.node (.leaf (.mult 10163 1751 (.negSucc 0) 0)) .nil) .nil) .nil) .nil)) (.node .nil (.node .nil (.node (.node (.node (.leaf (.mult 24029 1948 (.ofNat 1) 0)) .nil) .nil) .nil)))) (.node (.node (.node .nil (.node (.node (.node (.leaf (.mult 36571 1939 (.ofNat 1) 0)) .nil) .nil) .nil)) (.node (.node (.node (.node (.leaf (.trans [(11468669, .ofNat 1)] 0)) .nil) .nil) .nil) (.node (.node (.node (.leaf (.mult 17911 1808 (.ofNat 1) 0)) .nil) .nil) .nil))) (.node (.node .nil (.node (.node (.node (.leaf (.mult 24083 2018 (.ofNat 1) 0)) .nil) .nil) .nil)) (.node (.node (.node (.node (.leaf (.mult 35569 1600 (.ofNat 1) 0)) .nil) .nil) .nil) (.node (.node (.node (.leaf (.mult 36007 1724 (.ofNat 1) 0)) (.leaf (.trans [(46523, .negSucc 0)] 0))) .nil) .nil)))))) (.node (.node (.node (.node (.node .nil (.node (.node (.node (.leaf (.mult 4943 1478 (.ofNat 1) 0)) .nil) .nil) .nil)) (.node (.node (.node (.node (.leaf (.mult 23669 1743 (.negSucc 0) 0)) .nil) .nil) .nil) (.node (.node (.node (.leaf (.mult 23677 1749 (.ofNat 1) 0)) .nil) .nil) .nil))) (.node (.node .nil (.node (.node (.node (.leaf (.mult 24043 1951 (.negSucc 0) 0)) .nil) .nil) .nil)) (.node .nil (.node (.node (.node (.leaf (.mult 23827 1842 (.ofNat 1) 0)) .nil) .nil) .nil)))) (.node (.node (.node .nil (.node (.node (.node (.leaf (.trans [(1307236201, .ofNat 1)] 0)) .nil) .nil) .nil)) (.node (.node (.node (.node (.leaf (.trans [(7930729, .ofNat 2)] 0)) .nil) .nil) .nil) .nil)) (.node .nil (.node .nil (.node (.node (.node (.leaf (.mult 15661 2033 (.ofNat 1) 0)) (.leaf (.mult 14879 1060 (.ofNat 1) 0))) .nil) .nil))))) (.node (.node (.node (.node .nil (.node (.node (.node (.leaf (.mult 36299 1864 (.ofNat 1) 0)) .nil) .nil) .nil)) (.node (.node (.node (.node (.leaf (.mult 17791 1763 (.ofNat 1) 0)) .nil) .nil) .nil) (.node (.node (.node (.leaf (.mult 17827 1770 (.ofNat 1) 0)) .nil) .nil) .nil))) (.node .nil (.node .nil (.node (.node (.node (.leaf (.mult 17597 1698 (.ofNat 1) 0)) .nil) .nil) .nil)))) (.node (.node (.node (.node (.node (.node (.leaf (.trans [(87809, .ofNat 1), (108371, .ofNat 1)] 0)) .nil) .nil) .nil) (.node (.node (.node (.leaf (.mult 36467 1912 (.ofNat 1) 0)) .nil) .nil) .nil)) (.node (.node (.node (.node (.leaf (.mult 36187 1833 (.ofNat 1) 0)) .nil) .nil) .nil) .nil)) (.node (.node .nil (.node (.node (.node (.leaf (.trans [(15560059, .ofNat 1)] 0)) .nil) .nil) .nil)) (.node (.node (.node (.node (.leaf (.mult 23057 1471 (.ofNat 1) 0)) .nil) .nil) .nil) (.node (.node (.node (.leaf (.mult 46901 4972 (.ofNat 1) 0)) .nil) .nil) .nil))))))

def jac261 : JTree := .node (.node (.node (.node (.node (.node (.node .nil (.node (.node (.leaf (.mult 46093 4857 (.ofNat 1) 0)) .nil) .nil)) (.node (.node (.node (.leaf (.trans [(915179, .ofNat 1)] 0)) .nil) .nil) .nil)) .nil) (.node (.node .nil (.node (.node (.node (.leaf (.mult 30103 1916 (.ofNat 1) 0)) .nil) .nil) .nil)) (.node (.node (.node (.node (.leaf (.mult 36109 1818 (.ofNat 1) 0)) .nil) .nil) .nil) (.node (.node (.node (.leaf (.mult 17657 1709 (.ofNat 1) 0)) .nil) .nil) .nil)))) (.node (.node (.node .nil (.node (.node (.node (.leaf (.mult 7309 1871 (.ofNat 1) 0)) .nil) .nil) .nil)) (.node (.node (.node (.node (.leaf (.mult 17837 1776 (.ofNat 1) 0)) .nil) .nil) .nil) .nil)) (.node (.node .nil (.node (.node (.node (.leaf (.mult 36929 2019 (.ofNat 1) 0)) .nil) .nil) .nil)) (.node .nil (.node (.node (.node (.leaf (.mult 13577 2032 (.ofNat 1) 0)) .nil) .nil) .nil))))) (.node (.node (.node (.node .nil (.node (.node (.node (.leaf (.mult 3169 1572 (.ofNat 1) 0)) .nil) .nil) .nil)) (.node (.node (.node (.node (.leaf (.mult 23671 1748 (.ofNat 1) 0)) .nil) .nil) .nil) .nil)) (.node (.node .nil (.node (.node (.node (.leaf (.trans [(1402867, .ofNat 1)] 0)) .nil) .nil) .nil)) .nil)) (.node (.node (.node .nil (.node (.node (.node (.leaf (.mult 23909 1877 (.ofNat 1) 0)) .nil) .nil) .nil)) (.node (.node (.node (.node (.leaf (.trans [(11322247, .ofNat 1)] 0)) .nil) .nil) .nil) .nil)) (.node (.node .nil (.node (.node (.node (.leaf (.trans [(2339971, .ofNat 1)] 0)) .nil) .nil) .nil)) (.node (.node (.node (.node (.leaf (.mult 35573 1601 (.ofNat 1) 0)) .nil) .nil) .nil) (.node (.node (.node (.leaf (.mult 15647 1984 (.ofNat 1) 0)) .nil) .nil) .nil)))))) (.node (.node (.node (.node (.node .nil (.node (.node (.node (.leaf (.trans [(10523861, .ofNat 1)] 0)) .nil) .nil) .nil)) (.node (.node (.node (.node (.leaf (.mult 15581 1734 (.negSucc 1) 0)) .nil) .nil) .nil) (.node (.node (.node (.leaf (.trans [(13107643, .ofNat 1)] 0)) .nil) .nil) .nil))) (.node (.node .nil (.node (.node (.node (.leaf (.mult 30169 1933 (.ofNat 1) 0)) .nil) .nil) .nil)) (.node .nil (.node (.node (.node (.leaf (.mult 15551 1706 (.ofNat 1) 0)) .nil) .nil) .nil)))) (.node (.node (.node .nil (.node (.node (.node (.leaf (.mult 29989 1886 (.ofNat 1) 0)) .nil) .nil) .nil)) (.node .nil (.node (.node (.node (.leaf (.mult 29873 1807 (.ofNat 1) 0)) .nil) .nil) .nil))) (.node (.node .nil (.node (.node (.node (.leaf (.mult 30323 2023 (.ofNat 1) 0)) .nil) .nil) .nil)) (.node .nil (.node (.node (.node (.leaf (.mult 8317 1717 (.ofNat 1) 0)) .nil) .nil) .nil))))) (.node (.node (.node (.node .nil (.node (.node (.node (.leaf (.trans [(9109543, .ofNat 1)] 0)) .nil) .nil) .nil)) (.node (.node (.node (.node (.leaf (.mult 17783 1758 (.ofNat 1) 0)) .nil) .nil) .nil) .nil)) (.node .nil (.node .nil (.node (.node (.node (.leaf (.mult 18043 1956 (.ofNat 1) 0)) .nil) .nil) .nil)))) (.node (.node (.node .nil (.node (.node (.node (.leaf (.mult 36629 1944 (.ofNat 1) 0)) .nil) .nil) .nil)) (.node (.node (.node (.node (.leaf (.trans [(4705517, .ofNat 1)] 0)) .nil) .nil) .nil) .nil)) (.node (.node .nil (.node (.node (.node (.leaf (.mult 18077 2008 (.ofNat 1) 0)) .nil) .nil) .nil)) (.node .nil (.node (.node (.node (.leaf (.mult 46877 4970 (.ofNat 1) 0)) .nil) .nil) .nil))))))

end BP.EL
