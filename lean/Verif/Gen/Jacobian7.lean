import Verif.Lemmas.JTree
import Verif.Gen.Jacobian6

/-!
# Generated by tools/gen_jacobian.py
-/

namespace BP.EL

def jac172 : JTree := .node (.node (.node (.node (.leaf (.atom 47717)) (.leaf (.adef 16633 [(44381, .ofNat 1), (1724867, .ofNat 1), (2033137, .ofNat 1), (2996689, .negSucc 0), (375966881, .ofNat 1), (401101861, .ofNat 1), (498975937, .ofNat 1), (522304031, .ofNat 1), (551829589, .ofNat 1), (638196917, .ofNat 1), (650188849, .ofNat 1), (690542603, .ofNat 1), (924229571, .ofNat 1), (1134397631, .ofNat 1), (121239253439, .ofNat 1), (150120150253, .negSucc 0), (160906380703, .ofNat 1), (206532925597, .negSucc 0), (209668496431, .ofNat 1), (258448961219, .negSucc 0), (20199191751787, .ofNat 1), (22205364086987, .negSucc 0), (26807974692299, .ofNat 1), (29470527622699, .negSucc 0), (34932037632923, .ofNat 1), (38401467913723, .negSucc 0)] 0))) (.node (.leaf (.adef 24421 [(697417687, .negSucc 0), (723152657, .negSucc 0), (3498152131, .negSucc 0), (6723324253, .ofNat 1), (7987810063, .ofNat 1), (9188720521, .ofNat 1), (9607877077, .ofNat 1), (13462415677, .negSucc 0), (14904642899, .ofNat 1), (16892394263, .negSucc 0), (29912898971, .ofNat 1), (31016695981, .ofNat 1), (123673521247, .ofNat 1), (128237119817, .ofNat 1), (149035844857, .ofNat 1), (154535322527, .ofNat 1), (169712478739, .negSucc 0), (175974931829, .negSucc 0), (183935172283, .ofNat 1), (190722448013, .ofNat 1), (267874262423, .ofNat 1), (277857618869, .ofNat 1), (313488089749, .negSucc 0), (321557056147, .ofNat 1), (325646696521, .negSucc 0), (330601666037, .ofNat 1), (342922798511, .ofNat 1), (359101713283, .negSucc 0), (372439021651, .negSucc 0), (467653084391, .ofNat 1), (477852549247, .ofNat 1), (577162163429, .ofNat 1), (655738914739, .negSucc 0), (1560978555821, .ofNat 1), (7988308628039, .negSucc 0), (8283080164129, .negSucc 0), (13039009141667, .ofNat 1), (13787405924833, .ofNat 1), (14296166291063, .ofNat 1), (15222458331889, .ofNat 1), (15737525679103, .ofNat 1), (16418607094783, .ofNat 1), (27438888002143, .ofNat 1), (28426881879229, .ofNat 1), (50376404381867, .negSucc 0), (52330248599543, .negSucc 0), (55160797332581, .ofNat 1), (57209510932757, .ofNat 1), (62082450080317, .negSucc 0), (63461128187279, .ofNat 1), (69129627517679, .ofNat 1), (71810813772491, .ofNat 1), (75695068355297, .negSucc 0), (78506440262609, .negSucc 0), (153483248389063, .ofNat 1), (189424012472197, .ofNat 1), (199666325016559, .ofNat 1), (273994518774883, .negSucc 0), (3448803300881999, .negSucc 0), (4212129284352877, .ofNat 1), (4342703170858651, .negSucc 0), (4354650959190979, .ofNat 1)] 0)) .nil)) (.node (.node (.leaf (.adef 12157 [(14691631, .ofNat 1), (57312943, .ofNat 1)] 0)) (.leaf (.trans [] 0))) (.node (.leaf (.adef 41179 [(32806001, .ofNat 1), (48103943, .ofNat 1), (6357652943, .ofNat 1), (6821467391, .negSucc 0), (7357724707, .negSucc 0), (9304613051, .ofNat 1), (22005579317, .ofNat 1), (42712175543, .ofNat 1)] 0)) .nil))) (.node (.node (.node (.leaf (.atom 22643)) (.leaf (.adef 22153 [(2480370787, .negSucc 0), (2824276289, .ofNat 1), (46755399389, .negSucc 0), (542088425261, .ofNat 1), (90195732046753, .negSucc 0), (99153921295553, .ofNat 1)] 0))) (.node (.leaf (.adef 25301 [(5835667, .ofNat 1), (1108820959, .ofNat 1)] 0)) .nil)) (.node (.node (.leaf (.adef 8363 [(4272109, .ofNat 1), (4283327, .ofNat 1), (5407301, .ofNat 1), (1069015481, .ofNat 1), (1131873943, .ofNat 1)] 0)) .nil) (.node (.leaf (.adef 20749 [(124686173, .negSucc 0), (124902793, .ofNat 1), (52404459463, .negSucc 0), (144456927847, .ofNat 1)] 0)) .nil)))

def jac173 : JTree := .node (.node (.node (.node (.node (.node (.leaf (.atom 1721)) (.leaf (.adef 21179 [(9450829, .negSucc 0), (12111881, .ofNat 2), (3810883357, .negSucc 0), (5420357989, .negSucc 0), (7185896560291, .negSucc 1)] 0))) (.node (.leaf (.adef 15731 [(4924681, .ofNat 2), (6596011, .ofNat 2), (59341987, .negSucc 1), (308746693, .negSucc 1), (661271297, .ofNat 2)] 0)) .nil)) (.node (.node (.leaf (.trans [(66013, .negSucc 0), (95861, .ofNat 1)] 0)) (.leaf (.trans [(1447, .ofNat 1)] 0))) (.node (.leaf (.adef 40507 [(928819867, .negSucc 3), (212833540841, .negSucc 3), (472398461693, .negSucc 1), (1296998294447, .ofNat 2)] 1)) .nil))) (.node (.node (.node (.leaf (.atom 10627)) (.leaf (.adef 45523 [(8374785931, .ofNat 1), (8779959619, .ofNat 1)] 0))) (.node (.leaf (.adef 19139 [(1745659, .ofNat 1), (1909541, .ofNat 1), (1921943, .ofNat 1), (2555297, .ofNat 1), (194177509, .negSucc 0), (211943701, .ofNat 1), (578633687, .ofNat 1)] 0)) .nil)) (.node (.node (.leaf (.adef 23537 [(10462684885277, .ofNat 1), (10492442332343, .negSucc 0)] 0)) .nil) (.node (.leaf (.adef 33073 [(2492669, .ofNat 1), (55795577749, .negSucc 0)] 0)) .nil)))) (.node (.node (.node (.node (.leaf (.atom 48079)) (.leaf (.adef 21491 [(275920687, .negSucc 0), (539061383, .negSucc 0), (662782127, .ofNat 1), (114187023671, .ofNat 1), (136925563607, .negSucc 0)] 0))) (.node (.leaf (.adef 37991 [(4019, .ofNat 1), (1533647, .negSucc 0), (1606027, .ofNat 1), (1813403, .negSucc 0), (9440411069, .negSucc 0)] 0)) .nil)) (.node (.node (.leaf (.adef 6977 [(14823143, .ofNat 1), (55409969, .ofNat 1)] 0)) .nil) (.node (.leaf (.adef 20149 [(1416193, .ofNat 1), (1915787, .ofNat 1), (1928923, .ofNat 1), (2560853, .ofNat 1), (128635537, .negSucc 0), (140404993, .ofNat 1), (42756096199, .ofNat 1)] 0)) .nil))) (.node (.node (.node (.leaf (.atom 10859)) (.leaf (.adef 46919 [(23830381, .negSucc 0), (23992301, .ofNat 1), (24164923, .negSucc 0), (30082589, .negSucc 0), (30110753, .ofNat 1), (30656533, .negSucc 0)] 0))) (.node (.leaf (.adef 39769 [(79367177, .ofNat 1), (58922211419, .ofNat 1)] 0)) .nil)) (.node (.node (.leaf (.adef 36389 [(13138393, .ofNat 1), (13140581, .ofNat 1), (218134646623, .negSucc 0)] 0)) .nil) (.node (.leaf (.adef 42967 [(116467677, .ofNat 2), (156983031, .ofNat 1), (261486638019, .negSucc 1)] 0)) .nil))))) (.node jac172 (.node (.node (.node (.node (.leaf (.atom 22367)) (.leaf (.adef 21751 [(544934887, .negSucc 0), (671580847, .ofNat 1), (116868463747, .ofNat 1), (139982171707, .negSucc 0)] 0))) (.node (.leaf (.adef 18757 [(42026220893, .ofNat 1), (45933560483, .ofNat 1)] 0)) .nil)) (.node (.node (.leaf (.adef 5021 [(290195479, .ofNat 1), (355316339, .ofNat 1), (372502193, .ofNat 1), (505767983, .negSucc 0), (93235765301, .negSucc 0), (108642306661, .negSucc 0), (111947666971, .ofNat 1), (172136847617, .ofNat 1), (541988063953, .negSucc 0), (757446686017, .negSucc 0), (993309904937, .ofNat 1), (149647700181959, .ofNat 1), (180049959554843, .negSucc 0)] 0)) .nil) (.node (.leaf (.adef 32771 [(125187, .ofNat 8), (506247057, .negSucc 3), (690808527, .negSucc 3), (742345101, .negSucc 3), (1370253185757, .ofNat 6)] 1)) .nil))) (.node (.node (.node (.leaf (.atom 3089)) (.leaf (.atom 49223))) (.node (.leaf (.adef 19609 [(28217549, .ofNat 1), (31060369, .negSucc 0), (41274097, .ofNat 1), (9200413291, .negSucc 0)] 0)) .nil)) (.node (.node (.leaf (.adef 36979 [(17857627, .ofNat 1), (20260043, .negSucc 0), (21978391, .ofNat 1), (22141997, .ofNat 1), (25919251, .ofNat 1), (29890321, .negSucc 0), (68334319, .ofNat 1)] 0)) .nil) (.node (.leaf (.adef 10333 [(293693, .negSucc 0), (275894209, .negSucc 0), (474849541, .ofNat 1)] 0)) .nil)))))

def jac174 : JTree := .node (.node (.node (.node (.leaf (.atom 9521)) (.leaf (.adef 3571 [(3881971, .ofNat 2), (5103253, .ofNat 2)] 0))) (.node (.leaf (.adef 37591 [(8493097, .ofNat 1), (13440337, .negSucc 0), (13452371, .negSucc 0), (17207447, .ofNat 1), (17210251, .ofNat 1), (27991463, .negSucc 0), (28040317, .negSucc 0), (34403857, .ofNat 1), (34413101, .ofNat 1), (1159632403, .ofNat 1), (1697705963, .ofNat 1), (1697903497, .negSucc 0), (268075434227, .negSucc 0), (275093725057, .ofNat 1)] 0)) .nil)) (.node (.node (.leaf (.adef 10957 [(718261, .ofNat 1), (24849947, .ofNat 1), (30668993, .ofNat 1), (296787431, .ofNat 1), (349611949, .negSucc 0), (371860171, .ofNat 1), (11189840749, .negSucc 0), (1798167014867, .negSucc 0), (2467556338679, .ofNat 1)] 0)) (.leaf (.trans [] 0))) (.node (.leaf (.adef 32479 [(8689547, .ofNat 1), (8718889, .ofNat 1), (24534527, .ofNat 1), (25759339, .ofNat 1), (25805551, .ofNat 1), (31120273, .ofNat 1), (31161563, .ofNat 1), (34404287, .ofNat 1), (37368047, .ofNat 1), (974391947, .ofNat 1), (1000242301, .ofNat 1), (1089092903, .negSucc 0), (2341618787, .negSucc 0), (2555864243, .ofNat 1), (27891049271, .ofNat 1), (28080350359, .ofNat 1), (30531777877, .negSucc 0), (31138812961, .negSucc 0), (33265198781, .negSucc 0), (34198202147, .negSucc 0), (34580913469, .ofNat 1), (35882788717, .ofNat 1), (36387754547, .ofNat 1), (41204988217, .ofNat 1), (42360682279, .ofNat 1), (46498497761, .ofNat 1), (68407618627, .ofNat 1), (84815666753, .ofNat 1), (87047296727, .ofNat 1), (109971957961, .negSucc 0), (123811604171, .ofNat 1), (143263349737, .negSucc 0), (146646107087, .ofNat 1), (148749815213, .ofNat 1), (150093739427, .negSucc 0), (150189957977, .ofNat 1), (162402112819, .ofNat 1), (192756560929, .ofNat 1), (194622761341, .ofNat 1), (333879275909, .ofNat 1), (367522226803, .ofNat 1), (503756245163, .ofNat 1), (11244169715173, .ofNat 1), (11659083726803, .ofNat 1), (13927945648961, .negSucc 0), (14307976177073, .ofNat 1), (14441891982871, .negSucc 0), (17723026207261, .negSucc 0), (19119316005199, .ofNat 1), (23069280362059, .ofNat 1), (24328938894899, .ofNat 1), (24431831079637, .ofNat 1), (30052955698603, .ofNat 1), (36688614044833, .negSucc 0), (37608496447931, .ofNat 1), (49222693641041, .ofNat 1), (3121458762238169, .ofNat 1), (3236641742394559, .ofNat 1), (3971992484918869, .ofNat 1), (5099796337407341, .negSucc 0)] 0)) .nil))) (.node (.node (.node (.leaf (.atom 9643)) (.leaf (.adef 46307 [(23330023, .negSucc 0), (24853837, .negSucc 0), (25211077, .ofNat 1), (26075897, .ofNat 1), (26498081, .negSucc 0), (32501933, .negSucc 0)] 0))) (.node (.leaf (.adef 15937 [(12051359, .ofNat 1), (63282829, .ofNat 1), (75967471, .ofNat 1), (95279629, .ofNat 1)] 0)) .nil)) (.node (.node (.leaf (.adef 36137 [(6469237, .negSucc 0), (7597939, .ofNat 1)] 0)) .nil) (.node (.leaf (.adef 42709 [(13537343, .ofNat 1), (14209033, .ofNat 1), (15374899, .ofNat 1), (23523911, .ofNat 1), (24681751, .ofNat 1), (28239389, .ofNat 1), (30726277, .ofNat 1), (31899761, .ofNat 1), (35715913, .ofNat 1), (37778333, .ofNat 1), (37789459, .ofNat 1), (39496739, .ofNat 1), (65688809, .ofNat 1), (67653581, .ofNat 1), (792328391, .ofNat 1), (821565601, .ofNat 1), (1139722039, .negSucc 0), (1141018897, .negSucc 0), (1218447929, .ofNat 1), (1219834367, .ofNat 1), (1741299389, .negSucc 0), (1805553979, .negSucc 0), (2342324273, .ofNat 1), (2421129439, .ofNat 1), (2553027857, .ofNat 1), (2699842213, .negSucc 0), (2848305121, .negSucc 0), (2886332843, .ofNat 1), (2917760971, .negSucc 0), (2993371327, .ofNat 1), (3132581953, .negSucc 0), (3251591219, .negSucc 0), (4329209119, .ofNat 1), (4809932839, .ofNat 1), (5124075317, .negSucc 0), (5165902909, .ofNat 1), (5254545731, .negSucc 0), (6818042411, .negSucc 0), (7638253393, .ofNat 1), (7639528573, .negSucc 0), (8940116357, .negSucc 0), (9505315487, .ofNat 1), (9654147467, .ofNat 1), (9989663249, .ofNat 1), (10345059859, .ofNat 1), (10670558477, .ofNat 1), (10850069861, .ofNat 1), (10865189333, .ofNat 1), (11597835443, .ofNat 1), (12170003477, .ofNat 1), (12497204221, .negSucc 0), (12832804643, .ofNat 1), (14776800751, .ofNat 1), (16161507101, .ofNat 1), (17836155487, .ofNat 1), (20083577179, .ofNat 1), (22152293221, .ofNat 1), (23605564711, .ofNat 1), (25511783221, .ofNat 1), (33177019163, .ofNat 1), (48489336461, .ofNat 1), (58645336733, .ofNat 1), (338432659813, .ofNat 1), (355513929107, .ofNat 1), (361083058781, .ofNat 1), (367288376513, .ofNat 1), (374545815751, .ofNat 1), (374597235407, .ofNat 1), (396289769999, .ofNat 1), (411606634841, .negSucc 0), (425238845219, .negSucc 0), (432506923939, .ofNat 1), (438576688373, .ofNat 1), (449049833753, .ofNat 1), (1163259363271, .negSucc 0), (1243611085481, .ofNat 1), (2231188784339, .ofNat 1), (2928055949251, .ofNat 1), (3543756439073, .negSucc 0), (4147061510857, .negSucc 0), (4650577843057, .negSucc 0), (5037065736503, .negSucc 0), (5442313180313, .negSucc 0), (5643025099189, .ofNat 1), (30506012734591, .negSucc 0)] 0)) .nil)))

def jac175 : JTree := .node (.node (.node (.node (.leaf (.atom 1163)) (.leaf (.adef 27253 [(26550439, .negSucc 0), (101701169, .ofNat 1), (44038903081, .ofNat 1), (73525222801, .negSucc 0)] 0))) (.node (.leaf (.adef 18401 [(1847819, .ofNat 1), (1900519, .ofNat 1), (1912171, .ofNat 1), (2538629, .ofNat 1), (142572623, .negSucc 0), (155617247, .ofNat 1), (575478077, .ofNat 1)] 0)) .nil)) (.node (.node (.leaf (.adef 15083 [(21223831, .ofNat 1), (5613679507, .negSucc 0)] 0)) (.leaf (.trans [] 0))) (.node (.leaf (.adef 19793 [(7090367, .ofNat 1), (11748053, .ofNat 1), (25522961, .ofNat 1), (65750719, .ofNat 1), (78759697, .ofNat 1), (98788133, .ofNat 1), (114109939, .ofNat 1), (114225053, .ofNat 1), (155006477, .ofNat 1), (162454949, .ofNat 1), (164897441, .ofNat 1), (283526149, .ofNat 1)] 0)) .nil))) (.node (.node (.node (.leaf (.atom 5939)) (.leaf (.adef 28411 [(3922040593, .ofNat 4), (3986804477, .negSucc 3), (4168911569, .negSucc 3), (4248636229, .negSucc 3), (279320345449, .negSucc 3), (292078988653, .negSucc 3), (696636250273, .ofNat 2), (803302540583, .negSucc 1), (44288815267363, .ofNat 4), (47976827527039, .negSucc 3), (48301666453399, .negSucc 3), (52323836316547, .ofNat 4), (119656150269703, .ofNat 2), (121807179584393, .ofNat 2), (130497766186219, .negSucc 1), (132843692575589, .negSucc 1)] 1))) (.node (.leaf (.adef 11279 [(38867, .ofNat 1), (10666627, .ofNat 1), (3752013469, .negSucc 0), (4024443887, .negSucc 0), (4088128417, .negSucc 0), (4139183537, .negSucc 0), (5041841851, .negSucc 0), (5041975817, .negSucc 0), (7659904379, .negSucc 0), (7783543979, .negSucc 0), (8105468113, .negSucc 0), (8134924411, .negSucc 0), (10543312361, .ofNat 1), (11354934863, .negSucc 0), (11795830903, .negSucc 0), (12814330729, .negSucc 0), (1273062124363, .negSucc 0), (220475687487317, .negSucc 1), (467246389584281, .ofNat 2), (767344326631277, .negSucc 0)] 0)) .nil)) (.node (.node (.leaf (.adef 13411 [(338864633, .ofNat 1), (351368863, .ofNat 1), (486414547, .ofNat 1), (531869749, .ofNat 1), (551495939, .ofNat 1), (763458791, .ofNat 1), (5411673049, .ofNat 1), (6809768099, .ofNat 1), (6831511339, .ofNat 1), (7118687911, .ofNat 1), (7145017721, .ofNat 1), (11923877237, .ofNat 1), (12363872707, .ofNat 1), (12441653089, .negSucc 0), (12900754679, .negSucc 0), (17115823783, .ofNat 1), (17859051851, .negSucc 0), (2089523950351, .ofNat 1), (2166628155161, .ofNat 1), (2181025214191, .ofNat 1), (2261505849401, .ofNat 1), (2578822216669, .ofNat 2), (2673981708059, .ofNat 2), (2992938112867, .negSucc 1), (2999353567109, .ofNat 1), (3103378633637, .negSucc 1), (3130696709669, .ofNat 1), (3182698156711, .ofNat 1), (3300140893121, .ofNat 1), (3701704215071, .ofNat 2), (4107095364679, .ofNat 1), (4258648699169, .ofNat 1), (4296136257953, .negSucc 1), (4568522446349, .ofNat 1), (5895424711661, .ofNat 1), (552217053341356537, .ofNat 1), (681528252088694203, .ofNat 2), (718379046634764241, .ofNat 2), (841119910340669857, .ofNat 1), (886599957440080579, .ofNat 2), (934539148186830313, .ofNat 1), (985804297065754717, .negSucc 1), (1216647467541059623, .negSucc 1), (1282432599300376981, .negSucc 1), (1759833576730518097, .ofNat 1)] 0)) .nil) (.node (.leaf (.adef 42487 [(42473, .ofNat 1), (11474933, .negSucc 0), (13543217, .ofNat 1), (18466463, .ofNat 1), (22959029, .negSucc 0), (26775797, .negSucc 0), (30571613, .negSucc 0)] 0)) .nil)))

def jac176 : JTree := .node (.node (.node (.node (.node (.node (.leaf (.trans [(66013, .ofNat 1), (95861, .negSucc 0)] 0)) (.leaf (.adef 27077 [(10745599, .negSucc 0), (18613823, .ofNat 1), (20401841, .negSucc 0)] 0))) (.node (.leaf (.adef 18127 [(3426158017, .negSucc 0), (3757168853, .negSucc 0), (3836388791, .ofNat 1), (4056174799, .negSucc 0), (1278113003353, .ofNat 1), (2567268757423, .ofNat 1), (4767278313557, .ofNat 1)] 0)) .nil)) (.node (.node (.leaf (.adef 10883 [(714383, .ofNat 1), (8133343, .negSucc 0), (10421767, .ofNat 1)] 0)) .nil) (.node (.leaf (.adef 40177 [(23334593, .negSucc 0), (26115431, .negSucc 0)] 0)) .nil))) (.node (.node (.node (.leaf (.atom 1123)) (.leaf (.adef 21863 [(12777257, .negSucc 0), (391223647, .negSucc 0), (467306027, .ofNat 1), (544016647, .ofNat 1), (678600019, .negSucc 0), (702130081, .negSucc 0), (1023583969, .negSucc 0)] 0))) (.node (.leaf (.adef 31159 [(25694113, .ofNat 1), (25809523, .ofNat 1), (30801139, .ofNat 1), (30923869, .ofNat 1), (34286639, .ofNat 1), (37342967, .ofNat 1), (880518277, .ofNat 1), (1012611319, .ofNat 1), (1085030071, .ofNat 1), (1261673291, .ofNat 1), (1569658763, .ofNat 1), (1820783329, .ofNat 2), (3281444053, .ofNat 2), (3470058149, .ofNat 1), (3573750041, .ofNat 1), (122393936129, .ofNat 1), (149533818739, .ofNat 1), (447999907571, .negSucc 0), (488989476419, .ofNat 1)] 0)) .nil)) (.node (.node (.leaf (.adef 2999 [(293654851, .negSucc 0), (357397411, .negSucc 0), (59420094517, .negSucc 0), (68972242843, .negSucc 0), (71117619979, .negSucc 0), (109585842149, .negSucc 0), (546615276739, .ofNat 1), (95004771484217, .ofNat 1), (114623491250471, .ofNat 1)] 0)) .nil) (.node (.leaf (.adef 20341 [(41551517543, .negSucc 0), (45662985913, .ofNat 1), (47175321667, .ofNat 1), (48655000789, .negSucc 0), (179048714959, .negSucc 0), (179432557147, .negSucc 0), (6677178874969, .negSucc 0), (7014187396991, .negSucc 0), (7246493852069, .negSucc 0), (7818682990187, .negSucc 0), (9162839114053, .ofNat 1), (9625303116467, .ofNat 1), (9944088446753, .ofNat 1), (10257932818157, .negSucc 0), (10729281881519, .ofNat 1), (12660005664983, .negSucc 0), (13363277731469, .negSucc 0), (14466841468621, .negSucc 0), (15000673257131, .negSucc 0), (16492520937911, .negSucc 0), (18408760124921, .negSucc 0), (28772482157297, .negSucc 0), (28834164211301, .negSucc 0), (39483385102589, .ofNat 1), (39568029043937, .ofNat 1), (2222218610425547, .ofNat 1), (2304219297157117, .ofNat 1), (2827727768579647, .ofNat 1), (3049466246877839, .negSucc 0), (3161992676651929, .negSucc 0), (3880383480359539, .negSucc 0)] 0)) .nil)))) jac174) (.node jac175 (.node (.node (.node (.node (.leaf (.atom 7159)) (.leaf (.adef 27799 [(184535479, .negSucc 0), (31627033973, .ofNat 1), (43979020973, .negSucc 0)] 0))) (.node (.leaf (.adef 38281 [(3584431, .negSucc 0), (4113199, .ofNat 1), (215130319, .negSucc 0), (4966376955121, .ofNat 1), (7211941000937, .negSucc 0)] 0)) .nil)) (.node (.node (.leaf (.adef 1873 [(11176780367, .negSucc 0), (17601567047, .ofNat 1), (17821694927, .negSucc 0), (44648181167, .negSucc 0), (59896852801, .ofNat 1), (60514178059, .negSucc 0)] 0)) .nil) (.node (.leaf (.adef 14149 [(26177, .ofNat 1), (12372103, .negSucc 0), (845090243, .ofNat 1), (1033917887, .negSucc 0), (1237443271, .ofNat 1), (2604563617, .negSucc 0), (2822395019, .negSucc 0), (3456726209, .negSucc 0), (4504274993, .negSucc 0), (346035160519, .negSucc 0), (373026632431, .negSucc 0), (968368212377, .negSucc 0)] 0)) .nil))) (.node (.node (.node (.leaf (.atom 6163)) (.leaf (.adef 47417 [(26392301, .negSucc 0), (27928147, .ofNat 1), (27949753, .negSucc 0), (9635857387, .negSucc 0), (10053314479, .negSucc 0), (1500467261969, .ofNat 1), (1565472447773, .ofNat 1), (1649492824369, .negSucc 0), (1720954288573, .negSucc 0)] 0))) (.node (.leaf (.adef 16007 [(34741901, .ofNat 1), (35248937, .negSucc 0), (35372473, .negSucc 0), (35488603, .ofNat 1)] 0)) .nil)) (.node (.node (.leaf (.adef 17977 [(295336069, .ofNat 1), (296819257, .ofNat 1), (444335429363, .negSucc 0)] 0)) .nil) (.node (.leaf (.adef 43271 [(2391797, .ofNat 1), (2631677, .negSucc 0)] 0)) .nil)))))

def jac177 : JTree := .node (.node (.node (.node (.node (.leaf (.atom 47657)) (.leaf (.adef 27367 [(4706573, .ofNat 1), (4787539, .negSucc 0), (5926969, .negSucc 0)] 0))) (.node (.leaf (.adef 13693 [(24379, .ofNat 1), (13452473, .ofNat 1), (1189998701, .negSucc 0), (1191511187, .negSucc 0), (2051306269, .negSucc 0), (2675332441, .negSucc 0), (2696161441, .ofNat 1), (2991580387, .negSucc 0), (3224929963, .negSucc 0), (3315944839, .negSucc 0), (3680680009, .negSucc 0), (3811865381, .negSucc 0), (4605889943, .negSucc 0), (8371841021, .negSucc 0), (413381685307, .negSucc 0), (600011007797, .negSucc 0), (600677599297, .negSucc 1), (35198613575471, .negSucc 0)] 0)) .nil)) (.node (.node (.leaf (.adef 29167 [(153103, .negSucc 1), (972547, .negSucc 1), (2343443, .ofNat 2), (37955371, .negSucc 1)] 0)) (.leaf (.trans [(46471, .negSucc 0)] 0))) (.node (.leaf (.adef 32423 [(19990843, .ofNat 1), (21600457, .negSucc 0), (22119011, .negSucc 0), (22396519, .ofNat 1)] 0)) .nil))) (.node (.node (.node (.leaf (.atom 2837)) (.leaf (.adef 14683 [(35279, .ofNat 1), (38151409, .ofNat 1), (133555789, .ofNat 1), (186700691, .negSucc 0), (212124223, .negSucc 0), (248237207, .negSucc 0), (13759827031, .negSucc 0), (17223802979, .ofNat 1), (18934461379, .negSucc 0), (22205291261, .ofNat 1), (71852503391, .ofNat 1)] 0))) (.node (.leaf (.adef 31333 [(2655599, .negSucc 0), (81087707, .negSucc 0), (234466927, .negSucc 0)] 0)) .nil)) (.node (.node (.leaf (.adef 7621 [(11496080053, .ofNat 1)] 0)) .nil) (.node (.leaf (.adef 20707 [(753377, .ofNat 1), (1332581, .ofNat 1), (65730311, .negSucc 0), (71744279, .ofNat 1), (75001621, .negSucc 0), (80182331, .ofNat 1), (99154691, .negSucc 0), (108138743, .ofNat 1), (13195603963, .negSucc 0), (2261558682881, .ofNat 1), (3144813921881, .negSucc 0)] 0)) .nil)))) (.node (.node (.node (.node (.leaf (.atom 1801)) (.leaf (.adef 34369 [(34860173, .ofNat 1), (43023287, .ofNat 1)] 0))) (.node (.leaf (.adef 10253 [(1443187, .ofNat 1), (2029099, .negSucc 0)] 0)) .nil)) (.node (.node (.leaf (.adef 4987 [(289669513, .ofNat 1), (351988931, .ofNat 1), (371408821, .ofNat 1), (504843017, .negSucc 0), (16328004049, .ofNat 1), (92670667747, .negSucc 0), (108548877703, .negSucc 0), (111258797503, .ofNat 1), (117586193641, .negSucc 0), (171447861781, .ofNat 1), (540251850187, .negSucc 0), (755020268443, .negSucc 0), (990127919123, .ofNat 1), (149168316198461, .ofNat 1), (179473184457497, .negSucc 0), (3226232864171387, .ofNat 1), (3881670723988799, .negSucc 0)] 0)) .nil) (.node (.leaf (.adef 41659 [(9061501, .ofNat 1), (9062609, .negSucc 0), (14407433, .negSucc 0), (14411809, .negSucc 0), (18448217, .ofNat 1), (18451021, .ofNat 1), (27706853, .negSucc 0), (28885867, .negSucc 0), (35494649, .ofNat 1), (35499271, .ofNat 1), (35802541, .ofNat 1), (951277049, .negSucc 0), (952021339, .negSucc 0), (971152139, .negSucc 0), (971608901, .negSucc 0), (1047046513, .ofNat 1), (1726743461, .negSucc 0), (41060701211, .negSucc 0)] 0)) .nil))) (.node (.node (.node (.leaf (.atom 3617)) (.leaf (.atom 2801))) (.node (.leaf (.adef 40099 [(11352577141, .ofNat 1)] 0)) .nil)) (.node (.node (.leaf (.adef 36901 [(73987201, .ofNat 1), (56487688739, .ofNat 1)] 0)) .nil) (.node (.leaf (.adef 14389 [(43649, .ofNat 1), (9072197, .ofNat 1), (11127383, .ofNat 1), (11796931, .ofNat 1), (14861167, .negSucc 0), (17706079, .negSucc 0), (19936297, .ofNat 1), (22957489, .negSucc 0), (25207187, .ofNat 1), (29884697, .ofNat 1), (44275687, .negSucc 0)] 0)) .nil))))

def jac178 : JTree := .node (.node (.node (.node (.node (.leaf (.atom 2131)) (.leaf (.adef 43933 [(28973717, .ofNat 1), (29134697, .ofNat 1), (32421041, .ofNat 1), (32765207, .ofNat 1), (32789359, .ofNat 1), (36194351, .ofNat 1), (68631281, .ofNat 1), (4817630579, .ofNat 1), (7651754753, .negSucc 0), (8954423977, .negSucc 0), (10152555899, .ofNat 1), (10379546417, .ofNat 1), (10959306389, .ofNat 1), (12947503267, .ofNat 1), (14413329251, .ofNat 1), (16310069047, .ofNat 1), (59236180397, .ofNat 1), (2975801181601, .ofNat 1), (3640696069247, .ofNat 1), (4003962036619, .ofNat 1), (4025787923173, .negSucc 0), (4726410724507, .negSucc 0), (5531056193363, .negSucc 0), (19901305085191, .ofNat 1), (1881063606967859, .ofNat 1), (2987659007739713, .negSucc 0), (3496291545872617, .negSucc 0)] 0))) (.node (.leaf (.adef 4259 [(1486717, .negSucc 0), (1891817, .negSucc 0), (62907154363, .ofNat 2), (91350835811, .negSucc 1), (2645897617019, .negSucc 1), (3664938713707, .negSucc 1), (3842249124643, .ofNat 2), (5322053080979, .ofNat 2)] 0)) .nil)) (.node (.node (.leaf (.adef 28867 [(14616989, .ofNat 1), (10348384873, .negSucc 0), (14333962169, .negSucc 0)] 0)) .nil) (.node (.leaf (.adef 40343 [(21333461621, .ofNat 1), (22365578429, .ofNat 1)] 0)) .nil))) (.node (.node (.node (.leaf (.atom 10597)) (.leaf (.adef 45341 [(15839154451, .negSucc 0), (29313969473, .ofNat 1)] 0))) (.node (.leaf (.adef 31219 [(7634059, .ofNat 1), (15420323, .ofNat 1)] 0)) .nil)) (.node (.node (.leaf (.adef 23369 [(28496051, .ofNat 1), (28499087, .negSucc 0), (34969601, .ofNat 1), (9694475737, .negSucc 0), (9799954163, .ofNat 1)] 0)) .nil) (.node (.leaf (.adef 42083 [(42073, .ofNat 1), (11504267, .ofNat 1), (13616243, .ofNat 1), (18208877, .negSucc 0), (22449893, .negSucc 0), (22632167, .ofNat 1), (24616307, .negSucc 0), (26545609, .negSucc 0), (30462407, .ofNat 1)] 0)) .nil)))) (.node (.node (.node (.node (.leaf (.atom 9941)) (.leaf (.adef 21419 [(35393, .ofNat 1), (4701559, .ofNat 1), (4892663, .ofNat 1), (11904923, .negSucc 0), (13044907, .ofNat 1), (15475613, .ofNat 1), (71993029, .ofNat 1), (86232667, .negSucc 0), (108179681, .ofNat 1), (124764943, .ofNat 1), (124870847, .ofNat 1), (169693663, .ofNat 1), (310279799, .ofNat 1)] 0))) (.node (.leaf (.adef 37717 [(52178877, .negSucc 1), (61539129, .negSucc 1), (115296759, .negSucc 3), (144219573, .negSucc 1), (169219023, .negSucc 3), (228489669, .negSucc 1), (236315943, .ofNat 2), (103350463893, .ofNat 3), (260470944351, .ofNat 4), (284544681219, .ofNat 4), (343810925973, .ofNat 4), (354609474669, .negSucc 1), (414279156609, .ofNat 2), (515913612501159, .negSucc 7)] 0)) .nil)) (.node (.node (.leaf (.adef 15289 [(128081, .ofNat 1), (165973, .ofNat 1), (87207641, .ofNat 1)] 0)) (.leaf (.trans [(47363, .ofNat 1)] 0))) (.node (.leaf (.adef 32561 [(7671047, .ofNat 1), (2008151693, .negSucc 0)] 0)) .nil))) (.node (.node (.node (.leaf (.atom 7577)) (.leaf (.adef 46549 [(43445887, .negSucc 0), (49927153, .ofNat 1), (49962953, .negSucc 0), (61620659, .ofNat 1), (62434241, .negSucc 0)] 0))) (.node (.leaf (.adef 31601 [(1892339, .ofNat 1), (2258353, .negSucc 0), (2482927, .ofNat 1), (2807681, .ofNat 1), (100745731, .ofNat 1), (331661567, .negSucc 0), (455126579, .ofNat 1)] 0)) .nil)) (.node (.node (.leaf (.adef 36263 [(5991119, .ofNat 1), (9316507, .ofNat 1)] 0)) .nil) (.node (.leaf (.adef 33343 [(42797, .negSucc 0), (142426259, .negSucc 0), (1327559267, .negSucc 0)] 0)) .nil))))

def jac179 : JTree := .node (.node (.node (.node (.node (.leaf (.atom 47599)) (.leaf (.adef 27277 [(6601597, .ofNat 1), (7042687, .negSucc 0), (258183181, .negSucc 0), (319216069, .negSucc 0)] 0))) (.node (.leaf (.adef 37321 [(16722053, .ofNat 1), (26449307, .ofNat 1), (407727899, .ofNat 1), (544751651, .negSucc 1)] 0)) .nil)) (.node (.node (.leaf (.adef 6481 [(21622897, .ofNat 1), (6183635749, .ofNat 1)] 0)) (.leaf (.trans [] 0))) (.node (.leaf (.adef 13997 [(40903, .ofNat 1), (7841147, .negSucc 0), (10932347, .negSucc 0), (14621021, .ofNat 1), (19617497, .negSucc 0), (22414037, .ofNat 1), (24543317, .negSucc 0), (29153749, .negSucc 0), (43575361, .ofNat 1)] 0)) .nil))) (.node (.node (.node (.leaf (.adef 8167 [(895877, .negSucc 0), (1098983, .ofNat 1)] 0)) (.leaf (.adef 34739 [(137463, .ofNat 2), (692182233, .negSucc 0)] 0))) (.node (.leaf (.adef 25147 [(706309739, .ofNat 1), (732372829, .ofNat 1), (752618761, .ofNat 1), (779190311, .ofNat 1), (780390671, .ofNat 1), (807942721, .ofNat 1), (1294511987, .ofNat 1), (1342279957, .ofNat 1), (1638141613, .ofNat 1), (1698589643, .ofNat 1), (2327729297, .ofNat 1), (2416189459, .ofNat 1), (3031275887, .ofNat 1), (3260133523, .ofNat 1), (3377521369, .ofNat 1), (3571720589, .ofNat 1), (4094377099, .ofNat 1), (5849100083, .ofNat 1), (6004433627, .negSucc 0), (7540092419, .ofNat 1), (7818401849, .negSucc 0), (8023959553, .ofNat 1), (9291959123, .ofNat 1), (9726198451, .ofNat 1), (13557209059, .ofNat 1), (14983604021, .ofNat 1), (16961876249, .ofNat 1), (319841373641, .negSucc 0), (320483392153, .ofNat 1), (324929116801, .ofNat 1), (332664996919, .negSucc 0), (333332756327, .ofNat 1), (351550009939, .ofNat 1), (365271268031, .ofNat 1), (368511516203, .ofNat 1), (382894794487, .ofNat 1), (396845899523, .negSucc 0), (409147922549, .ofNat 1), (410273583821, .negSucc 0)] 0)) .nil)) (.node (.node (.leaf (.adef 13463 [(10488217477, .ofNat 1), (10995639373, .ofNat 1)] 0)) .nil) (.node (.leaf (.adef 20593 [(6086477, .negSucc 0), (9220831, .ofNat 1), (2797027517, .negSucc 0), (3116042401, .ofNat 1)] 0)) .nil)))) (.node (.node (.node (.node (.leaf (.atom 8069)) (.leaf (.adef 45077 [(271025719901, .ofNat 1), (792544642067, .ofNat 1)] 0))) (.node (.leaf (.adef 31091 [(1485359, .ofNat 1), (8460142651, .negSucc 0)] 0)) .nil)) (.node (.node (.leaf (.adef 29387 [(57657192179, .ofNat 1), (60446657771, .ofNat 1)] 0)) .nil) (.node (.leaf (.adef 20261 [(7961731, .ofNat 1), (11743201, .negSucc 0), (116501993, .negSucc 0), (116596391, .negSucc 0), (162714481, .ofNat 1), (163949593, .ofNat 1), (16843515389, .ofNat 1), (25305470357, .negSucc 0), (39719904883, .negSucc 0)] 0)) .nil))) (.node (.node (.node (.leaf (.atom 3943)) (.leaf (.atom 49171))) (.node (.leaf (.adef 31957 [(19845289, .ofNat 1), (21452329, .negSucc 0), (22472491, .negSucc 0), (22555297, .ofNat 1)] 0)) .nil)) (.node (.node (.leaf (.adef 15643 [(33642823, .negSucc 0), (34044481, .ofNat 1), (34388989, .ofNat 1), (34532887, .negSucc 0)] 0)) .nil) (.node (.leaf (.adef 33613 [(2568383, .ofNat 1), (3051809, .negSucc 0)] 0)) .nil))))

def jac180 : JTree := .node (.node (.node (.node (.node (.leaf (.atom 761)) (.leaf (.adef 44129 [(13305419, .negSucc 0), (13343471, .ofNat 1), (13400957, .negSucc 0), (14198929, .ofNat 2)] 0))) (.node (.leaf (.adef 24229 [(10582459, .ofNat 1), (10647641, .ofNat 1), (1220593613, .ofNat 1), (3162399689, .ofNat 1), (3209991679, .ofNat 1), (54906262557781, .negSucc 0), (60359521595381, .ofNat 1)] 0)) .nil)) (.node (.node (.leaf (.adef 29027 [(50375671, .ofNat 1), (51505981, .ofNat 1), (69656933, .ofNat 1), (72087529, .ofNat 1)] 0)) (.leaf (.trans [] 0))) (.node (.leaf (.adef 40577 [(2476657, .negSucc 1), (5182493, .ofNat 2), (92933521, .negSucc 1), (23038910197, .negSucc 1)] 0)) .nil))) (.node (.node (.node (.leaf (.atom 28619)) (.leaf (.adef 45569 [(9561763, .ofNat 1), (15467519, .negSucc 0), (19788529, .ofNat 1), (34101503, .ofNat 1), (88083467, .ofNat 1), (858553043, .ofNat 1), (860276419, .negSucc 0)] 0))) (.node (.leaf (.adef 4513 [(8219299463, .negSucc 0), (8616950687, .negSucc 0), (10243899599, .ofNat 1), (10739501351, .ofNat 1)] 0)) .nil)) (.node (.node (.leaf (.adef 35897 [(66901889, .ofNat 1), (76569877, .ofNat 1), (102388999, .negSucc 0), (102899857, .negSucc 0)] 0)) .nil) (.node (.leaf (.adef 42409 [(27619547, .ofNat 1), (27809941, .ofNat 1), (31243019, .ofNat 1), (31400833, .ofNat 1), (34622641, .ofNat 1), (37494649, .ofNat 1), (1040873737, .ofNat 1), (1274550527, .ofNat 1), (1277442239, .ofNat 1), (1298789993, .ofNat 1), (1797023737, .ofNat 1), (2077793953, .ofNat 1), (3747682153, .ofNat 1), (3758198027, .ofNat 1), (4088078263, .ofNat 1), (50952099959, .negSucc 0), (51957384163, .negSucc 0), (161044022681, .ofNat 1), (196925232083, .ofNat 1), (509597503507, .negSucc 0), (555770311111, .ofNat 1)] 0)) .nil)))) (.node (.node (.node (.node (.leaf (.atom 48163)) (.leaf (.adef 27733 [(26355937, .negSucc 0), (33508169, .ofNat 1), (929960987, .negSucc 0), (1355714903, .negSucc 0)] 0))) (.node (.leaf (.adef 30911 [(4391, .ofNat 1), (1785359, .ofNat 1), (1884079, .negSucc 0), (2600797, .negSucc 0), (2986219, .negSucc 0)] 0)) .nil)) (.node (.node (.leaf (.adef 4243 [(1514609, .negSucc 0), (1804729, .ofNat 1)] 0)) .nil) (.node (.leaf (.adef 41389 [(5479907, .ofNat 1), (8266721, .negSucc 0)] 0)) .nil))) (.node (.node (.node (.leaf (.atom 48751)) (.leaf (.adef 47137 [(806063791, .negSucc 0), (806956397, .ofNat 1), (861339973, .negSucc 0), (862292639, .ofNat 1), (906055553, .ofNat 1), (906419449, .negSucc 0), (1194876293, .negSucc 0), (1208657827, .ofNat 1), (1212230513, .negSucc 0), (1215818071, .ofNat 1), (1217389199, .ofNat 1), (7082971792117, .ofNat 1), (7668049382123, .ofNat 1), (8030369001629, .negSucc 0), (10842458641859, .negSucc 0)] 0))) (.node (.leaf (.adef 39847 [(3683221, .ofNat 1), (149709097, .ofNat 1)] 0)) .nil)) (.node (.node (.leaf (.adef 36473 [(66755529, .ofNat 2), (116892837, .ofNat 2), (131350353, .ofNat 4), (141124833, .ofNat 1), (264493881279, .negSucc 1)] 0)) .nil) (.node (.leaf (.adef 43051 [(11758783, .negSucc 0), (37801723, .ofNat 1), (848927969, .ofNat 1), (1768026179, .ofNat 1), (1807956263, .ofNat 1), (2567445163, .negSucc 0), (2635686887, .ofNat 1), (136419660127, .ofNat 1), (187203521299, .negSucc 0), (3831884394313, .ofNat 1), (4729186571947, .ofNat 1)] 0)) .nil))))

def jac181 : JTree := .node (.node (.node (.node (.node (.leaf (.atom 47857)) (.leaf (.adef 27437 [(21728137, .ofNat 1), (11373426859, .ofNat 1)] 0))) (.node (.leaf (.adef 37511 [(30159077467, .negSucc 0), (39984650939, .negSucc 0), (46419475499, .negSucc 0), (51117272077, .negSucc 0), (1602054744949, .ofNat 1), (1787105512727, .negSucc 0), (3056020444033, .negSucc 0), (3423659918579, .ofNat 1)] 0)) .nil)) (.node (.node (.leaf (.adef 17383 [(1533011, .ofNat 1), (4808443, .ofNat 1), (4813429, .negSucc 0), (8329169, .negSucc 0), (10654499, .ofNat 1), (10667117, .ofNat 1), (351943181, .negSucc 0), (365337239, .ofNat 1)] 0)) .nil) (.node (.leaf (.adef 41227 [(12605209, .negSucc 0), (12737273, .ofNat 1), (12790201, .negSucc 0)] 0)) .nil))) (.node (.node (.node (.leaf (.atom 12917)) (.leaf (.adef 46103 [(43537343, .negSucc 0), (49581589, .negSucc 0), (50136199, .ofNat 1), (61317713, .ofNat 1), (62468893, .negSucc 0)] 0))) (.node (.leaf (.adef 31393 [(16917, .ofNat 4), (52297029, .negSucc 1), (61742061, .negSucc 1), (139043673, .negSucc 3), (152842779, .negSucc 1), (248718429, .negSucc 1), (255604311, .negSucc 1), (1289596491, .ofNat 2), (103691273337, .ofNat 3), (272944313199, .ofNat 4), (320656255929, .ofNat 4), (362226213927, .ofNat 4), (371592833769, .ofNat 2), (431387639973, .ofNat 2), (541176887614347, .negSucc 7)] 0)) .nil)) (.node (.node (.leaf (.adef 23761 [(5537977, .ofNat 1), (5886173, .ofNat 1), (510336131, .negSucc 0), (556575863, .ofNat 1)] 0)) .nil) (.node (.leaf (.adef 20759 [(40270957, .negSucc 0), (48696101, .ofNat 1), (49438289, .negSucc 0), (49564343, .ofNat 1)] 0)) .nil)))) (.node (.node (.node (.node (.leaf (.atom 3593)) (.leaf (.adef 34403 [(342623807, .ofNat 1), (408808723, .negSucc 0), (68019902879, .ofNat 1), (74775601279, .negSucc 0)] 0))) (.node (.leaf (.adef 13757 [(315516899, .ofNat 1), (327159589, .ofNat 1), (337256519, .negSucc 0), (349701409, .negSucc 0), (725892199, .ofNat 1), (752677889, .ofNat 1), (822865213, .negSucc 0), (847400179, .negSucc 0), (1722977083, .ofNat 1), (1860317423, .ofNat 1), (2397625229, .ofNat 1), (4714248179, .ofNat 1), (4767922169, .ofNat 1), (5199172981, .ofNat 1), (5442381163, .ofNat 1), (5873923817, .ofNat 1), (5996143607, .ofNat 1), (114574839877, .ofNat 1), (125422802399, .negSucc 0), (127916467907, .negSucc 0), (142056420503, .ofNat 1), (171199772941, .negSucc 0), (173816387293, .negSucc 0), (6823574921563, .negSucc 0), (7075367354093, .negSucc 0), (7587085271749, .negSucc 0), (7867051517939, .negSucc 0), (9304714140229, .negSucc 0), (9794725625417, .negSucc 0), (10890686976791, .negSucc 0), (11483574304351, .negSucc 0), (12121494795493, .negSucc 0), (13122509843237, .negSucc 0), (13606735298707, .negSucc 0), (14959952994367, .negSucc 0), (16698125604337, .negSucc 0), (27511185508403, .negSucc 0), (27931665989219, .negSucc 0), (37752555588311, .ofNat 1), (38329564991303, .ofNat 1), (93541430468741, .ofNat 1), (115445778466079, .ofNat 1), (121688026898813, .ofNat 1), (166987860211481, .negSucc 0), (2015718887387059, .ofNat 1), (2090099658139349, .ofNat 1), (2564961091034759, .ofNat 1), (2766094515383383, .negSucc 0), (2868164423700113, .negSucc 0), (3519798743008283, .negSucc 0)] 0)) .nil)) (.node (.node (.leaf (.adef 2939 [(292520221, .ofNat 1), (90923716177, .ofNat 1), (109699687951, .ofNat 1), (539027451221, .negSucc 0), (93685965259663, .negSucc 0), (113032348285969, .negSucc 0)] 0)) .nil) (.node (.leaf (.adef 41809 [(17761571, .ofNat 1), (39588947, .ofNat 1), (45204001, .ofNat 1), (1322485319, .ofNat 1)] 0)) .nil))) (.node (.node (.node (.leaf (.atom 3499)) .nil) (.node (.leaf (.adef 12413 [(118536169, .negSucc 0), (118922863, .ofNat 1), (49733266279, .ofNat 1), (137466969727, .negSucc 0)] 0)) .nil)) (.node (.node (.leaf (.adef 6827 [(107226661, .ofNat 1), (107576471, .negSucc 0), (107746451, .ofNat 1), (133839851, .ofNat 1), (134228527, .negSucc 0), (134423251, .ofNat 1), (189075253, .ofNat 1), (189421087, .negSucc 0), (189438229, .ofNat 1), (189556337, .ofNat 1), (189572087, .negSucc 0), (189586367, .ofNat 1)] 0)) .nil) (.node (.leaf (.adef 43781 [(2531003, .negSucc 0), (6678814487, .ofNat 1), (8508443491, .negSucc 0)] 0)) .nil))))

def jac182 : JTree := .node (.node jac176 (.node (.node (.node (.node (.node (.node (.leaf (.trans [(214157, .negSucc 0), (233561, .ofNat 1)] 0)) (.leaf (.adef 44017 [(3421133, .negSucc 0), (3795929, .ofNat 1), (11893283, .ofNat 1), (12918407, .negSucc 0), (1061325143, .ofNat 1)] 0))) (.node (.leaf (.adef 37201 [(43328927, .negSucc 0), (43659211, .negSucc 0), (43749917, .ofNat 1), (61266707, .ofNat 1), (61603573, .negSucc 0)] 0)) .nil)) (.node (.node (.leaf (.adef 6967 [(14446013, .ofNat 1), (55102547, .ofNat 1)] 0)) (.leaf (.trans [] 0))) (.node (.leaf (.adef 25763 [(406768468889, .negSucc 3), (425348618333, .negSucc 3), (427787288197, .negSucc 3), (463409933641, .ofNat 4), (620948174053, .ofNat 2), (707413612757, .negSucc 1), (716994196579, .negSucc 1), (721104970811, .negSucc 1), (1047526953881, .ofNat 4), (1065191694169, .negSucc 3), (1113846942493, .negSucc 3), (1134756477293, .negSucc 3)] 1)) .nil))) (.node (.node (.node (.leaf (.atom 48497)) (.leaf (.adef 4583 [(3004721, .ofNat 1), (4840237, .ofNat 1), (247528027, .ofNat 1), (905364463, .negSucc 0), (71238518321, .ofNat 1), (91170353537, .ofNat 1), (253173575407, .ofNat 1)] 0))) (.node (.leaf (.adef 31237 [(1888693, .ofNat 1), (6345103547, .negSucc 0)] 0)) .nil)) (.node (.node (.leaf (.adef 35771 [(10578013, .ofNat 1), (37155737, .ofNat 1)] 0)) .nil) (.node (.leaf (.adef 42257 [(42239, .ofNat 1), (10402591, .negSucc 0), (18310273, .negSucc 0), (22863119, .negSucc 0), (29610283, .ofNat 1), (30509819, .ofNat 1), (32395793, .negSucc 0), (38553439, .negSucc 0), (69308549, .negSucc 0)] 0)) .nil)))) (.node (.node (.node (.node (.leaf (.atom 11587)) (.leaf (.adef 44809 [(23757, .ofNat 4), (119566197, .ofNat 2), (160509159, .ofNat 1), (6509979423, .ofNat 2), (9490421727, .ofNat 2), (268697691693, .negSucc 1)] 0))) (.node (.leaf (.adef 37963 [(5926909, .ofNat 1), (22953373, .ofNat 1), (27233761, .ofNat 1), (867124939, .negSucc 0), (867936031, .negSucc 0), (1201089467, .negSucc 0), (1202212943, .negSucc 0), (1630323061, .ofNat 1), (1631115217, .ofNat 1), (2367479117, .negSucc 0), (2368629449, .negSucc 0)] 0)) .nil)) (.node (.node (.leaf (.adef 23011 [(55487709, .ofNat 2), (64947591, .ofNat 1), (93948674499, .negSucc 1)] 0)) .nil) (.node (.leaf (.adef 32573 [(1904627, .ofNat 1), (6630433319, .negSucc 0)] 0)) .nil))) (.node (.node (.node (.leaf (.atom 10729)) (.leaf (.adef 46769 [(23478431, .negSucc 0), (25027459, .negSucc 0), (25226287, .ofNat 1), (26510447, .ofNat 1), (26873071, .negSucc 0), (33048529, .negSucc 0)] 0))) (.node (.leaf (.adef 39703 [(2314661, .ofNat 1), (2519233, .negSucc 0), (2799799, .negSucc 0), (5002831, .negSucc 0), (7300309, .ofNat 1), (98471561, .negSucc 0), (332738099, .ofNat 1), (456603863, .negSucc 0), (590493341, .negSucc 1)] 0)) .nil)) (.node (.node (.leaf (.adef 23971 [(7121431, .ofNat 4), (2664851639, .ofNat 2)] 1)) .nil) (.node (.leaf (.adef 42901 [(117671823, .ofNat 2), (156570399, .ofNat 1), (264190118481, .negSucc 1)] 0)) .nil))))) jac177)) (.node (.node jac178 jac179) (.node jac180 jac181))

def jac183 : JTree := .node (.node (.node (.node (.node (.leaf (.atom 251)) (.leaf (.adef 14407 [(5317286089, .ofNat 1), (5561143333, .ofNat 1), (5916293479, .ofNat 1), (6037025077, .ofNat 1), (463881351006217, .ofNat 1)] 0))) (.node (.leaf (.adef 4723 [(491831, .ofNat 1), (657119, .negSucc 1)] 0)) .nil)) (.node (.node (.leaf (.atom 4673)) .nil) (.node (.leaf (.adef 19717 [(118410689, .negSucc 0), (118656749, .ofNat 1), (49783857059, .negSucc 0), (137186377171, .ofNat 1)] 0)) .nil))) (.node (.node (.node (.leaf (.atom 10501)) (.leaf (.adef 27961 [(26455907, .negSucc 0), (33637133, .ofNat 1), (1014289943, .negSucc 0), (1478651267, .negSucc 0), (168763285939, .ofNat 1), (185524760339, .negSucc 0)] 0))) (.node (.leaf (.adef 31139 [(26910633931, .ofNat 1)] 0)) .nil)) (.node (.node (.leaf (.adef 23227 [(15004771, .ofNat 1), (83233349, .ofNat 1), (129472691, .negSucc 0), (129716969, .ofNat 1), (135058549, .ofNat 1), (136708763, .negSucc 0)] 0)) .nil) (.node (.leaf (.adef 32843 [(125547, .ofNat 8), (506870109, .negSucc 3), (689271903, .negSucc 3), (743996151, .negSucc 3), (1367205215373, .ofNat 6)] 1)) .nil)))) (.node (.node (.node (.node (.leaf (.atom 4877)) (.leaf (.adef 27479 [(81469, .negSucc 0), (34136251, .negSucc 0)] 0))) (.node (.leaf (.adef 18517 [(8824349, .ofNat 1), (15322283, .negSucc 0), (60514921, .ofNat 1), (90952151, .ofNat 1), (105017893, .ofNat 1), (105132121, .ofNat 1), (142798847, .negSucc 0), (159239251, .ofNat 1), (163590587, .ofNat 1)] 0)) .nil)) (.node (.node (.leaf (.adef 22877 [(21408731, .negSucc 0), (83937811, .negSucc 0), (100714249, .ofNat 1), (127406563, .ofNat 1), (140984729, .ofNat 1), (184040967139, .ofNat 1)] 0)) .nil) (.node (.leaf (.adef 41257 [(797799119, .negSucc 0), (798682573, .ofNat 1), (858236977, .negSucc 0), (859186211, .ofNat 1), (897769249, .ofNat 1), (898129817, .negSucc 0), (1016726581, .negSucc 0), (1053083291, .negSucc 0), (1053686569, .ofNat 1), (1063643087, .ofNat 1), (1208561003, .ofNat 1), (7010349204053, .ofNat 1), (7640425067327, .ofNat 1), (7956927501757, .negSucc 0), (10777741344487, .negSucc 0)] 0)) .nil))) (.node (.node (.node (.leaf (.atom 12923)) (.leaf (.adef 46153 [(754949143, .negSucc 0), (755434147, .ofNat 1), (807864499, .negSucc 0), (808382887, .ofNat 1), (844170743, .ofNat 1), (844711907, .negSucc 0), (1138618507, .ofNat 1), (1138983001, .ofNat 1), (1169310389, .negSucc 0), (1183470509, .ofNat 1), (1186863691, .negSucc 0), (1192023157, .ofNat 1), (7012684274011, .ofNat 1), (7602955183993, .ofNat 1), (7912936491473, .negSucc 0), (10734947953379, .negSucc 0)] 0))) (.node (.leaf (.adef 39217 [(16917, .ofNat 4), (52297029, .negSucc 1), (61742061, .negSucc 1), (115862787, .negSucc 3), (147558141, .negSucc 1), (238298913, .negSucc 1), (243494091, .negSucc 1), (1289596491, .ofNat 2), (103691273337, .ofNat 3), (261060745527, .ofNat 4), (303230114541, .ofNat 4), (344944680057, .ofNat 4), (357585067179, .ofNat 2), (415645287381, .ofNat 2), (517614893993331, .negSucc 7)] 0)) .nil)) (.node (.node (.leaf (.adef 8369 [(12504839, .ofNat 1), (854179063, .ofNat 1), (3298732589, .ofNat 1), (3793148407, .negSucc 0)] 0)) .nil) (.node (.leaf (.adef 26713 [(4208819, .ofNat 1), (4537537, .negSucc 0)] 0)) .nil))))

def jac184 : JTree := .node (.node (.node (.node (.node (.leaf (.atom 8009)) (.leaf (.adef 43951 [(28898593, .ofNat 1), (32390851, .ofNat 1), (32698789, .ofNat 1), (5643753491, .ofNat 1), (5757863039, .ofNat 1), (5993595887, .ofNat 1), (7085328281, .ofNat 1), (1208143292471, .ofNat 1), (1279730179073, .ofNat 1), (1421204007101, .negSucc 0), (1567810901179, .ofNat 1), (3461141668307, .ofNat 1), (354117157595029, .ofNat 1), (562437820690903, .negSucc 0), (591772846167571, .ofNat 1), (658189770809327, .negSucc 0)] 0))) (.node (.leaf (.adef 18223 [(128325982133, .ofNat 1), (173328024697, .ofNat 1), (6112601480149, .negSucc 0), (6233203019993, .negSucc 0), (20621522092939, .ofNat 1), (27853187882951, .ofNat 1), (28298132004943, .negSucc 0), (38221872464987, .negSucc 0), (1691386971589057, .negSucc 0), (1724758012365749, .negSucc 0)] 0)) .nil)) (.node (.node (.leaf (.adef 28879 [(17914797, .negSucc 0), (49323051, .negSucc 1), (61468101, .ofNat 1), (89428603311, .ofNat 2)] 0)) .nil) (.node (.leaf (.adef 40387 [(10130611, .negSucc 0), (978561167, .ofNat 1)] 0)) .nil))) (.node (.node (.node (.leaf (.atom 2003)) (.leaf (.adef 14633 [(4735811, .ofNat 1), (15734021, .ofNat 1), (1210203391, .negSucc 0), (4771387507, .ofNat 1), (6192144017, .negSucc 1)] 0))) (.node (.leaf (.adef 24923 [(5665133, .negSucc 0), (7211647, .ofNat 1), (14285807316247, .ofNat 1), (14976957309103, .ofNat 1), (15935937950381, .negSucc 0), (16706921567669, .negSucc 0)] 0)) .nil)) (.node (.node (.leaf (.adef 23371 [(36960347, .negSucc 0), (37284607, .ofNat 1), (139067653, .ofNat 1), (139074553, .negSucc 0), (236253599, .ofNat 1), (266065519, .ofNat 1), (266540999, .negSucc 0), (287646503, .ofNat 1), (383001389, .negSucc 0), (388382737, .ofNat 1)] 0)) .nil) (.node (.leaf (.adef 42131 [(42101, .ofNat 1), (11345899, .negSucc 0), (13341989, .ofNat 1), (18482837, .ofNat 1), (22899593, .ofNat 1), (26778487, .negSucc 0), (30187277, .ofNat 1), (30522001, .negSucc 0), (32710061, .negSucc 0), (38815529, .ofNat 1), (69246439, .negSucc 0)] 0)) .nil)))) (.node (.node (.node (.node (.leaf (.atom 5879)) (.leaf (.adef 34127 [(38913449, .negSucc 3), (56926657, .negSucc 3), (5301084749, .negSucc 1), (738374937367, .negSucc 1), (1026748410367, .ofNat 2)] 1))) (.node (.leaf (.adef 15767 [(38402851, .ofNat 2), (56575081, .ofNat 2), (4481846687, .negSucc 0), (15382953721, .negSucc 0), (19567197817, .ofNat 1), (357725857369, .ofNat 1), (521502301081, .ofNat 1), (651551426663, .ofNat 1), (666058639249, .negSucc 0), (926188870249, .ofNat 1)] 1)) .nil)) (.node (.node (.leaf (.adef 15299 [(108593711, .ofNat 4), (780971621, .ofNat 2)] 1)) (.leaf (.trans [(47419, .negSucc 0)] 0))) (.node (.leaf (.adef 26017 [(5693873, .negSucc 0), (7365409, .negSucc 0)] 0)) .nil))) (.node (.node (.node (.leaf (.atom 6779)) (.leaf (.adef 35129 [(20954957, .negSucc 0), (21254873, .ofNat 1), (22158457, .ofNat 1), (22456453, .negSucc 0)] 0))) (.node (.leaf (.adef 39521 [(435049, .negSucc 0), (3566921, .ofNat 1), (4109449, .ofNat 1), (157637437, .negSucc 0), (167055743, .negSucc 0)] 0)) .nil)) (.node (.node (.leaf (.adef 17929 [(7005857, .ofNat 1), (12505609, .negSucc 0), (101511041, .ofNat 1), (101645189, .ofNat 1), (156690749, .ofNat 1), (163379407, .ofNat 1), (14683976147, .ofNat 1), (22062691921, .negSucc 0), (34643592029, .negSucc 0)] 0)) .nil) (.node (.leaf (.adef 26839 [(42821, .ofNat 1), (8770261, .negSucc 0), (37500381049, .negSucc 0)] 0)) .nil))))

def jac185 : JTree := .node (.node jac183 (.node (.node (.node (.node (.node (.leaf (.atom 2243)) (.leaf (.adef 44179 [(848155997, .negSucc 0), (848878823, .ofNat 1), (912257021, .negSucc 0), (912515903, .ofNat 1), (953567147, .ofNat 1), (953837573, .negSucc 0), (1110468229, .negSucc 0), (1129094629, .ofNat 1), (1131653549, .negSucc 0), (1137933043, .ofNat 1), (1283243611, .ofNat 1), (1283849801, .negSucc 0), (7075533331477, .ofNat 1), (7711467810943, .ofNat 1), (8030913170813, .negSucc 0), (10877955705383, .negSucc 0)] 0))) (.node (.leaf (.adef 37223 [(482903, .negSucc 0), (47642059, .negSucc 0), (14157991591, .negSucc 0)] 0)) .nil)) (.node (.node (.leaf (.adef 17239 [(398263, .ofNat 4), (775301939, .ofNat 2)] 1)) (.leaf (.trans [] 0))) (.node (.leaf (.adef 32251 [(1596403, .negSucc 0), (11099359807, .negSucc 0), (16117972679, .ofNat 1)] 0)) .nil))) (.node (.node (.node (.leaf (.atom 16927)) (.leaf (.adef 34543 [(45587, .negSucc 0), (95028287, .negSucc 0), (1337592173, .ofNat 1)] 0))) (.node (.leaf (.adef 38833 [(2151691, .ofNat 1), (9875083, .ofNat 1), (836896499, .ofNat 1), (853177363, .negSucc 0)] 0)) .nil)) (.node (.node (.leaf (.adef 11149 [(297109169, .ofNat 1), (340487651, .negSucc 0), (348490163, .negSucc 0), (353468563, .negSucc 0), (356346739, .negSucc 0), (358045849, .ofNat 1), (547607019001, .negSucc 0), (548779378399, .ofNat 1), (557189088463, .ofNat 1)] 0)) .nil) (.node (.leaf (.adef 16349 [(35498201, .ofNat 1), (36107119, .negSucc 0), (36188153, .negSucc 0), (36327299, .ofNat 1)] 0)) .nil)))) (.node (.node (.node (.node (.leaf (.atom 48193)) (.leaf (.adef 34301 [(6762563, .ofNat 1), (963471757, .negSucc 0)] 0))) (.node (.leaf (.adef 13697 [(38149, .ofNat 1), (7341721, .negSucc 0), (11566901, .negSucc 0), (14409179, .negSucc 0), (19452479, .ofNat 1), (21068269, .ofNat 1), (22999541, .negSucc 0), (27335593, .negSucc 0), (43387249, .negSucc 0)] 0)) .nil)) (.node (.node (.leaf (.adef 29363 [(70232663, .ofNat 1), (72722953, .ofNat 1)] 0)) .nil) (.node (.leaf (.adef 9043 [(1835221, .ofNat 1), (2294521, .ofNat 1)] 0)) .nil))) (.node (.node (.node (.leaf (.atom 6053)) (.leaf (.adef 47207 [(47369921, .negSucc 0), (50228083, .ofNat 1), (50654239, .negSucc 0), (107011361, .negSucc 0), (107192861, .ofNat 1), (108531623, .negSucc 0)] 0))) (.node (.leaf (.adef 39869 [(22790617, .negSucc 0), (24454663, .negSucc 0), (24624737, .ofNat 1), (25253197, .ofNat 1), (25287937, .negSucc 0), (31549759, .negSucc 0)] 0)) .nil)) (.node (.node (.leaf (.adef 36497 [(114524721, .ofNat 2), (141199857, .ofNat 1), (259135535907, .negSucc 1)] 0)) .nil) (.node (.leaf (.adef 43133 [(37912001, .ofNat 4), (235955299799, .negSucc 3), (605837593871, .ofNat 2), (125484342986711, .ofNat 2), (182934423858839, .ofNat 2)] 1)) .nil)))))) (.node jac184 (.node (.node (.node (.node (.node (.leaf (.atom 47639)) (.leaf (.adef 27299 [(6614659, .ofNat 1), (7024151, .ofNat 1), (315352637, .negSucc 0), (337135507, .ofNat 1)] 0))) (.node (.leaf (.adef 7331 [(1233502771, .ofNat 1), (1680275173, .ofNat 1)] 0)) .nil)) (.node (.node (.leaf (.adef 17351 [(18285601, .negSucc 0), (26553497, .ofNat 1), (5536792837, .negSucc 0)] 0)) (.leaf (.trans [] 0))) (.node (.leaf (.adef 16103 [(34809221, .negSucc 0), (35299717, .ofNat 1), (35624887, .ofNat 1), (35795443, .negSucc 0)] 0)) .nil))) (.node (.node (.node (.leaf (.atom 35449)) (.leaf (.adef 11981 [(35437, .ofNat 1), (4780801, .ofNat 1), (73796363, .ofNat 1), (88503523, .ofNat 1), (111038821, .ofNat 1)] 0))) (.node (.leaf (.adef 19231 [(46306367, .ofNat 1), (51655141, .negSucc 0), (139759267, .negSucc 0), (149362001, .negSucc 0), (226755247, .ofNat 1), (252947381, .negSucc 0)] 0)) .nil)) (.node (.node (.leaf (.adef 29761 [(10768349, .ofNat 1), (934500499, .negSucc 0)] 0)) .nil) (.node (.leaf (.adef 5653 [(11993123707, .ofNat 1)] 0)) .nil)))) (.node (.node (.node (.node (.leaf (.atom 1583)) (.leaf (.adef 45119 [(83104026277, .ofNat 1)] 0))) (.node (.leaf (.adef 18749 [(5359269973, .negSucc 0), (5934271309, .ofNat 1), (7019490949, .ofNat 1)] 0)) .nil)) (.node (.node (.leaf (.adef 4937 [(290755241, .ofNat 1), (90857741779, .ofNat 1), (109620089677, .ofNat 1), (538049475803, .negSucc 0), (147708221403323, .negSucc 0), (178210333640549, .negSucc 0)] 0)) .nil) (.node (.leaf (.adef 32653 [(59339723, .ofNat 1), (97380181, .ofNat 1), (120183439, .ofNat 1), (15413201579, .ofNat 1)] 0)) .nil))) (.node (.node (.node (.leaf (.atom 2549)) (.leaf (.atom 1619))) (.node (.leaf (.adef 4783 [(637957, .ofNat 1), (1653397, .ofNat 1)] 0)) .nil)) (.node (.node (.leaf (.adef 36779 [(11557361, .ofNat 1), (13388077, .ofNat 1), (23757281, .ofNat 1), (2250273703, .ofNat 1), (2295873127, .ofNat 1), (2624065721, .negSucc 0), (2861822933, .ofNat 1), (4240662509, .ofNat 1), (5139646487, .ofNat 1), (9270294287, .ofNat 1), (9647151491, .ofNat 1), (10232524867, .ofNat 1), (347314825733, .ofNat 1), (354167342281, .ofNat 1), (400881296567, .negSucc 0), (408790678819, .negSucc 0), (1130787722417, .negSucc 0), (1233244354541, .ofNat 1)] 0)) .nil) (.node (.leaf (.adef 33619 [(20464607, .ofNat 1), (21965257, .negSucc 0), (22904953, .negSucc 0), (23125747, .ofNat 1)] 0)) .nil))))))

def jac186 : JTree := .node (.node (.node (.node (.node (.leaf (.trans [(4, .ofNat 1)] 0)) (.leaf (.adef 9343 [(214778149, .negSucc 1), (936744301, .ofNat 2), (2818369139, .ofNat 2), (3596450971, .ofNat 2), (288125098693, .negSucc 1), (409901857823, .negSucc 1)] 0))) (.node (.leaf (.adef 7687 [(29258881259, .ofNat 1), (32768510267, .ofNat 1)] 0)) .nil)) (.node (.node (.leaf (.adef 3659 [(286141079, .ofNat 1), (90637827119, .ofNat 1), (109354762097, .ofNat 1), (537723483997, .negSucc 0), (149129859722893, .negSucc 0), (179925543781459, .negSucc 0)] 0)) .nil) (.node (.leaf (.adef 13933 [(40213, .ofNat 1), (12626347, .negSucc 0), (2403647767, .ofNat 1), (2513982157, .negSucc 0), (4062678797, .ofNat 1), (4481576137, .negSucc 0), (7908037999, .ofNat 1), (8265038591, .ofNat 1), (8501384183, .negSucc 0), (8579074337, .negSucc 0), (10711947541, .negSucc 0), (12281327441, .negSucc 0), (13019289749, .ofNat 1), (14250188969, .negSucc 0)] 0)) .nil))) (.node (.node (.node (.leaf (.atom 419)) (.leaf (.adef 16699 [(2498887, .ofNat 1), (3013429, .ofNat 1), (1920006946817, .ofNat 1), (2012897237033, .ofNat 1)] 0))) (.node (.leaf (.adef 24907 [(38723, .ofNat 1), (10776937, .negSucc 0), (12751393, .ofNat 1), (12836849, .ofNat 1), (17221499, .negSucc 0), (18212273, .ofNat 1), (18846559, .ofNat 1), (19807891, .negSucc 0), (26342681, .negSucc 0), (68440051, .negSucc 0), (1535185230001, .ofNat 1)] 0)) .nil)) (.node (.node (.leaf (.adef 23297 [(17828201, .negSucc 0), (18008183, .ofNat 1), (48856261, .ofNat 1), (48941749, .negSucc 0), (57560509, .ofNat 1)] 0)) .nil) (.node (.leaf (.adef 20389 [(41549, .ofNat 1), (79605191, .negSucc 0), (79844819, .negSucc 0), (80029801, .ofNat 1), (88651879, .ofNat 1), (88826317, .negSucc 0), (90057083, .ofNat 1), (103551737, .negSucc 0), (110599207, .ofNat 1), (117740569, .ofNat 1), (120757687, .ofNat 1)] 0)) .nil)))) (.node (.node (.node (.node (.leaf (.atom 47917)) (.leaf (.adef 5839 [(22353, .ofNat 2), (50233257, .negSucc 0)] 0))) (.node (.leaf (.adef 24631 [(37607, .ofNat 1), (1307306461, .ofNat 1), (81220710563, .negSucc 0)] 0)) .nil)) (.node (.node (.leaf (.adef 15269 [(248203357, .negSucc 3), (254312869, .ofNat 4), (428490383, .ofNat 4), (440291399, .negSucc 3), (989235839, .ofNat 4), (1009367893, .negSucc 3), (30171337783, .ofNat 4), (30280024499, .negSucc 3), (31244728483, .negSucc 3), (40344459581, .ofNat 2), (122090772347, .negSucc 3), (124301617931, .negSucc 3), (11163510909833, .ofNat 2)] 1)) (.leaf (.trans [] 0))) (.node (.leaf (.adef 32497 [(25720829, .ofNat 1), (25836359, .ofNat 1), (31087241, .ofNat 1), (31211111, .ofNat 1), (34443749, .ofNat 1), (37478587, .ofNat 1), (884695061, .ofNat 1), (1091124319, .ofNat 1), (1241507737, .ofNat 1), (1274634679, .ofNat 1), (1590337361, .ofNat 1), (1841246567, .ofNat 1), (3318323219, .ofNat 1), (3485949119, .ofNat 1), (3620830427, .ofNat 1), (38907435583, .negSucc 0), (39675078731, .negSucc 0), (122974518097, .ofNat 1), (150373699771, .ofNat 1), (448973996879, .negSucc 0), (490052689631, .ofNat 1)] 0)) .nil))) (.node (.node (.node (.leaf (.atom 7517)) (.leaf (.adef 35053 [(20530249, .ofNat 1), (21850481, .negSucc 0), (23034377, .ofNat 1), (23170271, .negSucc 0)] 0))) (.node (.leaf (.adef 39383 [(6573977, .ofNat 1), (27389633, .ofNat 1), (29763179, .ofNat 1), (1671515173, .ofNat 1), (1672703407, .ofNat 1), (2427296381, .negSucc 0), (2429021879, .negSucc 0), (250994753731, .negSucc 0), (251229529399, .negSucc 0)] 0)) .nil)) (.node (.node (.leaf (.adef 36161 [(15346021, .ofNat 1), (18504809, .negSucc 0)] 0)) .nil) (.node (.leaf (.adef 42719 [(42709, .ofNat 1), (11840947, .ofNat 1), (13953119, .ofNat 1), (18495163, .ofNat 1), (22911751, .negSucc 0), (26794961, .negSucc 0), (30025651, .negSucc 0), (30765641, .ofNat 1), (32896013, .ofNat 1), (39000529, .ofNat 1), (69320971, .negSucc 0)] 0)) .nil))))

def jac187 : JTree := .node (.node (.node (.node (.leaf (.atom 1753)) (.leaf (.adef 21661 [(51856009, .negSucc 0), (3011774201, .ofNat 1), (3591951589, .negSucc 0), (1539825208843, .ofNat 1)] 0))) (.node (.leaf (.adef 18713 [(113918257, .negSucc 0), (175609997, .ofNat 1), (217735097, .ofNat 1), (5184693901, .ofNat 1), (5242381733, .ofNat 1), (5718849067, .ofNat 1), (5782480211, .ofNat 1), (8439628471, .ofNat 1), (8533532543, .ofNat 1), (10431610781, .ofNat 1), (10552638367, .ofNat 1), (14855286659, .ofNat 1), (15060933983, .negSucc 0), (15228510439, .negSucc 0), (15739924741, .ofNat 1), (16401111121, .ofNat 1), (20075607103, .ofNat 1), (24188117689, .ofNat 1), (27514950121, .negSucc 0), (27869885963, .negSucc 0), (32204371579, .ofNat 1), (43231601293, .negSucc 0), (47338677433, .ofNat 1), (47967185921, .ofNat 1), (51193093561, .ofNat 1), (78097937461, .ofNat 1), (78999899197, .ofNat 1), (85848115063, .ofNat 1), (92612171633, .ofNat 1), (109427728483, .ofNat 1), (166932717713, .ofNat 1), (180668054201, .ofNat 1), (874903341863, .ofNat 1), (884638010479, .ofNat 1), (894168078311, .negSucc 0), (904117097263, .negSucc 0), (1503492977339, .negSucc 0), (1505418046633, .ofNat 1), (1521279197927, .negSucc 0), (1522463009831, .ofNat 1), (2954597751899, .negSucc 0), (3406291209029, .ofNat 1), (3482258674793, .negSucc 0), (4056105054319, .ofNat 1), (4102029946433, .ofNat 1), (4768061654569, .ofNat 1), (15428627446339, .ofNat 1)] 0)) .nil)) (.node (.node (.leaf (.adef 4153 [(495353, .negSucc 0), (1029701, .ofNat 1), (21087179, .ofNat 1)] 0)) .nil) (.node (.leaf (.adef 11369 [(5344709, .negSucc 0), (486793907, .negSucc 0), (602212711, .ofNat 1), (778692113, .negSucc 0), (890164357, .ofNat 1), (1421025743, .ofNat 1), (1439657543, .ofNat 1), (1448905691, .negSucc 0), (1872129851, .ofNat 1), (1932598597, .ofNat 1), (1947870559, .negSucc 0), (1973962577, .negSucc 0), (2063779043, .ofNat 1), (2402338949, .ofNat 1), (2444226013, .negSucc 0), (3176206391, .ofNat 1), (97381889149, .negSucc 0), (106248162143, .negSucc 0), (123916463849, .negSucc 0), (135198615043, .negSucc 0), (27581945487839, .negSucc 0), (35097461969539, .negSucc 0)] 0)) .nil))) (.node (.node (.node (.leaf (.atom 8231)) (.leaf (.adef 47497 [(900274297, .negSucc 0), (961023479, .negSucc 0), (1011130523, .ofNat 1)] 0))) (.node (.leaf (.adef 19447 [(7973887, .negSucc 0), (10595861, .ofNat 1), (30402377, .negSucc 0)] 0)) .nil)) (.node (.node (.leaf (.adef 18041 [(7691313593, .ofNat 1), (9087177703, .ofNat 1), (13427413421, .negSucc 0), (13922889931, .negSucc 0), (24105590107, .negSucc 0), (24995095277, .negSucc 0), (29750332033, .negSucc 0), (30848130263, .negSucc 0), (39430368023, .negSucc 0), (40391876573, .negSucc 0), (48663672437, .negSucc 0), (49850334887, .negSucc 0), (72621861899, .ofNat 1), (76615723343, .negSucc 0), (94556623517, .negSucc 0), (99656224463, .negSucc 0), (155780974081, .negSucc 0), (785485692319, .negSucc 0), (5735343186103, .negSucc 0), (6024815666417, .negSucc 0), (6224354613803, .negSucc 0), (6528245517163, .ofNat 1), (6715834793669, .negSucc 0), (7174206881333, .negSucc 0), (7411813103447, .negSucc 0), (7644288574049, .ofNat 1), (8958463520431, .negSucc 0), (9844891780721, .ofNat 1), (10170949780139, .ofNat 1), (10489967044013, .negSucc 0), (36737213395409, .ofNat 1), (45339868952771, .ofNat 1), (47791433052137, .ofNat 1), (65582369483669, .negSucc 0)] 0)) .nil) (.node (.leaf (.adef 43313 [(18399131, .ofNat 1), (26736407, .negSucc 0)] 0)) .nil)))

def jac188 : JTree := .node (.node (.node (.node (.node (.leaf (.atom 2437)) (.leaf (.adef 44021 [(48084593, .negSucc 0), (48431101, .negSucc 0), (48599347, .ofNat 1), (67086167, .ofNat 1), (67526089, .negSucc 0), (109256237, .negSucc 1)] 0))) (.node (.leaf (.adef 12281 [(24702583, .negSucc 0), (24790517, .ofNat 1), (55057367, .ofNat 1)] 0)) .nil)) (.node (.node (.leaf (.adef 14957 [(54056113, .negSucc 0), (331907533, .negSucc 0), (461534533, .ofNat 1), (986960363, .negSucc 0), (1009206493, .negSucc 0), (1433217811, .ofNat 1), (1471248157, .negSucc 0), (7948663733, .ofNat 1), (10236454177, .ofNat 1), (10257001841, .negSucc 0), (14178922481, .ofNat 1), (14207383873, .negSucc 0)] 0)) (.leaf (.trans [(15527, .ofNat 1)] 0))) (.node (.leaf (.adef 40487 [(7178153, .negSucc 0), (8596937, .ofNat 1)] 0)) .nil))) (.node (.node (.node (.leaf (.atom 12799)) (.leaf (.adef 7993 [(45481, .ofNat 1), (221356169, .ofNat 1), (225125591, .ofNat 1), (258858877, .ofNat 1), (335597179, .ofNat 1), (339610127, .negSucc 0), (473867839, .negSucc 0), (493786927, .ofNat 1), (2497169177, .ofNat 1), (2678094427, .ofNat 1), (3397441259, .ofNat 1), (74514918473, .negSucc 0), (75783815447, .negSucc 0), (79620137567, .ofNat 1), (80975970113, .ofNat 1), (87139419709, .negSucc 0), (93109577611, .ofNat 1)] 0))) (.node (.leaf (.adef 6269 [(681491, .ofNat 1), (1415413, .ofNat 1), (1427759, .ofNat 1), (1688377, .negSucc 0), (1897837, .ofNat 1), (2122951, .ofNat 1)] 0)) .nil)) (.node (.node (.leaf (.adef 35803 [(66489221, .ofNat 1), (76249763, .ofNat 1), (101300531, .negSucc 0), (102288233, .negSucc 0)] 0)) .nil) (.node (.leaf (.adef 42299 [(3811849, .ofNat 1), (7062067, .negSucc 0), (330249649, .negSucc 0), (407583331, .negSucc 0)] 0)) .nil)))) (.node (.node (.node (.node (.leaf (.atom 48017)) (.leaf (.adef 44851 [(3921433, .negSucc 0), (11988233, .negSucc 0), (38019119, .negSucc 0), (856735679, .negSucc 0), (858455407, .ofNat 1), (1817271877, .ofNat 1), (1858595513, .ofNat 1), (2638957469, .negSucc 0), (2709510137, .ofNat 1)] 0))) (.node (.leaf (.adef 18553 [(295513547, .ofNat 1), (299324221, .ofNat 1), (447703429369, .negSucc 0)] 0)) .nil)) (.node (.node (.leaf (.adef 13397 [(10506973, .ofNat 2), (3477075997, .negSucc 0), (498056323693, .negSucc 0), (692572990693, .ofNat 1)] 1)) .nil) (.node (.leaf (.adef 6311 [(451463, .ofNat 1), (1432069, .ofNat 1), (1441021, .ofNat 1), (1722277, .ofNat 1), (1922839, .ofNat 1), (137479409, .ofNat 1)] 0)) .nil))) (.node (.node (.node (.leaf (.atom 10789)) (.leaf (.adef 46817 [(48261617, .negSucc 0), (50162173, .negSucc 0), (50273939, .ofNat 1), (67600817, .ofNat 1), (67793629, .negSucc 0), (109479989, .negSucc 1)] 0))) (.node (.leaf (.adef 31699 [(4273, .ofNat 1), (1751747, .ofNat 1), (1849343, .negSucc 0), (2626387, .ofNat 1), (3006833, .negSucc 0)] 0)) .nil)) (.node (.node (.leaf (.adef 36353 [(8306953, .ofNat 1), (8313047, .negSucc 0), (13115419, .negSucc 0), (13117607, .negSucc 0), (16793857, .ofNat 1), (16803671, .ofNat 1), (921339611, .ofNat 1), (211517851781, .negSucc 0), (219567680639, .ofNat 1)] 0)) .nil) (.node (.leaf (.adef 16417 [(56872363, .ofNat 4), (5092538483, .negSucc 1), (426498850357, .negSucc 3), (723314451583, .negSucc 1), (1005806028583, .ofNat 2)] 1)) .nil))))

def jac189 : JTree := .node (.node (.node (.node (.node (.leaf (.atom 2309)) (.leaf (.adef 44293 [(23606909, .negSucc 0), (26322889, .negSucc 0)] 0))) (.node (.leaf (.adef 5087 [(24379, .ofNat 1), (363138199, .negSucc 0), (578481989, .negSucc 0), (688481153, .negSucc 0), (711657547, .ofNat 1), (984114737, .negSucc 0), (1004065919, .negSucc 0), (1298881327, .negSucc 0), (1662295519, .negSucc 0), (3820295603, .negSucc 0), (4616076209, .negSucc 0), (8391769231, .negSucc 0), (126754325939, .negSucc 0), (183980068669, .negSucc 0), (184184464169, .negSucc 1), (221084121451, .negSucc 0), (10792874228167, .negSucc 0)] 0)) .nil)) (.node (.node (.leaf (.adef 12149 [(14672291, .ofNat 1), (57371257, .ofNat 1)] 0)) (.leaf (.trans [(46639, .negSucc 0)] 0))) (.node (.leaf (.adef 41141 [(4741909, .negSucc 0), (7427911, .ofNat 1), (9971021, .negSucc 0)] 0)) .nil))) (.node (.node (.node (.leaf (.atom 22613)) (.leaf (.adef 14699 [(46027, .ofNat 1), (2330129, .ofNat 1), (2482163, .ofNat 1), (1457318497, .ofNat 1), (1542088259, .ofNat 1), (2160308509, .ofNat 1), (2244190229, .ofNat 1)] 0))) (.node (.leaf (.adef 25237 [(405751123823, .negSucc 3), (424284803531, .negSucc 3), (426717374179, .negSucc 3), (462250925887, .ofNat 4), (619322351267, .ofNat 1), (705561398323, .negSucc 0), (714769425757, .negSucc 0), (718867444613, .negSucc 0), (1025187785939, .ofNat 4), (1041621636743, .negSucc 3), (1089200264771, .negSucc 3), (1110557085167, .negSucc 3), (139317811728013, .negSucc 3), (145899605318107, .negSucc 1), (146736097915763, .negSucc 1), (150919065781489, .ofNat 4), (163968757045861, .negSucc 1), (167061693653929, .ofNat 4), (174692647063213, .ofNat 4), (186800985409109, .ofNat 2), (315437668848131, .negSucc 1), (331522866555887, .negSucc 1), (346956990524747, .ofNat 2), (349177560350891, .negSucc 1), (368922007503169, .negSucc 1), (414611697442687, .negSucc 1), (415701383780687, .ofNat 2), (441690276933821, .negSucc 1)] 1)) .nil)) (.node (.node (.leaf (.adef 17791 [(44698229, .negSucc 0), (57879319, .ofNat 1), (81415793, .negSucc 0), (1969629881, .negSucc 0), (2860204657, .ofNat 1), (17151625879, .negSucc 0), (24468310463, .ofNat 1)] 0)) .nil) (.node (.leaf (.adef 26669 [(6418729, .ofNat 1), (6845411, .negSucc 0), (6937477, .negSucc 0), (7382293, .negSucc 0), (132563183, .ofNat 1), (144574259, .negSucc 0), (486341489, .negSucc 0), (600820277, .negSucc 0)] 0)) .nil)))) (.node (.node (.node (.node (.leaf (.atom 16831)) (.leaf (.adef 27941 [(3879031781, .negSucc 0), (3944166377, .negSucc 0), (4124325869, .negSucc 0), (4202045993, .ofNat 1), (284542659937, .ofNat 1), (297539845189, .ofNat 1), (44397710786567, .negSucc 0), (47464466693737, .ofNat 1), (48094790979251, .ofNat 1), (51416921371261, .negSucc 0)] 0))) (.node (.leaf (.adef 38671 [(874008517, .ofNat 1), (1190572771, .ofNat 1)] 0)) .nil)) (.node (.node (.leaf (.adef 5003 [(290020157, .negSucc 0), (372116297, .ofNat 1), (103427047199, .negSucc 0), (541409326031, .negSucc 0), (756637880159, .negSucc 0), (992249242999, .ofNat 1), (149487905520793, .ofNat 1), (179857701189061, .negSucc 0), (2764718111453291, .negSucc 0), (3326395150359407, .ofNat 1)] 0)) .nil) (.node (.leaf (.adef 26387 [(41669, .ofNat 1), (59788579, .negSucc 0), (349146667, .negSucc 0)] 0)) .nil))) (.node (.node (.node (.leaf (.atom 3631)) (.leaf (.atom 347))) (.node (.leaf (.adef 19583 [(12571561, .ofNat 1), (389979253, .ofNat 1), (464665507, .ofNat 1), (542286253, .negSucc 0), (674765579, .negSucc 0), (694702991, .ofNat 1), (1012756559, .ofNat 1)] 0)) .nil)) (.node (.node (.leaf (.adef 36929 [(2080153, .ofNat 1), (2846341, .ofNat 1), (4046839, .negSucc 0), (86997353, .negSucc 0), (98424379, .ofNat 1)] 0)) .nil) (.node (.leaf (.adef 43691 [(43669, .ofNat 1), (11695763, .negSucc 0), (13774711, .ofNat 1), (18370111, .ofNat 1), (22921099, .ofNat 1), (26639003, .negSucc 0), (30470833, .negSucc 0), (69226687, .negSucc 0)] 0)) .nil))))

def jac190 : JTree := .node (.node (.node (.node (.leaf (.atom 2239)) (.leaf (.adef 33713 [(28187707, .ofNat 1), (30695669, .ofNat 1), (30987491, .ofNat 1), (4758132319, .ofNat 1), (5313957203, .ofNat 1), (5326653341, .ofNat 1), (5421466943, .ofNat 1), (897858960529, .ofNat 1), (1248249675227, .ofNat 1), (1386243341999, .negSucc 0), (1485759187901, .ofNat 1), (2853662983351, .ofNat 1), (451136150457491, .ofNat 1), (492191631595453, .negSucc 0), (45406429109106157, .ofNat 1), (49916170045193357, .negSucc 0)] 0))) (.node (.leaf (.adef 5303 [(266813, .ofNat 1), (162844709, .negSucc 0), (167792473, .negSucc 0)] 0)) .nil)) (.node (.node (.leaf (.adef 22679 [(21141919, .negSucc 0), (121951673, .negSucc 0), (108206771051, .ofNat 1)] 0)) .nil) (.node (.leaf (.adef 19739 [(38889089, .negSucc 0), (47122363, .ofNat 1), (47668759, .negSucc 0), (47735851, .ofNat 1)] 0)) .nil))) (.node (.node (.node (.leaf (.atom 16889)) (.leaf (.adef 21851 [(4623961, .ofNat 1), (43173631, .ofNat 1), (514297349, .ofNat 1), (539286301, .ofNat 1), (282175816189, .negSucc 0), (288455194007, .negSucc 0)] 0))) (.node (.leaf (.adef 15859 [(553027261, .negSucc 0), (573434171, .negSucc 0), (905784167, .negSucc 0), (934836139, .negSucc 0), (1223211667, .ofNat 1), (1635065417, .negSucc 0), (5346009947, .ofNat 1), (5822455829, .ofNat 1), (6091002367, .ofNat 1), (6178164721, .ofNat 1), (6916498021, .ofNat 1), (116299931569, .ofNat 1), (137773934171, .negSucc 0), (141638139077, .negSucc 0), (142251524423, .negSucc 0), (148615163947, .ofNat 1), (174304749889, .negSucc 0), (9206741072861, .ofNat 2), (9283050079367, .negSucc 0), (9546473215771, .ofNat 2), (11362659144359, .ofNat 2), (11456837227973, .negSucc 0), (11781945459649, .ofNat 2), (12093272456039, .negSucc 0), (13091956851751, .negSucc 0), (13575054890561, .negSucc 0), (14925121904741, .negSucc 0), (16659247547051, .negSucc 0), (22859306470009, .negSucc 0), (28010144095487, .negSucc 0), (31368958562533, .ofNat 1), (38437257517619, .ofNat 1), (43099743071687, .ofNat 2), (50383344783671, .negSucc 1), (53192295282053, .ofNat 2), (69139151567627, .ofNat 2), (95669542347569, .ofNat 1), (118072224643811, .ofNat 1), (124456487187017, .ofNat 1), (170786913178229, .negSucc 0), (2011025711863457, .ofNat 1), (2085233302707127, .ofNat 1), (2558989121090557, .ofNat 1), (2759654248758509, .negSucc 0), (2861486508860299, .negSucc 0), (3511603635341209, .negSucc 0)] 0)) .nil)) (.node (.node (.leaf (.adef 2791 [(763554327277, .ofNat 1)] 0)) .nil) (.node (.leaf (.adef 41941 [(11549807, .negSucc 0), (11560397, .ofNat 1), (27608183, .ofNat 1), (28497143, .ofNat 1), (28506091, .ofNat 1), (30016549, .ofNat 1), (33810103, .ofNat 1), (34042579, .ofNat 1), (34060283, .ofNat 1), (37083821, .ofNat 1), (37107157, .ofNat 1), (37827901, .negSucc 0), (732330581, .ofNat 1), (1741885031, .ofNat 1), (1742281109, .ofNat 1), (1779598283, .ofNat 1), (1780543549, .ofNat 1), (2529484207, .negSucc 0), (2530059373, .negSucc 0), (2594345867, .ofNat 1), (2595723901, .ofNat 1), (263483089453, .ofNat 1)] 0)) .nil)))

def jac191 : JTree := .node (.node (.node (.node (.node (.leaf (.atom 643)) (.leaf (.adef 27197 [(3217987, .ofNat 1), (4042009, .negSucc 0), (26000659, .negSucc 0), (33050933, .ofNat 1), (1037714653, .ofNat 1), (1512800257, .ofNat 1), (172889527649, .ofNat 1), (190060818049, .negSucc 0)] 0))) (.node (.leaf (.adef 6247 [(500377, .ofNat 1), (1395287, .ofNat 1), (1405423, .ofNat 1), (1875613, .ofNat 1), (2247191, .ofNat 1), (7102121053, .ofNat 1), (10353661597, .ofNat 1)] 0)) .nil)) (.node (.node (.leaf (.adef 22777 [(5725189, .negSucc 0), (7287283, .negSucc 0)] 0)) (.leaf (.trans [] 0))) (.node (.leaf (.adef 40699 [(40627, .ofNat 4), (2291645099, .negSucc 3), (2353305853, .negSucc 3), (2408483699, .negSucc 3), (17767416269, .ofNat 4), (126241077751, .negSucc 1), (146209852121, .negSucc 3), (151559112461, .negSucc 3), (154193889439, .negSucc 3), (157434366223, .negSucc 3), (307371897457, .ofNat 4), (314462442647, .negSucc 3), (17525889135253, .ofNat 4), (18149398988953, .negSucc 3), (18400718369921, .ofNat 4), (31265863472869, .negSucc 1)] 1)) .nil))) (.node (.node (.node (.leaf (.atom 16963)) (.leaf (.adef 45631 [(9579491, .ofNat 1), (9581153, .negSucc 0), (15490493, .negSucc 0), (15506903, .negSucc 0), (19843207, .ofNat 1), (19844609, .ofNat 1), (27795107, .negSucc 0), (34314593, .ofNat 1), (627001499, .ofNat 1)] 0))) (.node (.leaf (.adef 7351 [(1237306943, .ofNat 1), (1685457209, .ofNat 1)] 0)) .nil)) (.node (.node (.leaf (.adef 2417 [(18002693, .negSucc 0), (21571201, .negSucc 0), (51295243, .ofNat 1)] 0)) .nil) (.node (.leaf (.adef 20509 [(8584361, .ofNat 1), (11272477, .negSucc 0), (14325877, .negSucc 0), (23034889, .ofNat 1)] 0)) .nil)))) (.node (.node (.node (.node (.leaf (.atom 35317)) (.leaf (.adef 27751 [(298735093, .ofNat 1), (361767443, .ofNat 1)] 0))) (.node (.leaf (.adef 38219 [(2859319, .ofNat 2), (2956957, .negSucc 0), (5604691, .ofNat 1), (6551123, .negSucc 0), (8803999, .ofNat 1), (9578581, .ofNat 1), (10464227, .negSucc 0), (824853613, .ofNat 1), (148844772473, .ofNat 1), (183699356987, .ofNat 1), (193632132689, .ofNat 1), (265714025693, .negSucc 0)] 0)) .nil)) (.node (.node (.leaf (.adef 23029 [(45713671, .negSucc 0), (50548483, .negSucc 0), (99610421, .ofNat 1), (101738573, .ofNat 1)] 0)) .nil) (.node (.leaf (.adef 26183 [(26177, .ofNat 1), (18589693, .ofNat 1), (1298886371, .negSucc 0), (1746187169, .negSucc 0), (2030566801, .ofNat 1), (2850392833, .negSucc 0), (4398855679, .negSucc 0), (4548956851, .negSucc 0), (6446686409, .negSucc 0), (567821996689, .negSucc 0), (573334283407, .ofNat 1), (972056356009, .negSucc 0)] 0)) .nil))) (.node (.node (.node (.leaf (.atom 3463)) (.leaf (.adef 22229 [(4084919, .negSucc 0), (4171703, .ofNat 1)] 0))) (.node (.leaf (.adef 39929 [(12378677, .ofNat 1), (12387787, .negSucc 0), (12503471, .negSucc 0)] 0)) .nil)) (.node (.node (.leaf (.adef 36571 [(4985207, .negSucc 0), (10560701, .negSucc 0), (28979681, .ofNat 1), (32900671, .ofNat 1), (36573179, .ofNat 1), (838115513, .ofNat 1), (1576852531, .ofNat 1), (1612286201, .ofNat 1), (2289831707, .negSucc 0), (2350433849, .ofNat 1), (134682137479, .ofNat 1), (184819184923, .negSucc 0), (3756871975501, .ofNat 1), (4636608694519, .ofNat 1)] 0)) .nil) (.node (.leaf (.adef 43189 [(5098699, .ofNat 1), (5813111, .negSucc 0), (7511617, .negSucc 0), (10086847, .ofNat 1)] 0)) .nil))))

def jac192 : JTree := .node (.node (.node (.node (.leaf (.atom 1019)) (.leaf (.adef 43973 [(28850299, .ofNat 1), (32336509, .ofNat 1), (4826588477, .negSucc 0), (5206330861, .negSucc 0), (5470365437, .ofNat 2), (517056810913, .ofNat 2), (821231899291, .negSucc 1), (961042120019, .negSucc 1), (1165106613061, .ofNat 1), (1248419521879, .negSucc 1), (1285070212999, .ofNat 1), (1340805909013, .negSucc 0)] 0))) (.node (.leaf (.adef 30431 [(8924107, .ofNat 1), (8952491, .ofNat 1), (11442797, .ofNat 1), (19064197, .ofNat 2), (19123583, .ofNat 2), (25531613, .ofNat 1), (25692599, .ofNat 1), (28148501, .ofNat 1), (30270959, .ofNat 1), (30399823, .ofNat 1), (33852277, .ofNat 1), (37054477, .ofNat 1), (50691959, .ofNat 1), (51183151, .ofNat 1), (1056987401, .ofNat 2), (1081982947, .ofNat 2), (1371888307, .ofNat 1), (1542087299, .ofNat 1), (1705121549, .ofNat 1), (1880423147, .ofNat 1), (2196725579, .ofNat 2), (2473521143, .ofNat 2), (3072996593, .ofNat 1), (3426622831, .ofNat 1), (3510976193, .ofNat 1), (3811692427, .ofNat 1), (4408845299, .ofNat 2), (4446758861, .ofNat 1), (4511682319, .ofNat 1), (4836800251, .ofNat 4), (5095374959, .ofNat 2), (5305252079, .ofNat 1), (5311765087, .ofNat 1), (5703904621, .ofNat 2), (8826072197, .ofNat 1), (49464495323, .ofNat 2), (51289753453, .ofNat 2), (71368652431, .ofNat 2), (86113093771, .ofNat 2), (90815151731, .ofNat 2), (91199228053, .ofNat 2), (112181782507, .ofNat 2), (115918395547, .ofNat 4), (120195827117, .ofNat 4), (140385132539, .ofNat 2), (146849814773, .ofNat 1), (146923524277, .ofNat 2), (149113878223, .ofNat 2), (161434855573, .negSucc 0), (183738650129, .ofNat 2), (189858719009, .ofNat 4), (195948216253, .ofNat 4), (444752943211, .negSucc 0), (485445432379, .ofNat 1), (729308630587, .ofNat 1), (731715187043, .ofNat 1), (758816710459, .ofNat 2), (777305930461, .ofNat 1), (1117710666967, .ofNat 4), (1229980266611, .ofNat 4), (1395315514777, .ofNat 2), (1594131197669, .negSucc 1), (2089507592239, .negSucc 0), (11651792638361, .ofNat 2), (12081748086271, .ofNat 2), (14826668016661, .ofNat 2), (21923651602213, .ofNat 2), (24826038792143, .ofNat 2), (25522345401041, .ofNat 2), (28015382582119, .ofNat 2), (137407831728127, .negSucc 0), (192764509328191, .ofNat 1), (211909771701791, .negSucc 0), (12676361339534863, .ofNat 1), (13935370400039663, .negSucc 0)] 0)) .nil)) (.node (.node (.leaf (.adef 13163 [(542785241, .ofNat 2), (725346263, .negSucc 1), (791286809, .ofNat 2), (3432234991, .negSucc 0), (492040784831, .negSucc 0), (684208073831, .ofNat 1)] 1)) (.leaf (.trans [(15121, .ofNat 1)] 0))) (.node (.leaf (.adef 3547 [(3851753, .ofNat 2), (4837081, .ofNat 2)] 0)) .nil))) (.node (.node (.node (.leaf (.atom 22447)) (.leaf (.adef 14639 [(45403, .ofNat 1), (45413, .ofNat 1), (1571689111, .negSucc 0), (1615942231, .ofNat 1), (1669271741, .ofNat 1), (1733697793, .negSucc 0), (7816452139, .ofNat 1), (7887883021, .ofNat 1), (11291856253, .ofNat 1), (13102092277, .ofNat 1), (402592340747, .negSucc 0), (426010459009, .negSucc 0), (458412108409, .ofNat 1), (485077168523, .ofNat 1), (596797241759, .negSucc 0), (619970033479, .negSucc 0), (679543682773, .ofNat 1), (705929401613, .ofNat 1)] 0))) (.node (.leaf (.adef 12373 [(25424999, .negSucc 0), (35246801, .negSucc 0), (76736299, .ofNat 1)] 0)) .nil)) (.node (.node (.leaf (.adef 35731 [(66103493, .ofNat 1), (75790469, .ofNat 1), (99269609, .negSucc 0), (101764529, .negSucc 0)] 0)) .nil) (.node (.leaf (.adef 42209 [(2390203, .ofNat 1), (2630059, .negSucc 0), (129538889, .ofNat 1), (164835589, .ofNat 1), (37760908553, .negSucc 0), (48049984453, .negSucc 0)] 0)) .nil)))

def jac193 : JTree := .node (.node (.node (.node (.node (.leaf (.atom 1831)) (.leaf (.adef 44269 [(17648989, .ofNat 1), (22128037, .ofNat 1)] 0))) (.node (.leaf (.adef 24419 [(2979401, .negSucc 0), (3433429, .ofNat 1)] 0)) .nil)) (.node (.node (.leaf (.adef 29131 [(220681459, .ofNat 1), (320463323, .negSucc 0), (10193176919, .negSucc 0)] 0)) (.leaf (.trans [] 0))) (.node (.leaf (.adef 32377 [(2534927, .negSucc 0), (3060779, .negSucc 0), (3804239, .ofNat 1), (327790997, .negSucc 0), (404548943, .negSucc 0)] 0)) .nil))) (.node (.node (.node (.leaf (.atom 17053)) (.leaf (.adef 22079 [(45953, .ofNat 1), (87961439, .ofNat 1), (88274063, .ofNat 1), (88334201, .negSucc 0), (113915003, .ofNat 1), (1238903368213, .ofNat 1)] 0))) (.node (.leaf (.adef 25171 [(8237423, .ofNat 1), (250464017, .negSucc 0), (28335631211, .negSucc 0)] 0)) .nil)) (.node (.node (.leaf (.adef 29833 [(20448909007, .ofNat 1), (21853935221, .ofNat 1)] 0)) .nil) (.node (.leaf (.adef 6911 [(798739, .ofNat 1), (1218647, .ofNat 1)] 0)) .nil)))) (.node (.node (.node (.node (.leaf (.atom 2143)) (.leaf (.adef 27851 [(714128089, .ofNat 1), (740479679, .ofNat 1), (788954983, .ofNat 1), (818067713, .ofNat 1), (1311422929, .ofNat 1), (1359814919, .ofNat 1), (2369387959, .ofNat 1), (2457246931, .ofNat 1), (3203415389, .ofNat 1), (3739611433, .ofNat 1), (4328240009, .ofNat 1), (6066350701, .ofNat 1), (8169086581, .ofNat 1), (8187032099, .ofNat 1), (9819582499, .ofNat 1), (10263534167, .ofNat 1), (325751441369, .negSucc 0), (326405323177, .ofNat 1), (338282469043, .negSucc 0), (338961504419, .ofNat 1), (378675658463, .ofNat 1), (392732144771, .ofNat 1), (396945916951, .ofNat 1), (411680597467, .ofNat 1)] 0))) (.node (.leaf (.adef 8663 [(38603, .ofNat 1), (8030261, .ofNat 1), (8615837, .negSucc 0), (10094129, .ofNat 1), (11677417, .ofNat 1), (11924639, .negSucc 0), (13778087, .ofNat 1), (15112987, .ofNat 1), (17327719, .negSucc 0)] 0)) .nil)) (.node (.node (.leaf (.adef 15493 [(8011771, .ofNat 1), (9571967, .negSucc 0), (22730041, .ofNat 1)] 0)) .nil) (.node (.leaf (.adef 26297 [(41641, .negSucc 0), (7522589, .ofNat 1), (7692593, .negSucc 0), (8601941, .negSucc 0), (59301503, .negSucc 0), (76845499, .negSucc 0), (41782643159, .negSucc 0)] 0)) .nil))) (.node (.node (.node (.leaf (.atom 1543)) (.leaf (.atom 907))) (.node (.leaf (.adef 19553 [(27344411, .ofNat 1), (116752487, .negSucc 0), (45385690897, .negSucc 0), (84406626823, .ofNat 1)] 0)) .nil)) (.node (.node (.leaf (.adef 30269 [(2506967, .negSucc 0), (2980597, .ofNat 1)] 0)) .nil) (.node (.leaf (.adef 20963 [(6215545771, .ofNat 1), (6284703443, .ofNat 1), (9167206141, .ofNat 1), (9269205653, .ofNat 1), (16378114661, .negSucc 0), (16560346813, .negSucc 0), (16882773113, .ofNat 1), (18697618403, .ofNat 1), (27577325947, .ofNat 1), (49272116191, .negSucc 0), (190284347917, .ofNat 1), (205996279283, .ofNat 1), (892518982787, .negSucc 0), (893602294451, .ofNat 1), (896284326563, .negSucc 0), (1087200839357, .negSucc 0), (1828337861069, .ofNat 1), (2772378140459, .negSucc 0), (3216773166499, .negSucc 0), (4547147205827, .ofNat 1), (5191154287169, .ofNat 1), (5497675646959, .ofNat 1), (16797682436939, .ofNat 1), (115312851024731, .ofNat 1), (115946931523289, .ofNat 1), (310691796817133, .ofNat 1), (312400224001727, .ofNat 1)] 0)) .nil))))

def jac194 : JTree := .node (.node (.node jac190 (.node (.node (.node (.node (.leaf (.atom 5849)) (.leaf (.adef 44543 [(9400549, .ofNat 1), (15047423, .negSucc 0), (19268387, .ofNat 1), (10412127793, .ofNat 1), (12850308067, .ofNat 1), (146487406631, .negSucc 0), (4688543273831, .negSucc 0), (753431979229273, .negSucc 0), (1033906105906501, .ofNat 1)] 0))) (.node (.leaf (.adef 5309 [(25923, .ofNat 4), (51606531, .negSucc 1), (58168827, .negSucc 1), (68416839, .negSucc 1), (102216820779, .ofNat 3)] 0)) .nil)) (.node (.node (.leaf (.adef 17417 [(40117291, .negSucc 0), (43862191, .negSucc 0), (58059901, .ofNat 1), (62275727, .ofNat 1)] 0)) .nil) (.node (.leaf (.adef 41263 [(18386869, .ofNat 1), (26719969, .negSucc 0)] 0)) .nil))) (.node (.node (.node (.leaf (.atom 10687)) (.leaf (.adef 46237 [(46332467, .negSucc 0), (49732427, .negSucc 0), (50277221, .ofNat 1), (63823103, .ofNat 1), (64793527, .negSucc 0)] 0))) (.node (.leaf (.adef 31541 [(138569391, .ofNat 2), (153524439, .ofNat 1), (249094449, .ofNat 1), (256489083, .ofNat 1), (272013292233, .negSucc 1), (319562488143, .negSucc 1), (360990649809, .negSucc 1), (372154618989, .negSucc 0), (432880884369, .negSucc 0), (539330917559949, .ofNat 4)] 0)) .nil)) (.node (.node (.leaf (.adef 11789 [(3620543279, .ofNat 1), (9309139201, .ofNat 1)] 0)) .nil) (.node (.leaf (.adef 11411 [(5444333, .negSucc 0), (436902877, .negSucc 0), (540492521, .ofNat 1), (784309369, .negSucc 0), (896585741, .ofNat 1), (1938110683, .ofNat 1), (1951258651, .negSucc 0), (1977396053, .negSucc 0), (2069665277, .ofNat 1), (2409190811, .ofNat 1), (2448477457, .negSucc 0), (3185265449, .ofNat 1)] 0)) .nil))))) jac191) (.node (.node jac192 (.node (.node (.node (.node (.leaf (.atom 22349)) (.leaf (.adef 34183 [(102477, .ofNat 2), (147805677, .negSucc 1), (166378599, .negSucc 0), (419317533, .negSucc 0), (272440021131, .ofNat 2)] 0))) (.node (.leaf (.adef 37861 [(23073, .negSucc 3), (72477963, .negSucc 1), (117672651, .negSucc 1), (144660339, .negSucc 0), (229336659, .negSucc 0), (237217293, .negSucc 0), (1196484831, .ofNat 2), (1663773831, .negSucc 1), (6440704929, .negSucc 1), (9389431521, .negSucc 1), (265838405139, .ofNat 2), (290408223591, .ofNat 2), (350895753297, .ofNat 2), (355962016719, .ofNat 1), (415814850999, .ofNat 1), (12757074902361, .ofNat 3), (18597604225689, .ofNat 3), (526544917624251, .negSucc 3)] 0)) .nil)) (.node (.node (.leaf (.adef 22993 [(55297791, .ofNat 2), (64889163, .ofNat 1), (93627116001, .negSucc 1)] 0)) .nil) (.node (.leaf (.adef 12437 [(26568323, .negSucc 0), (33730013, .negSucc 0), (50835007, .ofNat 1)] 0)) .nil))) (.node (.node (.node (.leaf (.atom 5281)) (.leaf (.adef 46691 [(23241859, .negSucc 0), (23254117, .negSucc 0), (23413787, .ofNat 1), (26093279, .ofNat 1), (26495681, .negSucc 0)] 0))) (.node (.leaf (.adef 39623 [(39619, .ofNat 1), (10877393, .negSucc 0), (12789839, .ofNat 1), (18975877, .ofNat 1), (22547011, .ofNat 1), (26432533, .negSucc 0), (28944197, .ofNat 1), (30290543, .negSucc 0), (31371133, .negSucc 0), (37213087, .ofNat 1), (68861357, .negSucc 0)] 0)) .nil)) (.node (.node (.leaf (.adef 29959 [(36313, .negSucc 0), (139638143, .negSucc 0), (1307236201, .negSucc 0)] 0)) .nil) (.node (.leaf (.adef 42853 [(9240443, .ofNat 1), (9245429, .negSucc 0), (13711063, .negSucc 0), (14710471, .negSucc 0), (14715941, .negSucc 0), (18850591, .ofNat 1), (940082701, .ofNat 1), (3210434893, .ofNat 1), (215115962671, .negSucc 0), (223312256941, .ofNat 1)] 0)) .nil))))) jac193)

def jac195 : JTree := .node (.node (.leaf (.atom 1499)) (.leaf (.adef 21059 [(24023269, .ofNat 1), (50196659, .negSucc 0), (50279063, .ofNat 1), (7718086993, .negSucc 1)] 0))) (.node (.leaf (.adef 24113 [(9125929, .negSucc 0), (9128947, .negSucc 0), (9145043, .ofNat 1), (18177853, .negSucc 0), (18189833, .ofNat 1), (28216457, .negSucc 0), (267781333, .negSucc 1), (277662563, .negSucc 1), (379392683, .ofNat 2), (393392413, .ofNat 2), (850186891, .ofNat 2), (881559101, .ofNat 2), (946100867, .negSucc 1), (963764617, .negSucc 1), (983136239, .negSucc 1), (992500711, .negSucc 1), (1086303653, .ofNat 1), (1089980803, .ofNat 1), (4006223311, .ofNat 2), (4213813963, .ofNat 2), (4338842593, .negSucc 1), (4393275899, .ofNat 2), (4485865301, .ofNat 2), (7851701647, .ofNat 2), (7878968213, .ofNat 2), (9841357543, .ofNat 1), (10837903283, .ofNat 1), (13067932729, .ofNat 1), (13192168831, .ofNat 1), (13451266973, .ofNat 1), (13486422871, .ofNat 1), (16735753609, .ofNat 1), (23710001551, .ofNat 1), (27318513371, .negSucc 0), (117885920587, .negSucc 1), (123354818201, .negSucc 1), (125807367893, .negSucc 1), (128889594289, .negSucc 1), (141092879843, .ofNat 2), (142543814087, .negSucc 0), (142799536283, .negSucc 0), (143898098999, .ofNat 2), (144430923893, .negSucc 1), (146161687193, .negSucc 1), (147621421603, .negSucc 1), (149104975979, .ofNat 1), (149302806649, .ofNat 1), (159804669371, .negSucc 1), (178480109383, .ofNat 1), (187159951369, .negSucc 1), (191294338799, .negSucc 1), (194752674821, .ofNat 1), (195410296327, .ofNat 1), (200969264611, .ofNat 1), (217369212971, .ofNat 1), (217657615801, .ofNat 1), (268927054661, .negSucc 0), (269928256757, .ofNat 1), (275135772713, .ofNat 1), (276457004059, .negSucc 0), (282810751837, .negSucc 0), (283765719119, .negSucc 0), (815440707491, .ofNat 1), (882272012161, .ofNat 1), (967359729599, .ofNat 1), (1104601417151, .ofNat 1), (1637926729781, .ofNat 1), (1705336598111, .ofNat 1), (3501709071793, .ofNat 1), (4047393857509, .ofNat 1), (4252504318781, .negSucc 0), (6696944057773, .ofNat 1), (9762983760877, .ofNat 1), (25047971465753, .ofNat 1), (34332813458113, .ofNat 1), (36373496018641, .negSucc 0), (40523772924269, .ofNat 1), (48236565337897, .ofNat 2), (49856510549561, .negSucc 0), (59076637579181, .ofNat 1), (1533171603277261, .ofNat 2), (1900913588116079, .ofNat 2), (1950929533325561, .ofNat 2), (2226400300876517, .negSucc 1), (2464723761573223, .negSucc 1), (2760418061145463, .negSucc 1), (2774901969709253, .ofNat 2), (2833048884221617, .negSucc 1), (3210860193873991, .negSucc 1), (3579156901037231, .ofNat 2), (3639803762852317, .ofNat 2), (4029583229338141, .negSucc 1), (4662661431005327, .ofNat 2), (5285553277548149, .negSucc 1), (252007628035296139, .ofNat 2), (261306802501543229, .ofNat 2), (312157201048186223, .negSucc 1), (320674556655267839, .ofNat 2), (323675916954023353, .negSucc 1), (365953724737423283, .negSucc 1), (379457552218509013, .negSucc 1), (397213659099463123, .negSucc 1), (453300129515098231, .ofNat 2), (465668636110018183, .negSucc 1), (470027071563625841, .ofNat 2), (576815151181337531, .ofNat 2)] 0)) .nil)

def jac196 : JTree := .node (.node (.node (.node (.leaf (.atom 22303)) (.leaf (.adef 34039 [(6989863, .negSucc 0), (7295741, .negSucc 0)] 0))) (.node (.leaf (.adef 37663 [(18461, .ofNat 1), (13038594053, .negSucc 0)] 0)) .nil)) (.node (.node (.leaf (.adef 10973 [(8304442331, .negSucc 0), (141488241929, .negSucc 0), (157831321267, .ofNat 1), (71136826970017, .negSucc 0), (78202096513217, .ofNat 1), (3068074802016473, .ofNat 1), (3372794261377273, .negSucc 0), (3422463189494179, .negSucc 0), (3762380303672579, .ofNat 1)] 0)) (.leaf (.trans [] 0))) (.node (.leaf (.adef 11867 [(4886801, .negSucc 0), (1409251769, .negSucc 0), (5103204000793, .negSucc 0)] 0)) .nil))) (.node (.node (.node (.leaf (.atom 7559)) (.leaf (.adef 46471 [(892124441, .ofNat 1), (953790721, .ofNat 1), (996237827, .negSucc 0), (1342127657, .negSucc 0)] 0))) (.node (.leaf (.adef 39419 [(4073, .ofNat 1), (1542701, .negSucc 0), (1611893, .ofNat 1), (1822507, .negSucc 0), (9024535073, .negSucc 0)] 0)) .nil)) (.node (.node (.leaf (.adef 29881 [(10164047, .ofNat 1), (11783647, .ofNat 1), (18616363, .ofNat 1), (22002787, .ofNat 1), (22905611, .ofNat 1), (23259853, .ofNat 1), (24838283, .ofNat 1), (30864161, .ofNat 1), (41545727, .negSucc 0), (48126857, .ofNat 1), (50597749, .ofNat 1), (596512463, .ofNat 1), (618523993, .ofNat 1), (1328502433, .negSucc 0), (1377524663, .negSucc 0), (1570842587, .ofNat 1), (1726857787, .negSucc 0), (1846650097, .ofNat 1), (1939748353, .ofNat 1), (1995197507, .ofNat 1), (2175908051, .negSucc 0), (2245697767, .negSucc 0), (2307717767, .negSucc 0), (2361443353, .ofNat 1), (2391475001, .negSucc 0), (2485471133, .negSucc 0), (2518861463, .ofNat 1), (3729423443, .ofNat 1), (3916913947, .negSucc 0), (4051917997, .negSucc 0), (4523710157, .ofNat 1), (6560202217, .negSucc 0), (6760649473, .ofNat 1), (7746767617, .ofNat 1), (8116105463, .ofNat 1), (8152700849, .ofNat 1), (8194972363, .ofNat 1), (8491034801, .ofNat 1), (8512050931, .negSucc 0), (9085692881, .ofNat 1), (9476844809, .ofNat 1), (9768436907, .ofNat 1), (12934725943, .ofNat 1), (14213205857, .ofNat 1), (15980998843, .ofNat 1), (16004122469, .ofNat 1), (17729401103, .ofNat 1), (30684992263, .negSucc 0), (37382261053, .ofNat 1), (45564724577, .ofNat 1), (264386229553, .ofNat 1), (267327133477, .ofNat 1), (277336748839, .ofNat 1), (291701216563, .ofNat 1), (299387296883, .ofNat 1), (301487884007, .ofNat 1), (307784341421, .ofNat 1), (312835583371, .ofNat 1), (337848890539, .ofNat 1), (345561890417, .negSucc 0), (355254013679, .negSucc 0), (372753651169, .ofNat 1), (605201994073, .ofNat 1), (665310314873, .negSucc 0), (994464009359, .negSucc 0), (1085452088351, .ofNat 1), (1378667907577, .ofNat 1), (1515596426777, .negSucc 0), (1858822627087, .ofNat 1), (2043439842287, .negSucc 0), (2825032350601, .negSucc 0), (3706077726061, .negSucc 0), (260619285099769, .ofNat 1), (286503845542169, .negSucc 0), (341898855524509, .ofNat 1), (375856057070909, .negSucc 0)] 0)) .nil) (.node (.leaf (.adef 33329 [(53258053, .ofNat 1), (98082653, .ofNat 1), (121050407, .ofNat 1), (13833517669, .ofNat 1)] 0)) .nil)))

def jac197 : JTree := .node (.node (.node (.node jac195 (.node (.node (.leaf (.adef 14897 [(4013, .negSucc 0), (533627, .negSucc 0), (610361, .ofNat 1)] 0)) .nil) (.node (.leaf (.adef 40253 [(12862141, .ofNat 1), (13502831, .ofNat 1), (14569487, .ofNat 1), (22668857, .ofNat 1), (23456731, .ofNat 1), (26834837, .ofNat 1), (29195821, .ofNat 1), (30573857, .ofNat 1), (33950167, .ofNat 1), (37871371, .ofNat 1), (62965241, .ofNat 1), (64329401, .ofNat 1), (77448689, .ofNat 1), (77608123, .ofNat 1), (787449307, .ofNat 1), (816506477, .ofNat 1), (1729769423, .negSucc 0), (1793598553, .negSucc 0), (2327459923, .ofNat 1), (2408229853, .ofNat 1), (2470573939, .ofNat 1), (2682983059, .negSucc 0), (2829445147, .negSucc 0), (2868309149, .ofNat 1), (2894229469, .ofNat 1), (2898441097, .negSucc 0), (3107874883, .negSucc 0), (3187755059, .negSucc 0), (3191726927, .negSucc 0), (3224833837, .negSucc 0), (3571242217, .ofNat 1), (3575691901, .ofNat 1), (4321298677, .ofNat 1), (4780681427, .ofNat 1), (5083661087, .negSucc 0), (5150901739, .ofNat 1), (5211306013, .negSucc 0), (6471827917, .negSucc 0), (7250389271, .ofNat 1), (7593069089, .negSucc 0), (8885747401, .negSucc 0), (9477713177, .ofNat 1), (9629127517, .ofNat 1), (9636507161, .ofNat 1), (10270641497, .ofNat 1), (10567875497, .ofNat 1), (10593758179, .ofNat 1), (10801292563, .ofNat 1), (11306412203, .ofNat 1), (11561122019, .ofNat 1), (12183094501, .negSucc 0), (12485124439, .ofNat 1), (14670446177, .ofNat 1), (15598204381, .ofNat 1), (17206163731, .ofNat 1), (19374204127, .ofNat 1), (21380184101, .ofNat 1), (22773061939, .ofNat 1), (25361751731, .ofNat 1), (32481577411, .ofNat 1), (46436511223, .ofNat 1), (57118990601, .ofNat 1), (336348623201, .ofNat 1), (353324707639, .ofNat 1), (358791631831, .ofNat 1), (365026649101, .ofNat 1), (372071644829, .ofNat 1), (372601410989, .ofNat 1), (393849454723, .ofNat 1), (408887647939, .negSucc 0), (418538454953, .ofNat 1), (422429806801, .negSucc 0), (434177093291, .ofNat 1), (435679542967, .ofNat 1), (1155993067897, .negSucc 0), (1235842873367, .ofNat 1), (2152500946511, .ofNat 1), (2822379834983, .ofNat 1), (3418777981877, .negSucc 0), (4000806157693, .negSucc 0), (4482734398781, .negSucc 0), (4780234821953, .negSucc 0), (5245895311429, .negSucc 0), (5355297407539, .ofNat 1), (30352497615571, .negSucc 0)] 0)) .nil))) (.node (.node (.node (.leaf (.atom 10589)) (.leaf (.adef 28069 [(6799393, .ofNat 1), (7229371, .ofNat 1), (320107783, .negSucc 0), (342219113, .ofNat 1)] 0))) (.node (.leaf (.adef 9791 [(992791, .negSucc 0), (1279849, .ofNat 1), (6055593119, .ofNat 1), (6348563831, .ofNat 1)] 0)) .nil)) (.node (.node (.leaf (.adef 23333 [(11558201, .ofNat 1), (18202241, .negSucc 0), (18429881, .ofNat 1)] 0)) .nil) (.node (.leaf (.adef 14159 [(69133, .negSucc 0), (178051, .ofNat 1)] 0)) .nil)))) jac196) (.node (.node (.node (.node (.node (.leaf (.atom 28463)) (.leaf (.adef 16607 [(2495357, .ofNat 1), (3001301, .ofNat 1), (261771163, .negSucc 0), (356242349, .negSucc 0), (381616987, .negSucc 0), (495373349, .ofNat 1)] 0))) (.node (.leaf (.adef 37309 [(2146121, .ofNat 1), (9830687, .ofNat 1), (45392111, .ofNat 1), (221187977, .negSucc 0), (855051079, .ofNat 1), (875463047, .ofNat 1)] 0)) .nil)) (.node (.node (.leaf (.adef 15137 [(315253, .ofNat 1), (548491, .negSucc 0), (59810671, .ofNat 1)] 0)) (.leaf (.trans [] 0))) (.node (.leaf (.adef 32341 [(1440059, .negSucc 0), (1579547, .ofNat 1), (2123549, .negSucc 0), (2886731, .negSucc 0)] 0)) .nil))) (.node (.node (.node (.leaf (.adef 5981 [(751, .ofNat 1), (270349, .ofNat 1), (672449, .negSucc 0)] 0)) (.leaf (.adef 34687 [(137271, .ofNat 2), (694889469, .negSucc 0)] 0))) (.node (.leaf (.adef 8761 [(3199873, .ofNat 1), (4071773, .ofNat 1), (795056681, .negSucc 0), (959659973, .negSucc 0), (1170812879, .negSucc 0), (1230193241, .negSucc 0), (1255699657, .negSucc 0), (1261896847, .negSucc 0), (1410266917, .negSucc 0), (1628222377, .negSucc 0), (1920349517, .negSucc 0), (2050698523, .negSucc 0), (2387112589, .negSucc 0), (2885129707, .negSucc 0), (3087396043, .negSucc 0), (3156075151, .negSucc 0), (3946080877, .negSucc 0), (156256053269, .negSucc 0), (161108410973, .negSucc 0), (179652692741, .negSucc 0)] 0)) .nil)) (.node (.node (.leaf (.adef 35993 [(18024887, .negSucc 0), (20284073, .negSucc 0), (22053593, .ofNat 1), (22147927, .ofNat 1), (26151001, .ofNat 1), (29952779, .ofNat 1)] 0)) .nil) (.node (.leaf (.adef 16363 [(48053683, .ofNat 1), (17878225303, .negSucc 0), (29478766033, .negSucc 0)] 0)) .nil)))) (.node (.node (.node (.node (.leaf (.atom 48397)) (.leaf (.adef 44987 [(407229468431, .ofNat 1), (1113396578639, .negSucc 0)] 0))) (.node (.leaf (.adef 38377 [(2787413, .ofNat 1), (3379661, .negSucc 0), (7001563, .negSucc 0), (329508503, .negSucc 0), (452172011, .ofNat 1), (24883226611, .ofNat 1), (26403503993, .ofNat 1)] 0)) .nil)) (.node (.node (.leaf (.adef 7297 [(174674083, .negSucc 0), (182652751, .negSucc 0), (791505263, .negSucc 0), (827659211, .negSucc 0)] 0)) .nil) (.node (.leaf (.adef 41549 [(41543, .ofNat 1), (11607929, .ofNat 1), (13668199, .ofNat 1), (18297947, .negSucc 0), (22729381, .negSucc 0), (26597273, .negSucc 0), (29452921, .negSucc 0), (30582911, .ofNat 1), (32238659, .ofNat 1), (38238931, .ofNat 1), (69134641, .negSucc 0)] 0)) .nil))) (.node (.node (.node (.leaf (.atom 3929)) (.leaf (.atom 49123))) (.node (.leaf (.adef 40039 [(18172079, .negSucc 0), (22595849, .ofNat 1), (26479841, .ofNat 1), (30328933, .ofNat 1)] 0)) .nil)) (.node (.node (.leaf (.adef 36709 [(3427517, .negSucc 0), (4084841, .negSucc 0)] 0)) .nil) (.node (.leaf (.adef 43411 [(5115689, .ofNat 1), (5820259, .negSucc 0), (7559449, .ofNat 1), (10062883, .negSucc 0)] 0)) .nil)))))

def jac198 : JTree := .node (.node (.node (.node (.node (.leaf (.atom 1693)) (.leaf (.adef 44089 [(10794827, .negSucc 0), (23823029, .ofNat 1), (26059879, .negSucc 0)] 0))) (.node (.leaf (.adef 18289 [(104334259, .ofNat 1), (104546779, .negSucc 0), (78993128141, .negSucc 0), (79206099073, .ofNat 1)] 0)) .nil)) (.node (.node (.leaf (.adef 15017 [(778429579, .negSucc 3), (813986263, .negSucc 3), (900811189, .ofNat 4), (975823417, .negSucc 3), (251851747523, .ofNat 2), (320501371459, .negSucc 1), (42569213198329, .ofNat 2), (45509666292119, .negSucc 1), (47823938295377, .ofNat 2), (51127359635647, .negSucc 1)] 1)) (.leaf (.trans [(443, .ofNat 1)] 0))) (.node (.leaf (.adef 40529 [(4890727, .ofNat 1), (24469100531, .negSucc 0)] 0)) .nil))) (.node (.node (.node (.leaf (.atom 35419)) (.leaf (.adef 22027 [(4585037, .ofNat 1), (4767713, .ofNat 1), (12153409, .ofNat 1), (13153219, .negSucc 0), (127453903, .ofNat 1), (127600969, .ofNat 1), (18434626979, .ofNat 1), (27696806593, .negSucc 0), (43482752809, .negSucc 0)] 0))) (.node (.leaf (.adef 25013 [(1278653, .negSucc 0), (2185397, .negSucc 0), (282060517, .negSucc 0), (13384573243, .ofNat 1), (54759074039, .negSucc 0), (76145315039, .ofNat 1), (3827670528631, .ofNat 1)] 0)) .nil)) (.node (.node (.leaf (.adef 2399 [(17925269, .ofNat 1), (21466927, .ofNat 1), (51047329, .ofNat 1)] 0)) .nil) (.node (.leaf (.adef 26489 [(1000325437, .ofNat 1), (1019197667, .ofNat 1), (1226381099, .ofNat 1), (1275063943, .negSucc 0), (1397067913, .ofNat 1), (1680978979, .ofNat 1), (2392150741, .ofNat 1), (2399754677, .ofNat 1), (2880940373, .ofNat 1), (2895492511, .ofNat 1), (2913576697, .ofNat 1), (3038686627, .ofNat 1), (3378696493, .ofNat 1), (4296689759, .ofNat 1), (8453775689, .ofNat 1), (35438859971, .ofNat 1), (36525345583, .ofNat 1), (38945488861, .negSucc 0), (39983570621, .negSucc 0), (40235344399, .negSucc 0), (40778526953, .negSucc 0), (41497347433, .ofNat 1), (45286206437, .ofNat 1), (45923235343, .ofNat 1), (48241058777, .ofNat 1), (49838779043, .ofNat 1), (53774090189, .ofNat 1), (75066065863, .ofNat 1), (93071189357, .ofNat 1), (95520034763, .ofNat 1), (120676065109, .negSucc 0), (135862791599, .ofNat 1), (152708798923, .ofNat 1), (153036173959, .ofNat 1), (157207870453, .negSucc 0), (178209502711, .ofNat 1), (196558603771, .negSucc 0), (197886786359, .ofNat 1), (198311013347, .ofNat 1), (666867424841, .ofNat 1), (807363721819, .ofNat 1), (12338619606337, .ofNat 1), (12793919222807, .ofNat 1), (15283620544109, .negSucc 0), (15700641297437, .ofNat 1), (15847591781899, .negSucc 0), (19448094806809, .negSucc 0), (24129569395931, .ofNat 1), (28254665230513, .ofNat 1), (29694003820541, .ofNat 1), (30704383945231, .ofNat 1), (38683156445597, .ofNat 1), (43165398440261, .negSucc 0), (47985275670509, .ofNat 1), (63275409901633, .ofNat 1), (4087775935069537, .ofNat 1), (4238616375478007, .ofNat 1), (5201611339720637, .ofNat 1), (6678552026380693, .negSucc 0)] 0)) .nil)))) (.node (.node (.node (.node (.leaf (.atom 48119)) (.leaf (.adef 44953 [(44939, .ofNat 1), (10890107, .negSucc 0), (30989921, .ofNat 1), (33927199, .negSucc 0), (40359827, .negSucc 0)] 0))) (.node (.leaf (.adef 38011 [(9781, .ofNat 1), (2096141, .ofNat 1), (2865959, .ofNat 1), (3405341, .negSucc 0), (4424099, .negSucc 0), (5127883, .negSucc 0), (91489687, .ofNat 1), (97124669, .ofNat 1), (507978421, .ofNat 1)] 0)) .nil)) (.node (.node (.leaf (.adef 12163 [(14842483, .ofNat 1), (57395501, .ofNat 1)] 0)) .nil) (.node (.leaf (.adef 26111 [(2190373, .negSucc 0), (267789923, .negSucc 0), (284182159, .negSucc 0), (15718177471, .ofNat 1), (55170968453, .negSucc 0), (76718075453, .ofNat 1)] 0)) .nil))) (.node (.node (.node (.leaf (.atom 48647)) (.leaf (.adef 47041 [(757863067, .negSucc 0), (758349943, .ofNat 1), (809809403, .negSucc 0), (810329039, .ofNat 1), (851471153, .ofNat 1), (852016997, .negSucc 0), (1143004369, .ofNat 1), (1143370267, .ofNat 1), (1190970391, .negSucc 0), (1205426053, .ofNat 1), (1208988911, .negSucc 0), (1214496127, .ofNat 1), (7039751566159, .ofNat 1), (7621259018321, .ofNat 1), (7981367766983, .negSucc 0), (10776298063193, .negSucc 0)] 0))) (.node (.leaf (.adef 25409 [(3077941, .negSucc 0), (5488411, .negSucc 0), (7709183, .negSucc 0), (10370303, .ofNat 1), (11575637, .ofNat 1), (12700279, .negSucc 0)] 0)) .nil)) (.node (.node (.leaf (.adef 36451 [(115708779, .ofNat 2), (140890383, .ofNat 1), (261814708593, .negSucc 1)] 0)) .nil) (.node (.leaf (.adef 43003 [(16959, .ofNat 2), (117270441, .ofNat 2), (157048677, .ofNat 1), (6343387209, .ofNat 1), (9211571073, .negSucc 0), (263288958327, .negSucc 1)] 0)) .nil))))

def jac199 : JTree := .node (.leaf (.adef 37483 [(9897827, .ofNat 1), (9931249, .ofNat 1), (11851297, .negSucc 0), (12536813, .negSucc 0), (12563071, .ofNat 1), (13499567, .negSucc 0), (19157987, .ofNat 1), (19222837, .ofNat 1), (19999139, .negSucc 0), (20095177, .ofNat 1), (21516023, .ofNat 1), (21530203, .negSucc 0), (26883091, .ofNat 1), (26931319, .ofNat 1), (28769341, .ofNat 1), (30306277, .ofNat 1), (30346487, .ofNat 1), (33745181, .ofNat 1), (37029997, .ofNat 1), (50780357, .ofNat 1), (51263123, .ofNat 1), (58449437, .ofNat 1), (58602199, .ofNat 1), (80857529, .ofNat 1), (93121771, .ofNat 1), (353559337, .negSucc 0), (366605807, .negSucc 0), (833726351, .negSucc 0), (864491161, .negSucc 0), (997496329, .ofNat 1), (1015036733, .ofNat 1), (1142358479, .negSucc 0), (1146611423, .ofNat 1), (1232524729, .negSucc 0), (1255816879, .ofNat 1), (1260492223, .negSucc 0), (1264361611, .negSucc 0), (1363755739, .negSucc 0), (1397010889, .negSucc 0), (4408162537, .ofNat 1), (4523571557, .ofNat 1), (5307833239, .ofNat 1), (5520777859, .ofNat 1), (5592222821, .ofNat 1), (5705301149, .ofNat 1), (5820638051, .ofNat 1), (6197597489, .ofNat 1), (6882813523, .ofNat 1), (6891350117, .ofNat 1), (7434802567, .negSucc 0), (15540292871, .negSucc 0), (77919686107, .ofNat 1), (86066029033, .ofNat 1), (89241897263, .ofNat 1), (96609270473, .ofNat 1), (99151208207, .ofNat 1), (125263539601, .negSucc 0), (141027586211, .ofNat 1), (142998406517, .ofNat 1), (151018224491, .negSucc 0), (152276909791, .ofNat 1), (152411394841, .ofNat 1), (152859235891, .negSucc 0), (158499798101, .negSucc 0), (158640369949, .negSucc 0), (161016735689, .ofNat 1), (163184093617, .negSucc 0), (163894461391, .negSucc 0), (165114524177, .negSucc 0), (173279927617, .ofNat 1), (176835703393, .negSucc 0), (178446529711, .ofNat 1), (181452390607, .ofNat 1), (184984098379, .ofNat 1), (187462005013, .ofNat 1), (190696271177, .negSucc 0), (193341850771, .negSucc 0), (194908776367, .negSucc 0), (197327125403, .ofNat 1), (197501397053, .ofNat 1), (1103584737623, .ofNat 1), (1274006451101, .ofNat 1), (1322689403951, .ofNat 1), (1414847522537, .negSucc 0), (1646604493993, .negSucc 0), (1879305204253, .ofNat 1), (2656806693641, .ofNat 1), (5175593564101, .negSucc 0), (6375281093099, .ofNat 1), (8694044671423, .ofNat 1), (12674410329727, .ofNat 1), (12807669559693, .ofNat 1), (13280277292523, .ofNat 1), (15864624070601, .negSucc 0), (16297497777593, .ofNat 1), (16450034552911, .negSucc 0), (19387741972139, .ofNat 1), (20187409920901, .negSucc 0), (28263967624811, .ofNat 1), (34047792560689, .ofNat 1), (37889022920887, .ofNat 1), (39646749255101, .ofNat 1), (40435008879593, .ofNat 1), (46668709769369, .ofNat 1), (46976971368893, .ofNat 1), (49442616494633, .negSucc 0), (67770123872593, .negSucc 0), (149331965171899, .negSucc 0), (159647016966389, .ofNat 1), (251120334106909, .ofNat 1), (387691604983549, .ofNat 1), (398849845078063, .negSucc 0), (466751840757767, .negSucc 0), (543888870935567, .negSucc 0), (609318740396221, .ofNat 1), (615763502926543, .negSucc 0), (720593857586087, .negSucc 0), (1964075541964973, .ofNat 1), (2299846135464679, .ofNat 1), (2417004037244603, .ofNat 1), (2499245989366873, .ofNat 1), (2852138904886981, .negSucc 0), (3148694459239451, .ofNat 1), (3339729301679663, .negSucc 0), (3509860542837091, .negSucc 0), (3629288470251281, .negSucc 0), (3905859436297547, .ofNat 1), (4572387250346947, .negSucc 0), (5150431114471639, .ofNat 1), (5671906918681459, .negSucc 0), (7479215867546783, .negSucc 0), (332732864120524471, .ofNat 1), (345010829586226481, .ofNat 1), (423395769875435771, .ofNat 1), (483179147856597887, .negSucc 0), (501008636707394857, .negSucc 0), (614835591414253987, .negSucc 0)] 0)) .nil

def jac200 : JTree := .node (.node (.node (.node (.node (.leaf (.atom 47777)) (.leaf (.adef 7927 [(44383, .ofNat 1), (840283, .ofNat 1), (1559237, .ofNat 1), (184368673, .ofNat 1), (186838319, .ofNat 1), (231349411, .ofNat 1), (278973133, .ofNat 1), (290577433, .ofNat 1), (488146573, .ofNat 1), (508225631, .ofNat 1), (2502575717, .ofNat 1), (2678022533, .ofNat 1), (3422849987, .ofNat 1), (62913762689, .ofNat 1), (63756501967, .ofNat 1), (67313200151, .ofNat 1), (68214870553, .ofNat 1), (78945417923, .ofNat 1), (84465917957, .ofNat 1)] 0))) jac199) (.node (.node (.leaf (.adef 2099 [(7506128143, .ofNat 1), (7869276007, .ofNat 1)] 0)) (.leaf (.trans [(47269, .ofNat 1)] 0))) (.node (.leaf (.adef 14011 [(41189, .ofNat 1), (8749693, .ofNat 1), (10840787, .ofNat 1), (11582569, .negSucc 0), (14589637, .ofNat 1), (17503697, .ofNat 1), (19656787, .negSucc 0), (22294919, .negSucc 0), (24424271, .ofNat 1), (28915921, .ofNat 1), (43551847, .ofNat 1)] 0)) .nil))) (.node (.node (.node (.leaf (.atom 48589)) (.leaf (.adef 34781 [(20495011, .negSucc 0), (20949311, .ofNat 1), (21200033, .ofNat 1), (21588751, .negSucc 0)] 0))) (.node (.leaf (.adef 25309 [(3495583087, .ofNat 4), (3550190333, .negSucc 3), (3712354001, .negSucc 3), (3786666811, .negSucc 3), (417995080619, .negSucc 3), (437088033143, .negSucc 3), (476006031287, .negSucc 3), (515643941411, .ofNat 4), (575982885311, .negSucc 3), (602292319067, .negSucc 3), (638011039151, .ofNat 1), (736338327121, .negSucc 0), (1077753310969, .negSucc 1), (1132711474813, .negSucc 1), (1203868429069, .ofNat 2), (1226477898307, .ofNat 2), (1303770507679, .negSucc 1), (1433224321033, .negSucc 1), (1465237888417, .negSucc 1), (1561355952901, .negSucc 1), (62934630803053, .ofNat 4), (68175314902609, .negSucc 3), (68692809183517, .negSucc 3), (74412987537601, .ofNat 4), (104060084728861, .ofNat 1), (106022533790891, .ofNat 1), (113581019745229, .negSucc 0), (115723022283899, .negSucc 0), (150302275721671, .negSucc 1), (168916682656633, .negSucc 1), (21641448665118941, .ofNat 2), (23621524185310349, .negSucc 1), (27550439147193563, .negSucc 1), (30071155341844907, .ofNat 2)] 1)) .nil)) (.node (.node (.leaf (.adef 17863 [(26309303, .negSucc 0), (30656027, .ofNat 1), (33562337, .negSucc 0), (10446060761, .ofNat 1)] 0)) .nil) (.node (.leaf (.adef 9199 [(7102831, .ofNat 1), (14778383, .ofNat 1), (2906739683, .ofNat 2), (3124551707, .ofNat 1), (4482123257, .ofNat 1)] 0)) .nil)))) (.node (.node (.node (.node (.leaf (.atom 4229)) (.leaf (.adef 45289 [(89893217, .ofNat 1), (14580809422241, .ofNat 1)] 0))) (.node (.leaf (.adef 6857 [(38693, .ofNat 1), (1205600947, .ofNat 1)] 0)) .nil)) (.node (.node (.leaf (.adef 29531 [(352960773859, .ofNat 1), (1863624830351171, .ofNat 1), (2706269066127787, .negSucc 0)] 0)) .nil) (.node (.leaf (.adef 32797 [(143126469, .ofNat 2), (159649641, .ofNat 1), (250560927, .ofNat 1), (256167729, .ofNat 1), (272307155859, .negSucc 1), (319012956279, .negSucc 1), (361528734429, .negSucc 1), (374345581347, .negSucc 0), (433728820719, .negSucc 0), (540134832209769, .ofNat 4)] 0)) .nil))) (.node (.node (.node (.leaf (.atom 3121)) .nil) (.node (.leaf (.adef 19661 [(746003, .ofNat 1), (1315879, .ofNat 1)] 0)) .nil)) (.node (.node (.leaf (.adef 15667 [(33909971, .ofNat 1), (33983231, .negSucc 0), (34500881, .ofNat 1), (34505813, .negSucc 0)] 0)) .nil) (.node (.leaf (.adef 9281 [(1258757, .ofNat 1), (1290283219, .negSucc 0), (1702844149, .ofNat 1)] 0)) .nil))))

def jac201 : JTree := .node (.node (.node (.node (.leaf (.atom 48259)) (.leaf (.adef 27743 [(619050707357, .ofNat 1)] 0))) (.node (.leaf (.adef 15797 [(34123399, .negSucc 0), (34598953, .ofNat 1), (34867073, .ofNat 1), (35053913, .negSucc 0)] 0)) .nil)) (.node (.node (.leaf (.adef 4129 [(20179727, .ofNat 1), (6752273309, .ofNat 1), (7080356341, .ofNat 1)] 0)) .nil) (.node (.leaf (.adef 32609 [(5716229, .ofNat 1), (13510157, .ofNat 1)] 0)) .nil))) (.node (.node (.node (.leaf (.atom 2351)) (.leaf (.adef 47297 [(25173667, .negSucc 0), (25364077, .ofNat 1), (25541279, .negSucc 0), (33762737, .ofNat 1), (33771929, .negSucc 0), (34047887, .negSucc 0)] 0))) (.node (.leaf (.adef 39883 [(9976397, .ofNat 1), (10008109, .ofNat 1), (13428203, .negSucc 0), (13433731, .ofNat 1), (19201459, .ofNat 1), (19250897, .ofNat 1), (22579523, .negSucc 0), (22580941, .ofNat 1), (27179129, .ofNat 1), (27366487, .ofNat 1), (28860737, .ofNat 1), (30686317, .ofNat 1), (30841319, .ofNat 1), (34349069, .ofNat 1), (37304837, .ofNat 1), (51030757, .ofNat 1), (51620873, .ofNat 1), (58700591, .negSucc 0), (58953319, .negSucc 0), (80897287, .negSucc 0), (93275443, .ofNat 1), (365757047, .ofNat 2), (379253617, .ofNat 2), (1302551053, .ofNat 2), (1307170939, .ofNat 2), (1744478111, .ofNat 1), (1792594051, .ofNat 1), (2036658847, .ofNat 1), (2391125431, .ofNat 1), (2529689119, .ofNat 1), (2848439323, .ofNat 1), (3747473621, .ofNat 1), (3829852639, .ofNat 1), (3997489343, .ofNat 1), (5168040809, .ofNat 1), (5908634143, .ofNat 2), (6671333891, .ofNat 2), (7442497057, .ofNat 2), (8796846811, .ofNat 2), (10983947837, .ofNat 1), (11595941389, .negSucc 0), (17678726761, .ofNat 1), (19870630757, .ofNat 2), (100631686627, .ofNat 2), (117835282121, .ofNat 2), (123838002997, .ofNat 2), (128051764727, .ofNat 2), (150362012083, .ofNat 2), (155910425813, .ofNat 2), (156228316021, .ofNat 2), (161327009749, .ofNat 2), (164113423619, .ofNat 2), (169548779921, .ofNat 2), (182936491583, .ofNat 2), (200121234853, .ofNat 2), (201508085983, .ofNat 2), (201530746589, .ofNat 2), (224929509253, .negSucc 0), (225522852671, .negSucc 0), (230122555681, .ofNat 1), (231192312661, .ofNat 1), (235811640397, .negSucc 0), (236433689879, .negSucc 0), (241255927369, .ofNat 1), (242377439389, .ofNat 1), (245952471887, .ofNat 2), (251950016837, .ofNat 2), (263888307161, .ofNat 2), (512646454399, .negSucc 0), (548057323889, .ofNat 1), (1096043864561, .negSucc 0), (1514797071691, .ofNat 1), (1558571421871, .ofNat 2), (1654531969339, .ofNat 2), (1740826473227, .ofNat 1), (1856765211761, .ofNat 1), (1877993649661, .ofNat 2), (2037192619843, .ofNat 1), (2080134197443, .negSucc 0), (2175724471237, .negSucc 1), (2405924552137, .negSucc 0), (2815519994033, .negSucc 0), (17047953908729, .ofNat 2), (17677029698719, .ofNat 2), (21693172957429, .ofNat 2)] 0)) .nil)) (.node (.node (.leaf (.adef 36541 [(2976143, .ofNat 2), (3970541, .ofNat 2), (493496371, .ofNat 2), (719432179, .ofNat 2), (23146462649, .negSucc 1)] 0)) .nil) (.node (.leaf (.adef 20887 [(8555851, .ofNat 1), (11258633, .negSucc 0), (14359993, .ofNat 1), (22889137, .negSucc 0)] 0)) .nil)))

def jac202 : JTree := .node (.node (.node (.node (.node (.node (.leaf (.atom 311)) (.leaf (.adef 33703 [(28140601, .ofNat 1), (30644171, .ofNat 1), (4065425563, .ofNat 2), (4544543741, .negSucc 0), (4902157357, .negSucc 0), (718663385641, .negSucc 1), (991082046023, .negSucc 1), (1136445772039, .ofNat 1), (1253458347901, .ofNat 1), (1270634549747, .negSucc 0), (66299254149529, .ofNat 2), (72884058687929, .negSucc 1)] 0))) (.node (.leaf (.trans [(688273, .ofNat 1)] 0)) .nil)) (.node (.node (.leaf (.adef 14851 [(20265991, .negSucc 0), (24132259, .negSucc 0), (33115783, .ofNat 1)] 0)) .nil) (.node (.leaf (.adef 8893 [(776353, .ofNat 1), (1170283, .ofNat 1)] 0)) .nil))) (.node (.node (.node (.leaf (.atom 4423)) (.leaf (.adef 34457 [(13916146063, .ofNat 1), (14872311989, .ofNat 1)] 0))) (.node (.leaf (.adef 8689 [(8705023, .ofNat 1), (10763947, .negSucc 0), (11691523, .negSucc 0), (12739123, .ofNat 1), (14190679, .negSucc 0), (15416407, .ofNat 1), (18938929, .ofNat 1), (26419697, .negSucc 0)] 0)) .nil)) (.node (.node (.leaf (.adef 23251 [(21718057, .negSucc 0), (80982107, .negSucc 0), (127636343, .ofNat 1), (127972861, .negSucc 0), (149908601783, .ofNat 1), (150444460487, .negSucc 0)] 0)) .nil) (.node (.leaf (.adef 32917 [(56618677, .negSucc 1), (4967980133, .ofNat 1), (6939410633, .negSucc 0), (15568860071, .negSucc 0), (19804678429, .negSucc 0), (473587262593, .negSucc 1), (712148919019, .negSucc 0), (990279780019, .ofNat 1)] 1)) .nil)))) (.node (.node (.node (.node (.leaf (.atom 977)) (.leaf (.adef 44531 [(5725189, .negSucc 0), (11174269, .negSucc 0)] 0))) (.node (.leaf (.adef 24527 [(6585389, .ofNat 1), (8060687, .ofNat 1), (9920398661, .negSucc 0), (2745023228273, .negSucc 0)] 0)) .nil)) (.node (.node (.leaf (.adef 4091 [(105559, .ofNat 1), (21087179, .ofNat 1), (689916421, .negSucc 0), (705269423, .negSucc 0), (6759893873, .negSucc 0), (7088347177, .negSucc 0)] 0)) .nil) (.node (.leaf (.adef 19963 [(54632172611, .ofNat 1)] 0)) .nil))) (.node (.node (.node (.leaf (.atom 12983)) (.leaf (.adef 46187 [(22841989, .negSucc 0), (24326879, .negSucc 0), (24689543, .ofNat 1), (25201003, .ofNat 1), (25607927, .negSucc 0), (31480247, .negSucc 0)] 0))) (.node (.leaf (.adef 31511 [(539873, .negSucc 0), (1591309, .ofNat 1), (6519905971, .negSucc 0), (9467903387, .ofNat 1), (18852454631, .negSucc 0), (27376655407, .ofNat 1), (1891372346047, .ofNat 1)] 0)) .nil)) (.node (.node (.leaf (.adef 17909 [(36676351, .ofNat 1), (37725539, .negSucc 0), (45129037, .ofNat 1), (15722697937, .negSucc 0)] 0)) .nil) (.node (.leaf (.adef 14303 [(42677, .ofNat 1), (42683, .ofNat 1), (2421937867, .ofNat 1), (2501866937, .ofNat 1), (4054449739, .ofNat 1), (4472379757, .ofNat 1), (8070021671, .ofNat 1), (8539441237, .ofNat 1), (8820891589, .ofNat 1), (8901501571, .ofNat 1), (11962886987, .ofNat 1), (12427388947, .ofNat 1), (12742896403, .ofNat 1), (14785753627, .ofNat 1)] 0)) .nil))))) (.node (.node (.node (.node (.node (.leaf (.atom 5197)) (.leaf (.adef 9883 [(90721, .negSucc 0), (95129, .negSucc 0), (996389, .negSucc 0), (1293403, .ofNat 1)] 0))) (.node (.leaf (.mult 7691 2182 (.negSucc 0) 0)) .nil)) (.node (.node (.leaf (.adef 6469 [(1192063, .ofNat 1), (1332937, .ofNat 1)] 0)) (.leaf (.trans [(613, .ofNat 1)] 0))) (.node (.leaf (.adef 32299 [(141062157, .ofNat 2), (157254093, .ofNat 1), (272474201511, .negSucc 1)] 0)) .nil))) (.node (.node (.node (.leaf (.atom 48541)) (.leaf (.adef 45599 [(9568411, .ofNat 1), (15474083, .negSucc 0), (15478459, .negSucc 0), (19823579, .ofNat 1), (19826383, .ofNat 1), (27647713, .negSucc 0), (34527683, .ofNat 1), (626538511, .ofNat 1)] 0))) (.node (.leaf (.adef 19207 [(38224393, .ofNat 1), (39222193, .negSucc 0), (47223283, .ofNat 1), (16386324391, .negSucc 0)] 0)) .nil)) (.node (.node (.leaf (.adef 35951 [(8957655043, .ofNat 1), (700825100123, .ofNat 1), (1017705526531, .negSucc 0)] 0)) .nil) (.node (.leaf (.adef 26497 [(11008266961, .ofNat 1), (192273549667, .negSucc 0), (896140663787, .ofNat 1), (18899596747931, .negSucc 0), (32953240863929, .ofNat 1), (45823180014929, .negSucc 0), (3239150496489697, .ofNat 1), (4504205729232697, .negSucc 0)] 0)) .nil)))) jac201)

end BP.EL
