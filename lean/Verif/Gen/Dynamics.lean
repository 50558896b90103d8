import Verif.Lemmas.RigidAlgebra

/-!
# Generated by tools/gen_dynamics.py
-/

namespace BP.EL

def dynTable_1 : JTree := .node (.node (.nil) (.node (.node (.node (.node (.leaf (.trans [(30917, .ofNat 1), (254173, .negSucc 0), (493511, .negSucc 0), (612277, .ofNat 1)] 0)) (.nil)) (.nil)) (.nil)) (.node (.node (.node (.leaf (.trans [(10279, .ofNat 1)] 0)) (.nil)) (.nil)) (.nil)))) (.node (.node (.node (.node (.node (.leaf (.trans [] 0)) (.nil)) (.nil)) (.nil)) (.nil)) (.node (.node (.node (.node (.leaf (.trans [(71311304431, .negSucc 1), (91726469119, .negSucc 1), (193524402047, .ofNat 2), (253249367809, .ofNat 2), (484294095469, .ofNat 1), (489550980661, .ofNat 1), (622938925981, .ofNat 1), (629700764389, .ofNat 1), (2573104249721, .ofNat 1), (2758188069499, .negSucc 0), (3309738468329, .ofNat 1), (3609412443653, .negSucc 0), (4392324440113, .ofNat 2), (5747871461711, .ofNat 2), (6343323619553, .ofNat 2), (8159304934097, .ofNat 2), (9251393431307, .ofNat 2), (11899903678043, .ofNat 2), (62601184863221, .negSucc 1), (81920989410187, .negSucc 1), (83004882185231, .ofNat 1), (90407614457701, .negSucc 0), (108621619372657, .ofNat 1), (116289714819349, .negSucc 0), (119874302748511, .ofNat 2), (139960993590541, .negSucc 1), (154192194589039, .ofNat 2), (180029349608509, .negSucc 1), (228884229408823, .negSucc 1), (294409734448327, .negSucc 1), (2258819637284611, .ofNat 1), (2955930306907517, .ofNat 1), (3262150634102291, .ofNat 2), (4196046640684259, .ofNat 2), (4325388243781001, .negSucc 1), (5563670365261049, .negSucc 1), (74039365609396189, .ofNat 1), (95235525942901261, .ofNat 1)] 0)) (.nil)) (.nil)) (.nil)) (.node (.node (.node (.leaf (.trans [(17197, .ofNat 1), (17371, .ofNat 1), (553541, .ofNat 1), (5011349263, .ofNat 1), (5070047351, .ofNat 1), (6446009887, .ofNat 2), (8291388463, .ofNat 1), (10127480971, .ofNat 1), (10246104467, .ofNat 1), (13026799579, .ofNat 1), (161659386793, .negSucc 0), (163552908161, .negSucc 0), (200563562651, .ofNat 1), (202912769827, .ofNat 1), (207939608857, .negSucc 0), (211550259671, .negSucc 0), (257981361899, .ofNat 1), (272113355879, .negSucc 0)] 0)) (.nil)) (.nil)) (.node (.node (.nil) (.leaf (.atom 857))) (.nil)))))

def dynTable_2 : JTree := .node (.node (.node (.node (.node (.node (.leaf (.trans [(12121, .ofNat 1), (18241, .negSucc 0)] 0)) (.nil)) (.nil)) (.nil)) (.node (.node (.node (.leaf (.trans [(625906, .ofNat 1), (717326, .negSucc 0), (1332183, .negSucc 0), (1393754, .ofNat 1), (1620627, .negSucc 0), (2650281, .negSucc 0), (17747014, .ofNat 1), (21276314, .negSucc 0), (26624662, .ofNat 1), (50084247, .negSucc 0)] 0)) (.nil)) (.nil)) (.nil))) (.node (.node (.node (.node (.leaf (.trans [(7502071, .ofNat 1), (141771977, .negSucc 0), (270694961, .negSucc 0)] 0)) (.nil)) (.nil)) (.nil)) (.node (.node (.node (.leaf (.trans [(12640697, .ofNat 1), (358415843, .ofNat 1), (1014284903, .ofNat 1), (8134781197, .ofNat 1), (13142527819, .ofNat 1), (19167663961, .ofNat 1), (474217860029, .negSucc 0)] 0)) (.nil)) (.nil)) (.nil)))) (.node (.node (.node (.node (.node (.leaf (.trans [(3621, .ofNat 1), (188002, .negSucc 0), (229274, .ofNat 1), (5182383, .ofNat 1), (6755811, .ofNat 1)] 0)) (.nil)) (.nil)) (.nil)) (.node (.node (.node (.leaf (.trans [(719, .ofNat 1), (10642, .negSucc 0), (14789, .negSucc 0), (14943, .negSucc 0), (18589, .ofNat 1), (84462647, .ofNat 1), (106828663, .ofNat 1)] 0)) (.nil)) (.nil)) (.nil))) (.node (.node (.node (.node (.leaf (.trans [(257, .ofNat 1), (499, .ofNat 1)] 0)) (.nil)) (.nil)) (.nil)) (.node (.node (.node (.nil) (.leaf (.atom 547))) (.nil)) (.nil))))

def dynTable_3 : JTree := .node (.node (.node (.node (.node (.node (.leaf (.trans [(391, .ofNat 1)] 0)) (.nil)) (.nil)) (.nil)) (.node (.node (.node (.leaf (.atom 337)) (.nil)) (.nil)) (.nil))) (.node (.node (.node (.node (.leaf (.trans [(315859, .ofNat 1), (475339, .negSucc 0), (529759, .ofNat 1), (797239, .negSucc 0)] 0)) (.nil)) (.nil)) (.nil)) (.node (.node (.node (.leaf (.trans [(263563, .ofNat 1), (7473097, .ofNat 1), (18242879, .ofNat 1), (169613063, .ofNat 1), (236380867, .ofNat 1), (344748673, .ofNat 1), (8529259397, .negSucc 0)] 0)) (.nil)) (.nil)) (.nil)))) (.node (.node (.node (.node (.node (.leaf (.trans [(21457, .negSucc 0), (28079, .negSucc 0)] 0)) (.nil)) (.nil)) (.nil)) (.node (.node (.node (.leaf (.trans [(29, .ofNat 1), (131767, .ofNat 1)] 0)) (.nil)) (.nil)) (.nil))) (.node (.nil) (.node (.node (.node (.leaf (.trans [(541, .ofNat 1), (569, .ofNat 1), (571, .ofNat 1), (599, .ofNat 1), (619, .ofNat 1), (959851, .negSucc 0), (969937, .ofNat 1), (1006919, .negSucc 0), (1010281, .ofNat 1), (2751757, .ofNat 1), (2778691, .negSucc 0), (164658323, .ofNat 1), (166586971, .ofNat 1), (170067683, .ofNat 1), (172059691, .ofNat 1), (181615781, .ofNat 1), (222553501, .ofNat 2), (276522913, .ofNat 1), (278251177, .ofNat 1), (291237347, .ofNat 1), (304430981, .ofNat 1), (6915984919, .ofNat 2), (6996992063, .ofNat 2), (8895909031, .ofNat 2), (15802000183, .ofNat 2), (290485452107, .ofNat 1), (293887917139, .ofNat 1), (373646297243, .ofNat 2), (480614620907, .ofNat 1), (1374898196669, .ofNat 1)] 0)) (.nil)) (.nil)) (.nil))))

def dynTable_4 : JTree := .node (.node (.node (.node (.node (.node (.leaf (.trans [(47, .ofNat 1)] 0)) (.nil)) (.nil)) (.nil)) (.node (.node (.node (.leaf (.trans [(152685517, .ofNat 1), (183049667, .negSucc 0), (4528742863, .ofNat 1), (5190212273, .negSucc 0), (6233537441, .ofNat 1)] 0)) (.nil)) (.nil)) (.nil))) (.node (.node (.node (.node (.leaf (.trans [(10095479, .ofNat 1)] 0)) (.nil)) (.nil)) (.nil)) (.node (.node (.node (.leaf (.trans [] 0)) (.nil)) (.nil)) (.nil)))) (.node (.node (.nil) (.node (.node (.node (.leaf (.trans [(14587, .ofNat 1), (470557, .negSucc 0), (7574321, .negSucc 0), (66278801, .ofNat 1), (137389171, .negSucc 0), (3399078719, .ofNat 1)] 0)) (.nil)) (.nil)) (.nil))) (.node (.nil) (.node (.node (.node (.nil) (.leaf (.trans [(733, .ofNat 1)] 0))) (.nil)) (.nil))))

def dynTable_5 : JTree := .node (.node (.node (.node (.node (.node (.leaf (.trans [(4331, .ofNat 1)] 0)) (.nil)) (.nil)) (.nil)) (.nil)) (.node (.node (.node (.node (.leaf (.trans [(9459133, .negSucc 0), (178755971, .ofNat 1), (214689107, .negSucc 0)] 0)) (.nil)) (.nil)) (.nil)) (.node (.node (.node (.leaf (.trans [(401419, .ofNat 1), (604099, .negSucc 0)] 0)) (.nil)) (.nil)) (.nil)))) (.node (.node (.node (.node (.node (.leaf (.trans [(14239, .ofNat 1)] 0)) (.nil)) (.nil)) (.nil)) (.node (.node (.node (.leaf (.atom 421)) (.nil)) (.nil)) (.nil))) (.node (.node (.node (.node (.leaf (.trans [(6964744219, .negSucc 0), (19736266819, .negSucc 0), (19950498811, .negSucc 0), (377018780357, .negSucc 1), (1717210311617, .negSucc 0), (1735850178473, .negSucc 0), (3684349691851, .ofNat 1), (5703781110691, .ofNat 1), (5716387884617, .ofNat 2), (6014487653623, .negSucc 0), (6971304113029, .negSucc 1), (8497576679359, .negSucc 0), (13350456844453, .ofNat 1), (15606430766093, .negSucc 1), (17403801148001, .ofNat 1), (19032503949241, .ofNat 2), (19543097510917, .ofNat 2), (24244274626339, .ofNat 1), (25476595060289, .ofNat 2), (32452985105531, .ofNat 1), (32803596710551, .negSucc 1), (37831709270653, .ofNat 1), (49317828813401, .ofNat 1), (132941276634941, .negSucc 1), (136507752181817, .negSucc 1), (158224126318091, .negSucc 0), (206262696725647, .negSucc 0), (320567376823193, .ofNat 1), (395005179319279, .ofNat 2), (431971014345239, .ofNat 2), (481720500224723, .negSucc 1), (496273780057313, .ofNat 2), (563122125553963, .ofNat 2), (578229256623631, .ofNat 2), (705167682168947, .negSucc 1), (717324819503977, .ofNat 2), (898267458118913, .negSucc 1), (1357882120506799, .negSucc 1), (1655977411394963, .ofNat 2), (2109442417242977, .ofNat 1), (3017300207555539, .negSucc 0), (4925567973570847, .ofNat 1), (8163263812141993, .ofNat 1), (10641719737420181, .ofNat 1), (10927209949195697, .ofNat 1), (10933363979218717, .negSucc 0), (11566935792400063, .negSucc 1), (12825221277333331, .negSucc 1), (13326055754150989, .negSucc 0), (14252852527072889, .negSucc 0), (16719098334268727, .negSucc 1), (17167629120825899, .negSucc 1), (19854862046315371, .negSucc 0), (20936431522261663, .ofNat 2), (25660865214045713, .negSucc 1), (26577390010317059, .negSucc 0), (31294184163387181, .ofNat 2), (37584872912195677, .ofNat 2), (48996050244417209, .ofNat 2), (62412896427058211, .ofNat 2), (262528829650318577, .negSucc 0), (379464829517603833, .negSucc 3), (462768583966229621, .ofNat 4), (475183485344904977, .ofNat 4), (619454374042105309, .ofNat 4), (710268103041910499, .ofNat 2), (925913245601429383, .ofNat 2), (1115895038721534833, .negSucc 1), (1454692942887542461, .negSucc 1), (1727529028379506553, .negSucc 0), (10503222022500831259, .ofNat 2), (13692114780990398303, .ofNat 2), (14059439315457724211, .ofNat 2), (17145902116000118407, .negSucc 1), (33016422209913793619, .negSucc 3), (40264503493344619303, .ofNat 4), (913862856012758966537, .ofNat 2), (1191321586062321747829, .ofNat 2)] 0)) (.nil)) (.nil)) (.nil)) (.node (.node (.node (.leaf (.trans [(18387706, .negSucc 0), (18496994, .negSucc 0), (18660926, .negSucc 0), (18879502, .negSucc 0), (19152722, .negSucc 0), (23139357, .negSucc 0), (23410389, .negSucc 0), (29651079, .negSucc 0), (29766117, .negSucc 0), (29998383, .negSucc 0), (37648293, .negSucc 0), (38801913, .negSucc 0), (297874058, .ofNat 1), (301363066, .ofNat 1), (369559006, .negSucc 0), (373887662, .negSucc 0), (378213886, .ofNat 1), (389803126, .ofNat 1), (475395086, .negSucc 0), (502268638, .negSucc 0), (508151726, .negSucc 0), (646059262, .negSucc 0), (971900121, .negSucc 0), (983284017, .negSucc 0), (1118553454, .ofNat 1), (1250137929, .negSucc 0), (1501809081, .ofNat 1), (1831500597, .negSucc 0), (1880635089, .negSucc 0), (2451616413, .negSucc 0), (15522230918, .negSucc 0), (15704043286, .negSucc 0), (18399212894, .ofNat 1), (19965970982, .negSucc 0), (23985414598, .ofNat 1), (24628882126, .ofNat 1), (30035650262, .negSucc 0), (130669192083, .ofNat 1), (159354944871, .negSucc 0), (1600876112842, .ofNat 1), (2086919560514, .ofNat 1)] 0)) (.nil)) (.nil)) (.nil))))

def dynTable_6 : JTree := .node (.node (.node (.node (.node (.node (.leaf (.trans [(29, .ofNat 1)] 0)) (.nil)) (.nil)) (.nil)) (.node (.node (.node (.leaf (.trans [(9186091, .negSucc 0)] 0)) (.nil)) (.nil)) (.nil))) (.node (.node (.node (.node (.leaf (.trans [(52753, .negSucc 0), (996911, .negSucc 0), (41266439, .negSucc 0), (50325643, .ofNat 1), (1142215397, .ofNat 1), (1489004449, .ofNat 1)] 0)) (.nil)) (.nil)) (.nil)) (.node (.node (.node (.leaf (.trans [(10705056653, .ofNat 1), (10740799747, .negSucc 0), (211205804863, .ofNat 1), (211910999537, .negSucc 0), (303532463807, .ofNat 1), (304545927793, .negSucc 0), (434231878589, .ofNat 1), (435681734611, .negSucc 0), (675494607947, .negSucc 0), (677750015653, .ofNat 1), (3991306468481, .ofNat 1), (4004633034319, .negSucc 0), (6188848404913, .negSucc 0), (6209512339487, .ofNat 1), (6889121191153, .ofNat 1), (6912123265247, .negSucc 0), (7528856638997, .ofNat 1), (7553994724603, .negSucc 0), (7620875237033, .negSucc 0), (7646320563367, .ofNat 1), (8205988973443, .ofNat 1), (8233387934957, .negSucc 0), (8752675555231, .negSucc 0), (8781899847569, .ofNat 1), (12312262909391, .ofNat 1), (12353372301409, .negSucc 0), (12765302543989, .negSucc 0), (12807924589211, .ofNat 1), (27106027176419, .negSucc 0), (27196531440781, .ofNat 1), (27400255981211, .negSucc 0), (27491742645589, .ofNat 1), (144017105253271, .negSucc 0), (144497963701529, .ofNat 1), (175479351988747, .negSucc 0), (176065259674853, .ofNat 1), (223310346916583, .ofNat 1), (224055957423817, .negSucc 0), (232673598264817, .ofNat 1), (233450471714783, .negSucc 0), (279445138277089, .ofNat 1), (280378177136111, .negSucc 0), (315820147272521, .ofNat 1), (316874638582279, .negSucc 0), (355036957974703, .negSucc 1), (356222390221697, .ofNat 2), (517802145669157, .negSucc 1), (519531034302443, .ofNat 2), (3982765162029413, .negSucc 1), (3996063209314987, .ofNat 2), (5060130357510251, .ofNat 1), (5077025617468549, .negSucc 0), (5280873736942943, .ofNat 1), (5298506036565457, .negSucc 0), (6709386173516561, .negSucc 1), (6731788130690239, .ofNat 2), (7833641853985091, .ofNat 2), (7859797586385709, .negSucc 1), (12810691273452473, .ofNat 2), (12853464867019927, .negSucc 1), (143708911873496083, .ofNat 1), (144188741295444317, .negSucc 0), (182583154675709341, .negSucc 1), (183192781235561459, .ofNat 2), (242092753930748551, .ofNat 2), (242901076982270249, .negSucc 1), (4143996540758113139, .negSucc 0), (4157832923198040061, .ofNat 1)] 0)) (.nil)) (.nil)) (.nil)))) (.node (.node (.node (.node (.node (.leaf (.trans [(44287, .ofNat 1)] 0)) (.nil)) (.nil)) (.nil)) (.node (.node (.node (.leaf (.trans [(13478, .ofNat 1), (21597, .negSucc 0), (344926, .negSucc 0), (484329, .negSucc 0), (105886411, .negSucc 0)] 0)) (.nil)) (.nil)) (.nil))) (.node (.nil) (.node (.node (.node (.nil) (.leaf (.atom 643))) (.nil)) (.nil))))

def dynTable_7 : JTree := .node (.node (.node (.node (.node (.node (.leaf (.trans [] 0)) (.nil)) (.nil)) (.nil)) (.node (.node (.node (.leaf (.trans [(376993, .negSucc 0), (398257, .negSucc 0), (632293, .negSucc 0), (667957, .negSucc 0)] 0)) (.nil)) (.nil)) (.nil))) (.node (.node (.node (.node (.leaf (.trans [(320909, .negSucc 0), (349771, .negSucc 0), (9518351, .negSucc 0), (9917449, .negSucc 0), (11911033, .ofNat 1)] 0)) (.nil)) (.nil)) (.nil)) (.node (.node (.node (.leaf (.trans [(8277123277, .negSucc 0), (107250263321, .negSucc 0), (130472069149, .ofNat 1), (156418691699, .negSucc 0), (234690548863, .ofNat 1), (3869878843711, .ofNat 1), (4435114396481, .negSucc 0), (5326651433777, .ofNat 1)] 0)) (.nil)) (.nil)) (.nil)))) (.node (.node (.node (.node (.node (.leaf (.trans [] 0)) (.nil)) (.nil)) (.nil)) (.node (.node (.node (.leaf (.trans [(29, .ofNat 1), (131767, .ofNat 1)] 0)) (.nil)) (.nil)) (.nil))) (.node (.nil) (.node (.node (.node (.nil) (.leaf (.atom 439))) (.nil)) (.nil))))

def dynTable_8 : JTree := .node (.node (.node (.node (.node (.node (.leaf (.trans [(1273, .ofNat 1), (1637899, .ofNat 1), (2135183, .ofNat 1)] 0)) (.nil)) (.nil)) (.nil)) (.node (.node (.node (.leaf (.trans [(55621739, .ofNat 4), (83445587, .ofNat 4), (84279659, .ofNat 4), (107997073, .ofNat 4), (149622397, .ofNat 2), (162020809, .ofNat 4), (201011963, .negSucc 3), (1766439859, .ofNat 4), (2117726909, .negSucc 3), (3539917327, .ofNat 4), (4213063363, .negSucc 3), (4243890977, .negSucc 3), (4941526517, .ofNat 2), (8442911839, .negSucc 3)] 1)) (.nil)) (.nil)) (.nil))) (.node (.node (.node (.node (.leaf (.trans [(4808827511, .ofNat 2), (6082222519, .ofNat 2), (126829502677, .negSucc 0), (138045095801, .ofNat 2), (173515470001, .negSucc 1), (2608736460487, .ofNat 1), (3279045375887, .negSucc 0)] 0)) (.nil)) (.nil)) (.nil)) (.node (.node (.node (.leaf (.trans [(557, .ofNat 1), (563, .ofNat 1), (593, .ofNat 1), (599, .ofNat 1), (607, .ofNat 1), (276667, .ofNat 1), (294653, .negSucc 0), (305233, .ofNat 1), (313697, .negSucc 0), (316871, .negSucc 0), (317929, .ofNat 1), (321103, .negSucc 0), (324277, .ofNat 1), (364849, .ofNat 2), (2112967, .negSucc 0), (2133853, .ofNat 1), (16052689, .ofNat 2), (27573113, .negSucc 1), (148779061, .ofNat 2), (164658323, .ofNat 1), (166586971, .ofNat 1), (172805147, .ofNat 1), (174829219, .ofNat 1), (181615781, .ofNat 1), (222276203, .ofNat 2), (276522913, .ofNat 1), (285909947, .ofNat 1), (306281621, .ofNat 1), (347914753, .ofNat 1), (349982597, .ofNat 1), (353084363, .ofNat 1), (357220051, .ofNat 1), (362389661, .ofNat 1), (507761179, .ofNat 1), (513096673, .negSucc 0), (532660151, .ofNat 1), (534438649, .negSucc 0), (1117759543, .ofNat 2), (1128808237, .negSucc 1), (1455679453, .negSucc 0), (1457123531, .ofNat 2), (1469927539, .ofNat 1), (1471526729, .negSucc 1), (5636090729, .negSucc 1), (5702106433, .negSucc 1), (6915984919, .ofNat 2), (6992445403, .ofNat 2), (6996992063, .ofNat 2), (7074348131, .ofNat 2), (7156204843, .negSucc 1), (7375485463, .negSucc 1), (8895909031, .ofNat 2), (8994975443, .ofNat 2), (9578866117, .negSucc 0), (9672623371, .ofNat 1), (15802000183, .ofNat 2), (78704123269, .negSucc 3), (87104252867, .negSucc 0), (88124507659, .negSucc 0), (89965804307, .ofNat 1), (91019576539, .ofNat 1), (95982006353, .ofNat 4), (96074748149, .negSucc 0), (111616545049, .negSucc 1), (112923913073, .negSucc 1), (117730802029, .ofNat 2), (146063334503, .negSucc 1), (146280620977, .negSucc 0), (147194872633, .ofNat 1), (154064556563, .ofNat 1), (156836466377, .ofNat 2), (161043988949, .ofNat 1), (185016261233, .negSucc 1), (293696948159, .ofNat 2), (297137029543, .ofNat 2), (348132475547, .negSucc 1), (377777187791, .ofNat 2), (453829291999, .negSucc 1), (466004374963, .negSucc 1), (568306119431, .ofNat 2), (632204533661, .negSucc 0), (846258534469, .negSucc 1), (1059724244861, .ofNat 1), (3658556022151, .negSucc 1), (3701408801327, .negSucc 1), (4688122216997, .negSucc 1), (4705935877399, .negSucc 1), (4743034336669, .negSucc 1), (5067220175893, .ofNat 2), (5116817763259, .negSucc 1), (6030248656853, .negSucc 1), (6134957530459, .negSucc 1), (6605683486481, .ofNat 2), (6670339442303, .negSucc 1), (7891287320491, .negSucc 1), (8359258096807, .negSucc 1), (13646005081411, .ofNat 2), (30290261187721, .negSucc 1), (39486714842357, .negSucc 1), (55006762637023, .negSucc 1), (73631142860567, .negSucc 1), (153666804164603, .negSucc 0), (155466708166531, .negSucc 0), (197658891241547, .negSucc 1), (254245134459803, .negSucc 0), (334436198306669, .ofNat 2), (435974675611273, .ofNat 2), (447670764734101, .ofNat 4), (545947739458337, .negSucc 3), (560594125531469, .negSucc 1), (727321146037901, .negSucc 0), (730796616112873, .negSucc 1), (4786020622604789, .negSucc 0), (29098577434985167, .ofNat 4), (37933222905297539, .ofNat 4), (38950874573239943, .ofNat 4), (47501743688391691, .negSucc 3), (2531804909357933381, .ofNat 2), (3300488492744424577, .ofNat 2)] 0)) (.nil)) (.nil)) (.nil)))) (.node (.node (.node (.node (.node (.leaf (.trans [(9329, .negSucc 0), (391837, .negSucc 0), (396169, .negSucc 0), (10663097, .negSucc 0)] 0)) (.nil)) (.nil)) (.nil)) (.node (.node (.node (.leaf (.trans [(799034, .negSucc 0), (1126131, .negSucc 0), (15850927, .negSucc 0), (58468622, .ofNat 1), (71304214, .negSucc 0), (93342993, .negSucc 0), (113834541, .ofNat 1), (292778543, .ofNat 1), (1143579182, .negSucc 0), (1490782294, .negSucc 0), (1611721113, .negSucc 0), (2101057221, .negSucc 0), (300820999861, .negSucc 0), (366860107457, .ofNat 1), (376702028909, .ofNat 1), (448167533689, .negSucc 0), (491072873353, .ofNat 1), (546553563893, .ofNat 1)] 0)) (.nil)) (.nil)) (.nil))) (.nil))

def dynTable_9 : JTree := .node (.node (.node (.node (.node (.node (.leaf (.atom 37)) (.nil)) (.nil)) (.nil)) (.nil)) (.node (.node (.node (.node (.leaf (.trans [(491, .negSucc 0), (10291, .negSucc 0), (20623, .negSucc 0)] 0)) (.nil)) (.nil)) (.nil)) (.node (.node (.node (.leaf (.trans [(217787, .ofNat 1)] 0)) (.nil)) (.nil)) (.nil)))) (.node (.node (.node (.node (.node (.leaf (.trans [(12217, .ofNat 1)] 0)) (.nil)) (.nil)) (.nil)) (.nil)) (.node (.node (.node (.node (.leaf (.trans [(3187027177, .ofNat 1), (9031202977, .ofNat 1), (16400559751, .negSucc 0), (16578583519, .negSucc 0), (114996538607, .negSucc 1), (171240109693, .ofNat 2), (313297296353, .negSucc 1), (2610017660353, .negSucc 0), (3061642701679, .negSucc 0), (3991190817443, .negSucc 0), (90586018027597, .negSucc 1), (110472328471289, .ofNat 2), (2507333975292631, .ofNat 1), (3268587916206827, .ofNat 1)] 0)) (.nil)) (.nil)) (.nil)) (.node (.node (.node (.leaf (.trans [(823699, .ofNat 1), (1073783, .ofNat 1), (57998617, .negSucc 0), (70731029, .ofNat 1), (22321489453, .negSucc 0), (415624159697, .ofNat 1), (541812187549, .ofNat 1), (21443314248331, .ofNat 1), (27953738323727, .ofNat 1), (28703665860899, .ofNat 1), (35004969556663, .negSucc 0)] 0)) (.nil)) (.nil)) (.nil))))

def dynTable_10 : JTree := .node (.node (.node (.node (.node (.node (.leaf (.trans [(16813, .ofNat 1)] 0)) (.nil)) (.nil)) (.nil)) (.node (.node (.node (.leaf (.atom 389)) (.nil)) (.nil)) (.nil))) (.node (.node (.node (.node (.leaf (.trans [(15848353, .negSucc 0), (397609763, .negSucc 0), (449366107, .negSucc 0), (642860689, .ofNat 1), (1271666047, .negSucc 0), (7513914781, .ofNat 1), (9162310613, .negSucc 0), (10199032853, .negSucc 0), (11146132297, .ofNat 1), (12148596143, .ofNat 1), (14346832933, .ofNat 1), (16477526531, .negSucc 0), (18227749291, .negSucc 0), (24031578689, .negSucc 0), (330600885283, .ofNat 1), (344462756117, .ofNat 1), (413705909189, .negSucc 0), (594553610821, .ofNat 1)] 0)) (.nil)) (.nil)) (.nil)) (.node (.node (.node (.leaf (.trans [(468179, .ofNat 1), (12740599, .ofNat 1)] 0)) (.nil)) (.nil)) (.nil)))) (.node (.node (.node (.node (.node (.leaf (.trans [(661, .ofNat 1)] 0)) (.nil)) (.nil)) (.nil)) (.nil)) (.node (.nil) (.node (.node (.node (.nil) (.leaf (.atom 599))) (.nil)) (.nil))))

def dynTable_11 : JTree := .node (.node (.node (.node (.node (.node (.leaf (.atom 257)) (.nil)) (.nil)) (.nil)) (.node (.node (.node (.leaf (.trans [] 0)) (.nil)) (.nil)) (.nil))) (.node (.node (.node (.node (.leaf (.trans [(423407, .ofNat 1), (926521, .negSucc 0)] 0)) (.nil)) (.nil)) (.nil)) (.node (.node (.node (.leaf (.trans [(25241, .ofNat 1)] 0)) (.nil)) (.nil)) (.nil)))) (.node (.node (.node (.node (.node (.leaf (.trans [(497467, .negSucc 0), (639883, .negSucc 0)] 0)) (.nil)) (.nil)) (.nil)) (.nil)) (.node (.nil) (.node (.node (.node (.leaf (.trans [(468179, .ofNat 1), (12740599, .ofNat 1)] 0)) (.nil)) (.nil)) (.nil))))

def dynTable_12 : JTree := .node (.node (.node (.nil) (.node (.node (.node (.leaf (.trans [(5365897, .negSucc 3), (44113793, .ofNat 4), (78551203, .negSucc 3), (85652851, .ofNat 4), (90024413, .ofNat 4), (105214001, .negSucc 3), (106265657, .negSucc 3), (118666039, .ofNat 2), (157415359, .negSucc 3), (159423281, .negSucc 3), (180407489, .ofNat 4), (201610531, .negSucc 1), (204287107, .negSucc 3), (2227250257, .negSucc 3), (2670177407, .ofNat 4), (3341395081, .negSucc 3), (4463374021, .negSucc 3), (5350992971, .ofNat 4), (6230620391, .negSucc 1), (6696102493, .negSucc 3)] 1)) (.nil)) (.nil)) (.nil))) (.node (.node (.node (.node (.leaf (.trans [(138566399, .ofNat 1)] 0)) (.nil)) (.nil)) (.nil)) (.node (.node (.node (.leaf (.trans [(14036698789, .negSucc 0), (241602482699, .negSucc 0), (265261490843, .negSucc 0), (12330534540683, .ofNat 1), (15037451603071, .negSucc 0), (18297558671071, .ofNat 1), (23852897044307, .ofNat 1), (341297353173809, .negSucc 0), (345781993674977, .negSucc 0), (444918951926653, .negSucc 0), (450765178195309, .negSucc 0), (541377012650653, .ofNat 1), (660225280573961, .negSucc 0)] 0)) (.nil)) (.nil)) (.nil)))) (.node (.node (.node (.node (.node (.leaf (.trans [(388721, .ofNat 1), (8255183, .ofNat 1), (10578301, .ofNat 1), (12882323, .negSucc 0)] 0)) (.nil)) (.nil)) (.nil)) (.node (.node (.node (.leaf (.trans [(179677, .ofNat 1), (795202, .ofNat 1), (1036634, .ofNat 1), (1274223, .negSucc 0), (1661091, .negSucc 0), (3259127, .ofNat 1), (15633311, .ofNat 1), (16687282, .ofNat 1), (20350634, .negSucc 0), (23431503, .ofNat 1), (28575411, .negSucc 0), (65844193, .negSucc 0), (80298941, .ofNat 1), (283569661, .ofNat 1), (6247298249, .negSucc 0), (8144046133, .negSucc 0), (364853467543, .ofNat 1), (475626959531, .ofNat 1)] 0)) (.nil)) (.nil)) (.nil))) (.node (.nil) (.node (.node (.node (.nil) (.leaf (.atom 751))) (.nil)) (.nil))))

def dynTable_13 : JTree := .node (.node (.node (.node (.node (.node (.leaf (.trans [(1189, .ofNat 1)] 0)) (.nil)) (.nil)) (.nil)) (.nil)) (.node (.node (.node (.node (.leaf (.trans [(7502071, .ofNat 1), (141771977, .negSucc 0), (270694961, .negSucc 0)] 0)) (.nil)) (.nil)) (.nil)) (.node (.node (.node (.leaf (.trans [(3138124333, .ofNat 1)] 0)) (.nil)) (.nil)) (.nil)))) (.node (.node (.node (.node (.node (.leaf (.trans [(20459, .ofNat 1)] 0)) (.nil)) (.nil)) (.nil)) (.node (.node (.node (.leaf (.trans [(311317, .ofNat 4), (68144653, .ofNat 4), (125494153, .ofNat 4), (134241571, .negSucc 3), (139870229, .negSucc 3), (143823863, .negSucc 3), (162529021, .negSucc 3), (182488417, .ofNat 4), (186949681, .negSucc 3), (371922767, .negSucc 3), (399330551, .negSucc 3), (2355628783, .ofNat 4), (3558276307, .ofNat 4), (3806301649, .negSucc 3), (4148633831, .negSucc 3), (4265900957, .negSucc 3), (5338244731, .ofNat 4), (5710340617, .negSucc 3), (19365955127, .negSucc 3), (23833998791, .negSucc 3), (34483978117, .ofNat 8), (36133838453, .negSucc 3), (37601601589, .negSucc 3), (37798776293, .negSucc 3), (39023497127, .negSucc 3), (39520717307, .negSucc 3), (40821581687, .negSucc 3), (41341712267, .negSucc 3), (42533202913, .negSucc 7), (43319675803, .ofNat 8), (45507888863, .negSucc 7), (46188946439, .ofNat 8), (46650623423, .ofNat 4), (52094391121, .negSucc 1), (53420837783, .negSucc 3), (54032898419, .negSucc 3), (55473747863, .negSucc 3), (68272451879, .negSucc 3), (69105342601, .ofNat 8), (69986820359, .ofNat 8), (79198887671, .negSucc 3), (82848132551, .negSucc 3), (88507023109, .ofNat 2), (89682039973, .ofNat 8), (96467191571, .ofNat 2), (99467394553, .negSucc 1), (107494513933, .negSucc 7), (107709728341, .negSucc 3), (116898228049, .ofNat 8), (133630637087, .ofNat 4), (146283600167, .negSucc 3), (147959620931, .negSucc 3), (977762862823, .ofNat 4), (1022815214263, .ofNat 4), (1071751048967, .negSucc 7), (1157460036653, .negSucc 7), (1172207881673, .negSucc 7), (1205991550747, .negSucc 3), (1228291297657, .ofNat 4), (1261559988907, .negSucc 3), (1284887240617, .ofNat 4), (1407842557241, .ofNat 8), (1448417345899, .ofNat 8), (1466872440559, .ofNat 8), (1475199739369, .negSucc 7), (1607876650511, .negSucc 7), (1736460130949, .negSucc 7), (1959421195219, .ofNat 4), (2049705389539, .ofNat 4), (2349085914269, .negSucc 7), (2625170724151, .ofNat 2), (2735242351649, .ofNat 2), (2800800175687, .ofNat 4), (2821294048973, .ofNat 8), (2939588994427, .ofNat 8), (3285074812433, .negSucc 1), (3454560891643, .negSucc 3), (3518438481433, .ofNat 4), (5612758917811, .ofNat 4)] 1)) (.nil)) (.nil)) (.nil))) (.node (.node (.node (.node (.leaf (.trans [(479, .ofNat 1), (222559, .negSucc 0), (273223, .negSucc 0)] 0)) (.nil)) (.nil)) (.nil)) (.node (.node (.node (.leaf (.trans [(10279, .ofNat 1), (10811, .ofNat 1), (10849, .ofNat 1), (11381, .ofNat 1), (11761, .ofNat 1), (9869231, .ofNat 1), (18237169, .negSucc 0), (18428803, .ofNat 1), (19131461, .negSucc 0), (19195339, .ofNat 1), (52283383, .ofNat 1), (52795129, .negSucc 0), (496289789, .negSucc 0), (501504743, .ofNat 1), (520626241, .negSucc 0), (522364559, .ofNat 1), (1044840757, .negSucc 0), (1274214209, .ofNat 1), (3128508137, .ofNat 1), (3165152449, .ofNat 1), (3231285977, .ofNat 1), (3269134129, .ofNat 1), (3450699839, .ofNat 1), (4228516519, .ofNat 2), (5253935347, .ofNat 1), (5286772363, .ofNat 1), (5533509593, .ofNat 1), (5784188639, .ofNat 1), (67270149829, .ofNat 1), (67928585227, .negSucc 0), (87694100993, .ofNat 1), (88552444559, .negSucc 0), (107085723851, .negSucc 0), (108340022227, .negSucc 0), (131403713461, .ofNat 2), (132856462657, .ofNat 1), (132942849197, .ofNat 2), (134412614489, .ofNat 1), (135967892017, .negSucc 0), (140134223797, .negSucc 0), (169022271589, .ofNat 2), (170904533417, .ofNat 1), (300238003477, .ofNat 2), (2882268579163, .negSucc 0), (2916028679651, .negSucc 0), (3575901568241, .ofNat 1), (3617786213257, .ofNat 1), (3707411074987, .negSucc 0), (3771786337061, .negSucc 0), (4599618915809, .ofNat 1), (4851582027989, .negSucc 0), (5519223590033, .ofNat 1), (5580242015021, .ofNat 1), (5583870425641, .ofNat 1), (5645603561317, .ofNat 1), (6614517035393, .negSucc 0), (7099279647617, .ofNat 2), (7177766568029, .ofNat 1), (8622756547981, .negSucc 0), (8854083124297, .negSucc 0), (9131677797233, .ofNat 1), (10797816269189, .ofNat 1), (26123065736711, .ofNat 1), (150195148761373, .ofNat 1), (151954389156821, .ofNat 1), (193193362323277, .ofNat 2), (248501203624573, .ofNat 1), (386299705936351, .ofNat 1), (503584509802067, .ofNat 1), (517094398419479, .ofNat 1), (575514962566699, .negSucc 0), (630611914252123, .negSucc 0), (750247582004783, .negSucc 0), (33611110170536693, .ofNat 1), (43815809794900081, .ofNat 1)] 0)) (.nil)) (.nil)) (.nil))))

def dynTable_14 : JTree := .node (.node (.node (.node (.node (.node (.leaf (.trans [(20723, .negSucc 0), (38399, .ofNat 1), (950011, .negSucc 0)] 0)) (.nil)) (.nil)) (.nil)) (.node (.node (.node (.leaf (.trans [(8595767, .ofNat 1), (13881733, .negSucc 0), (221586439, .ofNat 1), (274912373, .negSucc 0), (344018659, .ofNat 1), (440830073, .ofNat 1)] 0)) (.nil)) (.nil)) (.nil))) (.node (.node (.node (.node (.leaf (.trans [(500021, .ofNat 1), (616493, .negSucc 0), (706349711, .ofNat 1), (803630327, .negSucc 0), (920805187, .ofNat 1), (1047621259, .negSucc 0), (1258211803, .ofNat 1), (1534426511, .negSucc 0)] 0)) (.nil)) (.nil)) (.nil)) (.node (.node (.node (.leaf (.trans [(14477557, .ofNat 1), (17655809, .negSucc 0)] 0)) (.nil)) (.nil)) (.nil)))) (.node (.node (.node (.node (.node (.leaf (.trans [(44153, .negSucc 0)] 0)) (.nil)) (.nil)) (.nil)) (.node (.node (.node (.leaf (.trans [(14306, .negSucc 0), (22839, .ofNat 1), (364762, .ofNat 1), (514083, .ofNat 1), (109656847, .ofNat 1)] 0)) (.nil)) (.nil)) (.nil))) (.node (.nil) (.node (.node (.node (.nil) (.leaf (.atom 691))) (.nil)) (.nil))))

def dynTable_15 : JTree := .node (.node (.node (.nil) (.node (.node (.node (.leaf (.trans [(1074506, .negSucc 0), (1625061, .negSucc 0)] 0)) (.nil)) (.nil)) (.nil))) (.node (.node (.node (.node (.leaf (.trans [(423407, .negSucc 0), (926521, .ofNat 1)] 0)) (.nil)) (.nil)) (.nil)) (.node (.node (.node (.leaf (.trans [(593, .ofNat 1)] 0)) (.nil)) (.nil)) (.nil)))) (.node (.node (.node (.node (.node (.leaf (.trans [] 0)) (.nil)) (.nil)) (.nil)) (.nil)) (.node (.nil) (.node (.node (.node (.nil) (.leaf (.atom 487))) (.nil)) (.nil))))

def dynTable_16 : JTree := .node (.node (.node (.node (.node (.node (.leaf (.trans [(46, .ofNat 1), (1653, .negSucc 0)] 0)) (.nil)) (.nil)) (.nil)) (.nil)) (.node (.node (.node (.node (.leaf (.trans [(7158205399, .negSucc 0), (92751960827, .negSucc 0), (112834597063, .ofNat 1), (135273703913, .negSucc 0), (202964616781, .ofNat 1), (3346740975757, .ofNat 1), (3835566869747, .negSucc 0), (4606584168899, .ofNat 1)] 0)) (.nil)) (.nil)) (.nil)) (.node (.node (.node (.leaf (.trans [(16452158, .ofNat 1), (16549942, .ofNat 1), (16696618, .ofNat 1), (16892186, .ofNat 1), (17136646, .ofNat 1), (266518894, .negSucc 0), (269640638, .negSucc 0), (330658058, .ofNat 1), (334531066, .ofNat 1), (338401898, .negSucc 0), (348771218, .negSucc 0), (425353498, .ofNat 1), (561359066, .negSucc 0), (567934282, .negSucc 0), (722066234, .negSucc 0), (1250147978, .ofNat 1), (13888311874, .ofNat 1), (14050986098, .ofNat 1), (16462453642, .negSucc 0), (17864289826, .ofNat 1), (21460634114, .negSucc 0), (22036368218, .negSucc 0), (26874002866, .ofNat 1), (1432362837806, .negSucc 0), (1867243817302, .negSucc 0)] 0)) (.nil)) (.nil)) (.node (.node (.nil) (.leaf (.atom 811))) (.nil))))) (.node (.node (.node (.node (.node (.leaf (.trans [(248239, .negSucc 0)] 0)) (.nil)) (.nil)) (.nil)) (.node (.node (.node (.leaf (.trans [(12029, .ofNat 1)] 0)) (.nil)) (.nil)) (.nil))) (.nil))

def dynTable_17 : JTree := .node (.node (.node (.node (.node (.node (.leaf (.atom 19)) (.nil)) (.nil)) (.nil)) (.nil)) (.node (.node (.node (.node (.leaf (.trans [(11051, .negSucc 0), (21457, .negSucc 0)] 0)) (.nil)) (.nil)) (.nil)) (.node (.node (.node (.leaf (.trans [(213877, .ofNat 1)] 0)) (.nil)) (.nil)) (.nil)))) (.node (.node (.node (.node (.node (.leaf (.trans [(641, .ofNat 1)] 0)) (.nil)) (.nil)) (.nil)) (.node (.node (.node (.leaf (.atom 409)) (.nil)) (.nil)) (.nil))) (.node (.node (.node (.node (.leaf (.trans [(171240109693, .ofNat 1)] 0)) (.nil)) (.nil)) (.nil)) (.node (.node (.node (.leaf (.trans [(478907306, .ofNat 1), (484516762, .ofNat 1), (616009994, .ofNat 1), (1019309883, .negSucc 0), (1031249091, .negSucc 0), (1311120267, .negSucc 0), (16279412914, .negSucc 0), (16470094178, .negSucc 0), (20939920786, .negSucc 0)] 0)) (.nil)) (.nil)) (.nil))))

def dynTable_18 : JTree := .node (.node (.node (.node (.node (.node (.leaf (.trans [(16031, .ofNat 1)] 0)) (.nil)) (.nil)) (.nil)) (.node (.node (.node (.leaf (.trans [(320909, .ofNat 1), (349771, .ofNat 1), (9518351, .ofNat 1), (9917449, .ofNat 1), (11911033, .negSucc 0)] 0)) (.nil)) (.nil)) (.nil))) (.node (.node (.node (.node (.leaf (.trans [(10167679, .ofNat 1), (13801127, .negSucc 0), (15082723, .ofNat 1), (16439237, .ofNat 1), (19413847, .ofNat 1), (32519051, .negSucc 0), (447362497, .ofNat 1), (466120103, .ofNat 1), (559818551, .negSucc 0), (804538039, .ofNat 1)] 0)) (.nil)) (.nil)) (.nil)) (.node (.node (.node (.leaf (.trans [(31747, .negSucc 0)] 0)) (.nil)) (.nil)) (.nil)))) (.node (.node (.node (.node (.node (.leaf (.trans [(861951289, .ofNat 1), (1051175093, .negSucc 0), (1284147661, .ofNat 1), (1566056057, .negSucc 0)] 0)) (.nil)) (.nil)) (.nil)) (.node (.node (.node (.leaf (.trans [(17806, .negSucc 0), (27579, .ofNat 1), (277058, .negSucc 0), (402477, .negSucc 0), (4226113, .ofNat 1), (137470643, .ofNat 1)] 0)) (.nil)) (.nil)) (.nil))) (.node (.node (.node (.node (.leaf (.atom 271)) (.nil)) (.nil)) (.nil)) (.node (.node (.node (.nil) (.leaf (.atom 571))) (.nil)) (.nil))))

def dynTable_19 : JTree := .node (.node (.node (.nil) (.node (.node (.node (.leaf (.atom 359)) (.nil)) (.nil)) (.nil))) (.node (.node (.node (.node (.leaf (.trans [(31949, .ofNat 1), (413977, .ofNat 1), (603763, .ofNat 1), (14937407, .negSucc 0)] 0)) (.nil)) (.nil)) (.nil)) (.node (.node (.node (.leaf (.trans [(538453, .ofNat 1)] 0)) (.nil)) (.nil)) (.nil)))) (.node (.node (.node (.node (.node (.leaf (.trans [(20459, .ofNat 1), (26773, .ofNat 1)] 0)) (.nil)) (.nil)) (.nil)) (.node (.node (.node (.leaf (.trans [(172057, .ofNat 1)] 0)) (.nil)) (.nil)) (.nil))) (.node (.nil) (.node (.node (.node (.leaf (.trans [(43807, .negSucc 0), (21680197829, .ofNat 1)] 0)) (.nil)) (.nil)) (.nil))))

def dynTable_20 : JTree := .node (.node (.node (.nil) (.node (.node (.node (.leaf (.trans [(78637631, .ofNat 4), (94276081, .negSucc 3), (211535113, .ofNat 2), (2332438709, .ofNat 4), (2673115339, .negSucc 3), (3210459163, .ofNat 4), (5756524853, .ofNat 2)] 1)) (.nil)) (.nil)) (.nil))) (.node (.node (.node (.node (.leaf (.trans [(739, .ofNat 1)] 0)) (.nil)) (.nil)) (.nil)) (.node (.node (.node (.leaf (.trans [(14778278173, .negSucc 0), (226513013147, .ofNat 1), (279275644451, .negSucc 0), (11560421487899, .negSucc 0), (14098275955663, .ofNat 1), (19264245531847, .ofNat 1), (25113080579099, .ofNat 1), (319981363530977, .ofNat 1), (364050163543289, .negSucc 0), (417131195347309, .ofNat 1), (474579763675813, .negSucc 0), (569978754241621, .ofNat 1), (695105950468577, .negSucc 0)] 0)) (.nil)) (.nil)) (.nil)))) (.node (.node (.nil) (.node (.node (.node (.leaf (.trans [(135967439, .ofNat 1), (3700094659, .ofNat 1)] 0)) (.nil)) (.nil)) (.nil))) (.node (.nil) (.node (.node (.node (.nil) (.leaf (.atom 743))) (.nil)) (.nil))))

def dynTable_21 : JTree := .node (.node (.node (.node (.node (.node (.leaf (.trans [(3953, .ofNat 1)] 0)) (.nil)) (.nil)) (.nil)) (.nil)) (.node (.node (.node (.node (.leaf (.trans [(7463, .ofNat 1)] 0)) (.nil)) (.nil)) (.nil)) (.node (.node (.node (.leaf (.trans [] 0)) (.nil)) (.nil)) (.nil)))) (.node (.node (.node (.node (.node (.leaf (.trans [(196673, .ofNat 1), (407683, .negSucc 0), (10086287, .ofNat 1)] 0)) (.nil)) (.nil)) (.nil)) (.nil)) (.node (.node (.node (.node (.leaf (.trans [(355843, .ofNat 1)] 0)) (.nil)) (.nil)) (.nil)) (.node (.node (.node (.leaf (.trans [(15426238, .ofNat 1), (15606926, .ofNat 1), (19767386, .ofNat 1), (19844078, .ofNat 1), (19998922, .ofNat 1), (25098862, .ofNat 1), (25867942, .ofNat 1), (27581559, .negSucc 0), (27745491, .negSucc 0), (27991389, .negSucc 0), (28319253, .negSucc 0), (28729083, .negSucc 0), (446811087, .ofNat 1), (452044599, .ofNat 1), (554338509, .negSucc 0), (560831493, .negSucc 0), (567320829, .ofNat 1), (584704689, .ofNat 1), (647933414, .ofNat 1), (655522678, .ofNat 1), (713092629, .negSucc 0), (753402957, .negSucc 0), (762227589, .negSucc 0), (833425286, .ofNat 1), (969088893, .negSucc 0), (1001206054, .negSucc 0), (1221000398, .ofNat 1), (1253756726, .ofNat 1), (1634410942, .ofNat 1), (1677830181, .ofNat 1), (23283346377, .negSucc 0), (23556064929, .negSucc 0), (27598819341, .ofNat 1), (29948956473, .negSucc 0), (35978121897, .ofNat 1), (36943323189, .ofNat 1), (45053475393, .negSucc 0), (87112794722, .negSucc 0), (106236629914, .ofNat 1), (2401314169263, .ofNat 1), (3130379340771, .ofNat 1)] 0)) (.nil)) (.nil)) (.nil))))

def dynTable_22 : JTree := .node (.node (.node (.nil) (.node (.node (.node (.leaf (.trans [(106275157, .negSucc 3), (232556771, .ofNat 4), (272767189, .negSucc 1)] 1)) (.nil)) (.nil)) (.nil))) (.node (.node (.node (.node (.leaf (.trans [(1042429, .ofNat 1), (1271273, .negSucc 0)] 0)) (.nil)) (.nil)) (.nil)) (.node (.node (.node (.leaf (.trans [(281969, .ofNat 1), (32654107, .negSucc 0), (367561091, .ofNat 1), (479156647, .ofNat 1), (617087909, .negSucc 0), (10875173513, .ofNat 1), (13262595781, .negSucc 0), (25543925741, .negSucc 0), (31151573017, .ofNat 1), (707031330743, .ofNat 1), (921693753931, .ofNat 1)] 0)) (.nil)) (.nil)) (.nil)))) (.node (.node (.node (.node (.node (.leaf (.trans [(48173, .ofNat 1), (896977, .negSucc 0), (1169309, .negSucc 0), (46277771, .negSucc 0), (60328207, .negSucc 0), (61946659, .negSucc 0), (75545783, .ofNat 1)] 0)) (.nil)) (.nil)) (.nil)) (.node (.node (.node (.leaf (.trans [(134886187, .ofNat 1), (176514389, .ofNat 1), (3670670447, .ofNat 1), (4803502609, .ofNat 1)] 0)) (.nil)) (.nil)) (.nil))) (.node (.nil) (.node (.node (.node (.nil) (.leaf (.atom 661))) (.nil)) (.nil))))

def dynTable_23 : JTree := .node (.node (.node (.node (.node (.node (.leaf (.trans [(391, .ofNat 1)] 0)) (.nil)) (.nil)) (.nil)) (.node (.node (.node (.leaf (.trans [] 0)) (.nil)) (.nil)) (.nil))) (.node (.node (.node (.node (.leaf (.trans [(320909, .ofNat 1), (349771, .ofNat 1), (9518351, .ofNat 1), (9917449, .ofNat 1), (11911033, .negSucc 0)] 0)) (.nil)) (.nil)) (.nil)) (.node (.node (.node (.leaf (.trans [(17023, .ofNat 1)] 0)) (.nil)) (.nil)) (.nil)))) (.node (.node (.node (.node (.node (.leaf (.trans [(396169, .negSucc 0), (589931, .ofNat 1)] 0)) (.nil)) (.nil)) (.nil)) (.node (.node (.node (.leaf (.trans [(1, .ofNat 1), (136459, .negSucc 0)] 0)) (.nil)) (.nil)) (.nil))) (.node (.nil) (.node (.node (.node (.nil) (.leaf (.atom 461))) (.nil)) (.nil))))

def dynTable_24 : JTree := .node (.node (.node (.node (.node (.node (.leaf (.trans [(71, .negSucc 0)] 0)) (.nil)) (.nil)) (.nil)) (.node (.node (.node (.leaf (.trans [(1074506, .negSucc 3), (1625061, .negSucc 3), (2632761581, .negSucc 3), (3245594147, .ofNat 4), (5819523757, .ofNat 2), (6301756729, .ofNat 4), (7818307403, .negSucc 3), (21644302789, .ofNat 4), (32356008149, .ofNat 4), (35360641801, .negSucc 3), (36989953081, .negSucc 3), (38540916719, .negSucc 7), (41326952077, .ofNat 8), (42025319423, .ofNat 4), (46610771003, .negSucc 1), (52138932061, .negSucc 3), (60402119671, .ofNat 4), (62000071141, .ofNat 4), (62619786637, .ofNat 8), (69224469641, .negSucc 3), (70862162653, .negSucc 3), (74127276493, .negSucc 3), (77170989893, .negSucc 3), (77235382907, .negSucc 7), (80241825239, .ofNat 8), (82368430829, .negSucc 3), (86312750353, .ofNat 2), (90514302787, .ofNat 2), (98919614063, .negSucc 1), (111169440971, .ofNat 2), (120381461087, .ofNat 4), (149074143607, .ofNat 2), (149351888509, .negSucc 3), (163865990803, .negSucc 3), (165065022737, .negSucc 3), (192199373477, .ofNat 2), (328384834159, .negSucc 3), (1048817578339, .negSucc 7), (1092793787861, .negSucc 3), (1143146415941, .negSucc 3), (1312464815237, .ofNat 8), (1573471093387, .negSucc 7), (1712648965549, .ofNat 4), (2053238768099, .negSucc 3), (2101813712767, .negSucc 7), (2189941335833, .negSucc 3), (2290847200073, .negSucc 3), (2447322104107, .ofNat 2), (2569373069317, .ofNat 4), (2630158573961, .ofNat 8), (2934014338757, .negSucc 1), (3130306078709, .negSucc 3), (3153210995911, .negSucc 7), (3671554202131, .ofNat 2), (4607023226027, .ofNat 2), (6273083496377, .negSucc 3)] 1)) (.nil)) (.nil)) (.nil))) (.node (.node (.node (.node (.leaf (.trans [(94626011, .negSucc 0), (268145411, .negSucc 0), (271056059, .negSucc 0), (4018425571, .negSucc 0), (5122339333, .negSucc 1), (11387168971, .negSucc 0), (50057159819, .ofNat 1), (77494023779, .ofNat 1), (91204151309, .negSucc 1), (1806197372029, .negSucc 1), (3290891832619, .ofNat 1), (40994338579091, .negSucc 0)] 0)) (.nil)) (.nil)) (.nil)) (.node (.node (.node (.leaf (.trans [(17197, .ofNat 1), (17371, .ofNat 1), (553541, .ofNat 1), (5011349263, .ofNat 1), (5070047351, .ofNat 1), (6446009887, .ofNat 2), (8291388463, .ofNat 1), (10127480971, .ofNat 1), (10246104467, .ofNat 1), (13026799579, .ofNat 1), (161659386793, .negSucc 0), (163552908161, .negSucc 0), (200563562651, .ofNat 1), (202912769827, .ofNat 1), (207939608857, .negSucc 0), (211550259671, .negSucc 0), (257981361899, .ofNat 1), (272113355879, .negSucc 0)] 0)) (.nil)) (.nil)) (.node (.node (.nil) (.leaf (.atom 773))) (.nil))))) (.node (.node (.node (.node (.node (.leaf (.trans [(11051, .negSucc 0)] 0)) (.nil)) (.nil)) (.nil)) (.node (.node (.node (.leaf (.trans [(479, .ofNat 1), (222559, .negSucc 0), (273223, .negSucc 0), (307316306113, .negSucc 0), (395406968158819, .negSucc 0), (515456836162823, .negSucc 0)] 0)) (.nil)) (.nil)) (.nil))) (.nil))

def dynTable_25 : JTree := .node (.node (.node (.node (.node (.node (.leaf (.atom 53)) (.nil)) (.nil)) (.nil)) (.nil)) (.node (.node (.node (.node (.leaf (.trans [(191843, .negSucc 0), (366299, .negSucc 0)] 0)) (.nil)) (.nil)) (.nil)) (.node (.node (.node (.leaf (.trans [(4103632837, .ofNat 1), (5117390953, .negSucc 0), (5268737081, .ofNat 1), (77549271419, .ofNat 1), (96706980311, .negSucc 0), (99567075847, .ofNat 1), (116146806887, .negSucc 0), (119581832599, .ofNat 1), (148070143667, .negSucc 0), (2194908903769, .negSucc 0), (2259823030313, .ofNat 1), (2798186927629, .negSucc 0)] 0)) (.nil)) (.nil)) (.nil)))) (.node (.node (.node (.node (.node (.leaf (.trans [] 0)) (.nil)) (.nil)) (.nil)) (.nil)) (.node (.node (.node (.node (.leaf (.trans [(14992195303, .negSucc 0), (258048680873, .negSucc 0), (283318188761, .negSucc 0), (302491004791, .negSucc 0), (368896727867, .ofNat 1), (5716387884617, .ofNat 1), (6971304113029, .negSucc 0), (8372660483893, .ofNat 1), (10914691522481, .ofNat 1), (13169890214441, .ofNat 1), (16061070674917, .negSucc 0), (19543097510917, .ofNat 1), (25476595060289, .ofNat 1), (364529912060843, .negSucc 0), (369319827928379, .negSucc 0), (475205169075631, .negSucc 0), (481449355641343, .negSucc 0), (578229256623631, .ofNat 1), (705167682168947, .negSucc 0)] 0)) (.nil)) (.nil)) (.nil)) (.node (.node (.node (.leaf (.trans [(277779182917, .ofNat 1), (280524940903, .negSucc 0), (283270698889, .ofNat 1), (338759930129, .negSucc 0), (342108463211, .ofNat 1), (345456996293, .negSucc 0), (1592511226961, .ofNat 1), (1608098612543, .negSucc 0), (1609797518009, .ofNat 1), (1625554100567, .negSucc 0), (5249390992379, .negSucc 0), (5301279535961, .negSucc 0), (5353168079543, .ofNat 1), (5631166740949, .negSucc 0), (6401787589423, .ofNat 1), (6465067203157, .ofNat 1), (6528346816891, .negSucc 0), (7688660988991, .negSucc 0), (7764660932869, .ofNat 1), (7840660876747, .negSucc 0), (10023022320947, .negSucc 0), (10122096676673, .ofNat 1), (10221171032399, .negSucc 0), (18297558671071, .ofNat 2), (23852897044307, .ofNat 2), (30384661320353, .ofNat 1), (30421489838983, .ofNat 2), (30719253197929, .negSucc 1), (127807713347771, .negSucc 1), (146734325919803, .ofNat 1), (148170550969589, .negSucc 0), (191284467613951, .ofNat 1), (193156746252913, .negSucc 0), (297288656569769, .negSucc 0), (300198496601447, .ofNat 1), (460235744591729, .negSucc 1), (464740499024927, .ofNat 2), (541377012650653, .ofNat 2), (660225280573961, .negSucc 1), (841018242275219, .negSucc 1), (1259276459713567, .ofNat 2), (1271602167312721, .negSucc 1), (1535724891354179, .negSucc 1), (1550756456359277, .ofNat 2), (1956260517049841, .negSucc 0), (1975408254573983, .ofNat 1), (3227190846060059, .ofNat 1), (4611647101203661, .ofNat 1), (9145016329518659, .ofNat 1), (9244283079563771, .ofNat 1), (10230786856834211, .ofNat 1), (10726976763602479, .ofNat 2), (10831971642202177, .negSucc 1), (12476747193188407, .negSucc 0), (16073485838466737, .negSucc 1), (19602091425243469, .ofNat 2), (23797443836928929, .ofNat 2), (24030371509068527, .negSucc 1), (24883535108293817, .negSucc 0), (29021686674971773, .negSucc 1), (29305748861023699, .ofNat 2), (34855562927648941, .negSucc 1), (35196726675717283, .ofNat 2), (45438091981585097, .negSucc 1), (45882836764439111, .ofNat 2), (57880643736439763, .negSucc 1), (58447175322767069, .ofNat 2), (174695799084999877, .ofNat 2), (243464708889024641, .ofNat 1), (245847723984186383, .negSucc 0), (444898650163590851, .ofNat 4), (579974732600878567, .ofNat 4), (658690389053995667, .negSucc 1), (665137603302485021, .ofNat 2), (795688287201164737, .ofNat 1), (804325274547427753, .ofNat 1), (858675975119026039, .negSucc 1), (867080633929326457, .ofNat 2), (1034861813519365889, .ofNat 2), (1044990966669637007, .negSucc 1), (1349057146732320013, .ofNat 2), (1362261621251722819, .negSucc 1), (1602080626923808649, .ofNat 1), (1617761677105770887, .negSucc 0), (1707183957565771211, .negSucc 0), (2642909719230892451, .negSucc 0), (2648751206604017737, .negSucc 1), (2786879013670406903, .ofNat 1), (3230230445117230469, .ofNat 2), (3937445627724465599, .ofNat 1), (6186081033902586533, .negSucc 0), (7231411366207618573, .ofNat 2), (8064242703738891361, .negSucc 0), (8818920062424259001, .negSucc 1), (9055509205756012037, .negSucc 1), (11233851335135065379, .negSucc 0), (11804860563730571329, .negSucc 1), (13163390072287429193, .ofNat 2), (15037447631483949691, .negSucc 0), (15199907375397621911, .ofNat 2), (16053143559289943941, .negSucc 1), (17529738639359044733, .negSucc 0), (22851958476806300761, .negSucc 0), (30618860536576634627, .ofNat 4), (30918555745743779501, .negSucc 3), (37340606114100229399, .negSucc 3), (37706093286505778137, .ofNat 4), (61599802882842896701, .ofNat 2), (63252368558718906937, .ofNat 2), (73314889394876963851, .ofNat 1), (95574089417492519567, .ofNat 1), (148538420292171531673, .negSucc 0), (183029994894560436719, .negSucc 1), (200158521178024288279, .negSucc 1), (223210492704627874003, .ofNat 2), (229953915001136608993, .negSucc 1), (260928831218809849643, .negSucc 1), (267928886578382283791, .negSucc 1), (326747202377485450867, .ofNat 2), (332380345690182286697, .negSucc 1), (416222107661437646593, .ofNat 2), (629189617240150891439, .ofNat 2), (767315349321381450643, .negSucc 1), (847500651642694775321, .negSucc 1), (855795927188952799223, .ofNat 2), (977433347896123065697, .negSucc 0), (1104811092672016991557, .negSucc 1), (1115624904345805086091, .ofNat 2), (1398099241473142106579, .ofNat 1), (2282316101801761236767, .negSucc 0), (3782538083257926018473, .negSucc 0), (4930957899250752488341, .negSucc 0), (5063242929269267357617, .negSucc 0), (5066094466774763927837, .ofNat 1), (5359666935702285591743, .ofNat 2), (5942707356286449585491, .ofNat 2), (6174774520299156414029, .ofNat 1), (6604215999797020919929, .ofNat 1), (7746978123265091611447, .ofNat 2), (7954809797055009386539, .ofNat 2), (9199968732642736621931, .ofNat 1), (9701125846586686429343, .negSucc 1), (11890244166445435621393, .ofNat 2), (12314926012570522775299, .ofNat 1), (14500504468131247575341, .negSucc 1), (17415364297467901090397, .negSucc 1), (22702858837303402379449, .negSucc 1), (28919702101338119707171, .negSucc 1), (121645621035601266157297, .ofNat 1), (175829202870106429662713, .ofNat 4), (214428913835176123416181, .negSucc 3), (220181494952900515047697, .negSucc 3), (287030998210523958083549, .negSucc 3), (329110538493602690727139, .negSucc 1), (429032087395123920336263, .negSucc 1), (517062241037049101753713, .ofNat 2), (674047976709314562271421, .ofNat 2), (800469578118956535904633, .ofNat 1), (4866783459568007673001499, .negSucc 1), (6344391997034491948076383, .negSucc 1), (6514595860649806548133171, .negSucc 1), (7944742350371930865185927, .ofNat 2), (15298522411607865325093459, .ofNat 4), (18657000603179656144857383, .negSucc 3), (423448406824928007493550857, .negSucc 1), (552011961439423467395793269, .negSucc 1)] 0)) (.nil)) (.nil)) (.nil))))

def dynTable_26 : JTree := .node (.node (.node (.node (.node (.node (.leaf (.trans [(41, .ofNat 1)] 0)) (.nil)) (.nil)) (.nil)) (.node (.node (.node (.leaf (.trans [(4846057, .negSucc 3), (11307841, .ofNat 2)] 1)) (.nil)) (.nil)) (.nil))) (.node (.node (.node (.node (.leaf (.trans [(803183, .ofNat 1), (1154287, .negSucc 0), (23535233, .negSucc 0), (33285071, .ofNat 1), (46821631, .negSucc 0)] 0)) (.nil)) (.nil)) (.nil)) (.node (.node (.node (.leaf (.trans [(1365121, .ofNat 1)] 0)) (.nil)) (.nil)) (.nil)))) (.node (.node (.node (.node (.node (.leaf (.trans [(44153, .ofNat 1)] 0)) (.nil)) (.nil)) (.nil)) (.node (.node (.node (.leaf (.trans [(16994, .ofNat 1), (27231, .negSucc 0), (173323, .negSucc 0), (273562, .ofNat 1), (384123, .ofNat 1), (3143873, .negSucc 0), (133508953, .negSucc 0)] 0)) (.nil)) (.nil)) (.nil))) (.node (.nil) (.node (.node (.node (.nil) (.leaf (.atom 617))) (.nil)) (.nil))))

def dynTable_27 : JTree := .node (.node (.node (.node (.node (.node (.leaf (.trans [(1, .ofNat 1)] 0)) (.nil)) (.nil)) (.nil)) (.node (.node (.node (.leaf (.trans [(1478, .negSucc 0)] 0)) (.nil)) (.nil)) (.nil))) (.node (.node (.node (.node (.leaf (.trans [(328219, .negSucc 0), (341981, .negSucc 0), (9306361, .negSucc 0), (10143359, .negSucc 0), (13961713, .negSucc 0)] 0)) (.nil)) (.nil)) (.nil)) (.node (.node (.node (.leaf (.trans [(8028919669, .ofNat 1), (114431411273, .negSucc 0), (139208077837, .ofNat 1), (151728211403, .ofNat 1), (227652953911, .negSucc 0), (4128994035343, .ofNat 1), (4302119954057, .ofNat 1), (5166922738169, .negSucc 0)] 0)) (.nil)) (.nil)) (.nil)))) (.node (.node (.node (.node (.node (.leaf (.trans [] 0)) (.nil)) (.nil)) (.nil)) (.nil)) (.nil))

def dynTable_28 : JTree := .node (.node (.node (.node (.node (.node (.leaf (.trans [(1349, .negSucc 0), (1545623, .ofNat 1), (2014891, .ofNat 1)] 0)) (.nil)) (.nil)) (.nil)) (.node (.node (.node (.leaf (.trans [(1083374, .ofNat 4), (1611759, .negSucc 3), (3221293589, .negSucc 3), (3965397883, .negSucc 3), (4114421197, .negSucc 3), (4640466683, .ofNat 2), (6006669979, .negSucc 1), (6234289357, .negSucc 3), (7988701079, .negSucc 3), (32600093027, .ofNat 4), (47717545493, .negSucc 3), (58049339017, .negSucc 3), (63297456889, .ofNat 4), (66528041207, .ofNat 4), (77753146739, .negSucc 3), (78530320523, .negSucc 3), (85706881427, .negSucc 3), (87694202821, .ofNat 2), (95625200729, .negSucc 3), (104417990179, .ofNat 8), (116329950301, .negSucc 3), (117813804659, .negSucc 3), (122472467861, .negSucc 1), (130666133957, .negSucc 3), (133321134371, .ofNat 4), (148990182409, .negSucc 1), (150968172073, .negSucc 3), (170507594989, .negSucc 3), (192307684571, .ofNat 2), (209251988287, .ofNat 8), (243650050027, .negSucc 1), (261852850121, .negSucc 3), (1645937939923, .negSucc 3), (1973261103773, .ofNat 4), (2469290964859, .negSucc 3), (3298433401519, .negSucc 3), (3954383805569, .ofNat 4), (4604428468949, .negSucc 1), (4948419742327, .negSucc 3)] 1)) (.nil)) (.nil)) (.nil))) (.node (.node (.node (.node (.leaf (.trans [(4808827511, .ofNat 1), (6082222519, .ofNat 1), (90875837257, .negSucc 0), (114940089353, .negSucc 0), (138045095801, .ofNat 1), (173515470001, .negSucc 0)] 0)) (.nil)) (.nil)) (.nil)) (.node (.node (.node (.leaf (.trans [(14082198623, .negSucc 0), (242385634993, .negSucc 0), (266121333601, .negSucc 0), (12370503858481, .ofNat 1), (15086195368397, .negSucc 0), (18356870044397, .ofNat 1), (23930215997449, .ofNat 1), (342403665501763, .negSucc 0), (346902842925139, .negSucc 0), (446361152743271, .negSucc 0), (452226329502263, .negSucc 0), (543131881411271, .ofNat 1), (662365394935627, .negSucc 0)] 0)) (.nil)) (.nil)) (.nil)))) (.node (.node (.node (.node (.node (.leaf (.trans [(21457, .negSucc 0)] 0)) (.nil)) (.nil)) (.nil)) (.node (.node (.node (.leaf (.trans [(722126, .ofNat 1), (1049019, .ofNat 1), (61162382, .ofNat 1), (74589334, .negSucc 0), (94731963, .negSucc 0), (115528431, .ofNat 1), (308479877, .ofNat 1), (1160595962, .negSucc 0), (1512965554, .negSucc 0), (1685976153, .negSucc 0), (2197856901, .negSucc 0), (5470632317, .ofNat 1), (6671597929, .negSucc 0), (282246556591, .ofNat 1), (344208024467, .negSucc 0), (353442248279, .negSucc 0), (460751169643, .negSucc 0), (472202177971, .negSucc 0), (575864523527, .ofNat 1)] 0)) (.nil)) (.nil)) (.nil))) (.nil))

def dynTable_29 : JTree := .node (.node (.node (.node (.node (.node (.leaf (.trans [(817, .ofNat 1), (20213, .negSucc 0)] 0)) (.nil)) (.nil)) (.nil)) (.node (.node (.node (.leaf (.atom 311)) (.nil)) (.nil)) (.nil))) (.node (.node (.node (.node (.leaf (.trans [(376993, .negSucc 0), (398257, .negSucc 0), (632293, .negSucc 0), (667957, .negSucc 0)] 0)) (.nil)) (.nil)) (.nil)) (.node (.node (.node (.leaf (.trans [(78066762863, .ofNat 1), (117483361223, .negSucc 0), (130933645163, .ofNat 1), (197043199523, .negSucc 0), (2474346314581, .negSucc 0), (2666459802217, .negSucc 0), (2816859415033, .negSucc 0), (3723665631901, .ofNat 1), (4472188787917, .negSucc 0), (4724439154333, .negSucc 0)] 0)) (.nil)) (.nil)) (.nil)))) (.node (.node (.node (.node (.node (.leaf (.trans [(497467, .negSucc 0)] 0)) (.nil)) (.nil)) (.nil)) (.nil)) (.node (.nil) (.node (.node (.node (.leaf (.trans [(832333, .negSucc 0), (14477557, .ofNat 1), (17655809, .negSucc 0), (953649391, .ofNat 1), (1243187747, .ofNat 1), (411923758751, .ofNat 1), (7305122942471, .ofNat 1), (8908813510027, .negSucc 0), (376893506364733, .ofNat 1), (459632779322921, .negSucc 0), (471963555057077, .negSucc 0), (615256837801009, .negSucc 0), (630547761921673, .negSucc 0), (768971646933701, .ofNat 1)] 0)) (.nil)) (.nil)) (.nil))))

def dynTable_30 : JTree := .node (.node (.node (.node (.node (.node (.leaf (.trans [(1537, .negSucc 0), (44321, .ofNat 1)] 0)) (.nil)) (.nil)) (.nil)) (.node (.node (.node (.leaf (.trans [(3664333, .negSucc 0), (155611013, .negSucc 0), (233452829, .negSucc 0)] 0)) (.nil)) (.nil)) (.nil))) (.node (.node (.node (.node (.leaf (.trans [(529873, .negSucc 0), (581761, .negSucc 0), (748519843, .negSucc 0), (758355379, .negSucc 0), (975778631, .negSucc 0), (988600343, .negSucc 0), (1187326631, .ofNat 1), (1447979947, .negSucc 0)] 0)) (.nil)) (.nil)) (.nil)) (.node (.node (.node (.leaf (.trans [(837269, .ofNat 1), (1091473, .ofNat 1)] 0)) (.nil)) (.nil)) (.nil)))) (.node (.node (.nil) (.node (.node (.node (.leaf (.trans [(7403657, .negSucc 0), (9523193, .negSucc 0), (136751113, .ofNat 1), (175900537, .ofNat 1), (3721420853, .ofNat 1), (4786797797, .ofNat 1)] 0)) (.nil)) (.nil)) (.nil))) (.nil))

def dynTable_31 : JTree := .node (.node (.node (.node (.node (.node (.leaf (.trans [(713, .ofNat 1), (1073, .negSucc 0)] 0)) (.nil)) (.nil)) (.nil)) (.node (.node (.node (.leaf (.trans [(846814, .negSucc 0), (984657, .ofNat 1), (1025943, .ofNat 1), (1030166, .negSucc 0), (1853042, .ofNat 1), (2192613, .ofNat 1), (27919083, .ofNat 1), (30430077, .ofNat 1), (35018254, .ofNat 1), (41885139, .ofNat 1)] 0)) (.nil)) (.nil)) (.nil))) (.node (.node (.node (.node (.leaf (.trans [(7549037, .negSucc 0), (7865563, .negSucc 0), (15018259, .negSucc 0)] 0)) (.nil)) (.nil)) (.nil)) (.node (.node (.node (.leaf (.trans [(4283682541, .ofNat 1), (4328694967, .negSucc 0), (8028919669, .negSucc 0), (80951798867, .ofNat 1), (81802430729, .negSucc 0), (114431411273, .ofNat 1), (139208077837, .negSucc 0), (151728211403, .negSucc 0), (154566822731, .negSucc 0), (156190992497, .ofNat 1), (227652953911, .negSucc 0), (549765265433, .negSucc 0), (555542133371, .ofNat 1), (555732822977, .negSucc 0), (561572397299, .ofNat 1), (2920959297397, .negSucc 0), (2951652389839, .ofNat 1), (3244601997587, .ofNat 1), (4128994035343, .negSucc 0), (4302119954057, .negSucc 0), (5166922738169, .negSucc 0), (7200870351421, .negSucc 1), (7276536239527, .ofNat 2), (10502078825599, .negSucc 1), (10612433419213, .ofNat 2), (73641073175773, .ofNat 2), (97643017720903, .negSucc 0), (102629717406257, .ofNat 1), (103708138254659, .negSucc 0), (136079973895427, .negSucc 1), (137509886055449, .ofNat 2), (158882161710137, .ofNat 2), (160551676544219, .negSucc 1), (259826829010811, .ofNat 2), (262557058387457, .negSucc 1), (2657168591354843, .negSucc 0), (3703157081654887, .negSucc 1), (3742069415262469, .ofNat 2), (4910132578924357, .ofNat 2), (4961727667319359, .negSucc 1), (84048663544662473, .negSucc 0), (84931836891891851, .ofNat 1)] 0)) (.nil)) (.nil)) (.nil)))) (.node (.node (.node (.node (.node (.leaf (.trans [(2278, .ofNat 1), (298839, .negSucc 0), (364443, .ofNat 1), (3661186, .negSucc 0), (4772762, .negSucc 0)] 0)) (.nil)) (.nil)) (.nil)) (.node (.node (.node (.leaf (.trans [(8323999, .negSucc 0), (10151363, .ofNat 1)] 0)) (.nil)) (.nil)) (.nil))) (.node (.nil) (.node (.node (.node (.nil) (.leaf (.atom 509))) (.nil)) (.nil))))

def dynTable_32 : JTree := .node (.node (.node (.node (.node (.node (.leaf (.trans [(34, .ofNat 1)] 0)) (.nil)) (.nil)) (.nil)) (.nil)) (.node (.node (.node (.node (.leaf (.trans [(272514379, .negSucc 0), (275472451, .negSucc 0), (5205799037, .negSucc 1), (7215585803, .ofNat 2), (50872755091, .negSucc 0), (93495463519, .ofNat 2), (113739082811, .negSucc 1), (136358062261, .ofNat 2), (1835626249781, .ofNat 2), (2650981617061, .ofNat 1), (3373568558729, .negSucc 1), (3866312896759, .ofNat 2), (41662270775899, .ofNat 1), (60167974807019, .ofNat 2), (87751727688761, .ofNat 1), (2171022854067229, .negSucc 0)] 0)) (.nil)) (.nil)) (.nil)) (.node (.node (.node (.leaf (.trans [(10811, .ofNat 1)] 0)) (.nil)) (.nil)) (.node (.node (.nil) (.leaf (.atom 827))) (.nil))))) (.node (.node (.node (.node (.node (.leaf (.trans [(254173, .negSucc 0)] 0)) (.nil)) (.nil)) (.nil)) (.node (.node (.node (.leaf (.trans [(269671, .ofNat 1)] 0)) (.nil)) (.nil)) (.nil))) (.nil))

def dynTable_33 : JTree := .node (.node (.node (.node (.node (.node (.leaf (.trans [(3, .ofNat 1)] 0)) (.nil)) (.nil)) (.nil)) (.nil)) (.node (.node (.node (.node (.leaf (.trans [(251, .ofNat 1), (503, .ofNat 1)] 0)) (.nil)) (.nil)) (.nil)) (.node (.node (.node (.leaf (.trans [] 0)) (.nil)) (.nil)) (.nil)))) (.node (.node (.node (.node (.node (.leaf (.trans [(250631, .ofNat 1), (316999, .ofNat 1)] 0)) (.nil)) (.nil)) (.nil)) (.nil)) (.node (.node (.node (.node (.leaf (.trans [(272514379, .negSucc 0), (275472451, .negSucc 0), (356617013, .negSucc 0), (360487997, .negSucc 0), (5205799037, .negSucc 1), (6812398339, .negSucc 1), (7215585803, .ofNat 2), (9281280347, .ofNat 2), (50872755091, .negSucc 0), (66572964077, .negSucc 0), (93495463519, .ofNat 2), (113739082811, .negSucc 1), (120261560431, .ofNat 2), (136358062261, .ofNat 2), (146300569739, .negSucc 1), (175394962789, .ofNat 2), (1835626249781, .ofNat 2), (2402132146507, .ofNat 2), (2650981617061, .ofNat 1), (3373568558729, .negSucc 1), (3409910747989, .ofNat 1), (3866312896759, .ofNat 2), (4339361545721, .negSucc 1), (4973169869191, .ofNat 2), (41662270775899, .ofNat 1), (54519965564453, .ofNat 1), (60167974807019, .ofNat 2), (77393001391931, .ofNat 2), (87751727688761, .ofNat 1), (112873494661289, .ofNat 1), (2171022854067229, .negSucc 0), (2792548283462221, .negSucc 0)] 0)) (.nil)) (.nil)) (.nil)) (.node (.node (.node (.leaf (.trans [(231863, .ofNat 1), (234209, .ofNat 1), (479579, .ofNat 1), (11865031, .negSucc 0), (67566812477, .ofNat 1), (68358224629, .ofNat 1), (86909995373, .ofNat 2), (111790789277, .ofNat 1), (140059086967, .negSucc 0), (141699603359, .negSucc 0), (180155525383, .negSucc 0), (183283735049, .negSucc 0), (235754625401, .negSucc 0), (2704150103329, .ofNat 1), (2735823896633, .ofNat 1), (3465133812563, .ofNat 1), (3478300431121, .ofNat 1), (3505721031451, .ofNat 1), (4457140311587, .ofNat 1), (4534533826861, .ofNat 1), (4641597437221, .ofNat 1), (4695964610717, .ofNat 1), (5832690628189, .ofNat 1), (5970404655829, .ofNat 1)] 0)) (.nil)) (.nil)) (.node (.node (.nil) (.leaf (.atom 863))) (.nil)))))

def dynTable_34 : JTree := .node (.node (.node (.node (.node (.node (.leaf (.trans [(817, .negSucc 0), (20213, .ofNat 1)] 0)) (.nil)) (.nil)) (.nil)) (.node (.node (.node (.leaf (.trans [(1478, .ofNat 1)] 0)) (.nil)) (.nil)) (.nil))) (.node (.node (.node (.node (.leaf (.trans [(751, .ofNat 1), (30463, .ofNat 1), (434171, .negSucc 0), (575681, .ofNat 1), (15666061, .ofNat 1)] 0)) (.nil)) (.nil)) (.nil)) (.node (.node (.node (.leaf (.trans [(1210579, .ofNat 1)] 0)) (.nil)) (.nil)) (.nil)))) (.node (.node (.node (.node (.node (.leaf (.trans [(51049, .negSucc 0), (49040623, .ofNat 1), (63929891, .ofNat 1)] 0)) (.nil)) (.nil)) (.nil)) (.node (.node (.node (.leaf (.trans [(14122, .negSucc 0), (21873, .ofNat 1), (349334, .ofNat 1), (507471, .ofNat 1), (4239299, .negSucc 0), (109028441, .ofNat 1)] 0)) (.nil)) (.nil)) (.nil))) (.node (.node (.node (.node (.leaf (.atom 263)) (.nil)) (.nil)) (.nil)) (.node (.node (.node (.nil) (.leaf (.atom 563))) (.nil)) (.nil))))

def dynTable_35 : JTree := .node (.node (.node (.node (.node (.node (.leaf (.trans [(391, .ofNat 1)] 0)) (.nil)) (.nil)) (.nil)) (.node (.node (.node (.leaf (.atom 349)) (.nil)) (.nil)) (.nil))) (.node (.node (.node (.node (.leaf (.trans [] 0)) (.nil)) (.nil)) (.nil)) (.node (.node (.node (.leaf (.trans [(17577151, .ofNat 1), (250516667, .negSucc 0), (332167937, .ofNat 1), (9039317197, .ofNat 1)] 0)) (.nil)) (.nil)) (.nil)))) (.node (.node (.node (.node (.node (.leaf (.trans [(14587, .ofNat 1), (18763, .ofNat 1), (470557, .negSucc 0), (615779, .negSucc 0)] 0)) (.nil)) (.nil)) (.nil)) (.node (.node (.node (.leaf (.trans [(6593, .ofNat 1)] 0)) (.nil)) (.nil)) (.nil))) (.node (.nil) (.node (.node (.node (.leaf (.trans [(25241, .ofNat 1), (7371530893, .negSucc 0), (7457873861, .negSucc 0), (9481869757, .negSucc 0), (9646512371, .negSucc 0), (12408138179, .negSucc 0)] 0)) (.nil)) (.nil)) (.nil))))

def dynTable_36 : JTree := .node (.node (.node (.node (.node (.node (.leaf (.trans [(1, .ofNat 1)] 0)) (.nil)) (.nil)) (.nil)) (.node (.node (.node (.leaf (.trans [(123415631, .ofNat 1), (294353567, .negSucc 0)] 0)) (.nil)) (.nil)) (.nil))) (.node (.node (.node (.node (.leaf (.trans [(5365897, .ofNat 1)] 0)) (.nil)) (.nil)) (.nil)) (.node (.node (.node (.leaf (.trans [(61062769, .negSucc 0), (74467853, .ofNat 1)] 0)) (.nil)) (.nil)) (.nil)))) (.node (.node (.nil) (.node (.node (.node (.leaf (.trans [(134886187, .ofNat 1), (3670670447, .ofNat 1)] 0)) (.nil)) (.nil)) (.nil))) (.node (.nil) (.node (.node (.node (.nil) (.leaf (.trans [(739, .ofNat 1)] 0))) (.nil)) (.nil))))

def dynTable_37 : JTree := .node (.node (.node (.node (.node (.node (.leaf (.trans [(4087, .ofNat 1)] 0)) (.nil)) (.nil)) (.nil)) (.nil)) (.node (.node (.node (.node (.leaf (.trans [] 0)) (.nil)) (.nil)) (.nil)) (.node (.node (.node (.leaf (.trans [] 0)) (.nil)) (.nil)) (.nil)))) (.node (.node (.node (.node (.node (.leaf (.trans [(9329, .negSucc 0), (396169, .negSucc 0)] 0)) (.nil)) (.nil)) (.nil)) (.nil)) (.node (.node (.node (.node (.leaf (.trans [(350633, .ofNat 1)] 0)) (.nil)) (.nil)) (.nil)) (.node (.node (.node (.leaf (.trans [(673, .ofNat 1), (677, .ofNat 1), (683, .ofNat 1), (691, .ofNat 1), (701, .ofNat 1)] 0)) (.nil)) (.nil)) (.nil))))

def dynTable_38 : JTree := .node (.node (.node (.node (.node (.node (.leaf (.trans [(779, .ofNat 1), (21199, .ofNat 1)] 0)) (.nil)) (.nil)) (.nil)) (.node (.node (.node (.leaf (.trans [(5537579, .negSucc 3), (6245581, .ofNat 2), (8390699, .negSucc 3), (10751953, .negSucc 3), (140535653, .ofNat 4), (175862899, .negSucc 3), (281631209, .ofNat 4), (327927389, .negSucc 1), (352426447, .negSucc 3)] 1)) (.nil)) (.nil)) (.nil))) (.node (.node (.node (.node (.leaf (.trans [(1914373, .ofNat 1)] 0)) (.nil)) (.nil)) (.nil)) (.node (.node (.node (.leaf (.trans [(9493163447, .ofNat 1), (9524860153, .negSucc 0), (238168248037, .negSucc 0), (238963467563, .ofNat 1), (269170298093, .ofNat 1), (270069030307, .negSucc 0), (385073552711, .ofNat 1), (386359274089, .negSucc 0), (761727962153, .ofNat 1), (764271294247, .negSucc 0), (4500834953819, .negSucc 0), (4515862783381, .ofNat 1), (5488224057187, .negSucc 0), (5506548678413, .ofNat 1), (6109220678947, .ofNat 1), (6129618744653, .negSucc 0), (6676533245903, .ofNat 1), (6698825510497, .negSucc 0), (7277009089657, .ofNat 1), (7301306281943, .negSucc 0), (8593752926867, .ofNat 1), (8622446592733, .negSucc 0), (9870038392069, .ofNat 1), (9902993445131, .negSucc 0), (10918421825309, .ofNat 1), (10954877323891, .negSucc 0), (14394915634711, .ofNat 1), (14442978792089, .negSucc 0), (30566371071281, .ofNat 1), (30668429071519, .negSucc 0), (30898161000089, .ofNat 1), (31001326813111, .negSucc 0), (155613764971153, .negSucc 0), (156133343485247, .ofNat 1), (162402267626029, .ofNat 1), (162944512259171, .negSucc 0), (198029930284517, .ofNat 1), (198691132055083, .negSucc 0), (206333190914083, .ofNat 1), (207022116426317, .negSucc 0), (247809839604211, .ofNat 1), (248637251422589, .negSucc 0), (356137612881779, .negSucc 0), (357326720103421, .ofNat 1), (400360824950197, .ofNat 2), (401697588973403, .negSucc 1), (583904547243943, .ofNat 2), (585854145064457, .negSucc 1), (3531886087082687, .negSucc 1), (3543678695052913, .ofNat 2), (4683038974270157, .ofNat 1), (4698675164501443, .negSucc 0), (5706104445703049, .negSucc 0), (5725156547358151, .ofNat 1), (7565903557369739, .ofNat 2), (7591165338863461, .negSucc 1), (8833681239600209, .negSucc 1), (8863176001668991, .ofNat 2), (14446098670063427, .negSucc 1), (14494332722384173, .ofNat 2), (127439978453855017, .ofNat 1), (127865487563884583, .negSucc 0), (205891642506650959, .ofNat 2), (206579093733718241, .negSucc 1), (272998211879354749, .negSucc 1), (273909725107666451, .ofNat 2), (4673017375748510561, .ofNat 1), (4688620104882896239, .negSucc 0)] 0)) (.nil)) (.nil)) (.nil)))) (.node (.node (.node (.node (.node (.leaf (.trans [(509, .ofNat 1), (44287, .ofNat 1)] 0)) (.nil)) (.nil)) (.nil)) (.node (.node (.node (.leaf (.trans [(10778, .ofNat 1), (15657, .ofNat 1), (66617407, .negSucc 0)] 0)) (.nil)) (.nil)) (.nil))) (.node (.nil) (.node (.node (.node (.nil) (.leaf (.atom 653))) (.nil)) (.nil))))

def dynTable_39 : JTree := .node (.node (.node (.node (.node (.node (.leaf (.trans [(493, .ofNat 1)] 0)) (.nil)) (.nil)) (.nil)) (.node (.node (.node (.leaf (.trans [] 0)) (.nil)) (.nil)) (.nil))) (.node (.node (.node (.node (.leaf (.trans [(312953, .negSucc 0), (358663, .ofNat 1), (8873507, .negSucc 0), (10638157, .ofNat 1), (13312331, .negSucc 0)] 0)) (.nil)) (.nil)) (.nil)) (.node (.node (.node (.leaf (.trans [] 0)) (.nil)) (.nil)) (.nil)))) (.node (.node (.node (.node (.node (.leaf (.trans [(570589, .ofNat 1)] 0)) (.nil)) (.nil)) (.nil)) (.nil)) (.node (.nil) (.node (.node (.node (.nil) (.leaf (.atom 449))) (.nil)) (.nil))))

def dynTable_40 : JTree := .node (.node (.node (.node (.node (.node (.leaf (.trans [(67, .ofNat 1)] 0)) (.nil)) (.nil)) (.nil)) (.node (.node (.node (.leaf (.trans [(4391873, .ofNat 4), (7874863, .ofNat 2), (8527411, .ofNat 4), (10579577, .negSucc 3), (111459311, .negSucc 3), (221740177, .negSucc 3), (223362683, .negSucc 3), (260080343, .ofNat 2), (444363781, .negSucc 3)] 1)) (.nil)) (.nil)) (.nil))) (.node (.node (.node (.node (.leaf (.trans [(2707942087, .ofNat 1)] 0)) (.nil)) (.nil)) (.nil)) (.node (.node (.node (.leaf (.trans [(731989, .ofNat 1), (23153479, .ofNat 1), (23396773, .negSucc 0), (24288851, .ofNat 1), (24369949, .negSucc 0), (59446099, .negSucc 0), (77494583, .negSucc 0), (4091205523, .negSucc 0), (4131249949, .ofNat 1), (4989346151, .ofNat 1), (5038181513, .negSucc 0), (166827050851, .negSucc 0), (168781101227, .negSucc 0), (213774395897, .negSucc 0), (214586683699, .negSucc 0), (216278341969, .negSucc 0), (274974222953, .negSucc 0), (279748858759, .negSucc 0), (359836007191, .negSucc 0), (7007075905703, .negSucc 0), (7089150001231, .negSucc 0), (9013077755447, .negSucc 1), (11593362440903, .negSucc 0), (23493800660137, .negSucc 0), (28651384839269, .ofNat 1), (29420028453953, .ofNat 1), (38352269959501, .ofNat 1), (2044145284549091, .negSucc 0), (2492895639246967, .ofNat 1)] 0)) (.nil)) (.nil)) (.node (.node (.nil) (.leaf (.atom 761))) (.nil))))) (.node (.node (.node (.node (.node (.leaf (.trans [(491, .negSucc 0), (20623, .negSucc 0)] 0)) (.nil)) (.nil)) (.nil)) (.node (.node (.node (.leaf (.trans [(463, .ofNat 1)] 0)) (.nil)) (.nil)) (.nil))) (.nil))

def dynTable_41 : JTree := .node (.node (.node (.node (.node (.node (.leaf (.atom 43)) (.nil)) (.nil)) (.nil)) (.nil)) (.node (.node (.node (.node (.leaf (.trans [(743, .ofNat 1), (14041, .ofNat 1)] 0)) (.nil)) (.nil)) (.nil)) (.node (.node (.node (.leaf (.trans [(105418387, .ofNat 1), (2884427111, .negSucc 0), (3071942449, .ofNat 1), (55766326723, .negSucc 1), (67228986361, .ofNat 1), (71599513199, .negSucc 0), (86332446043, .negSucc 0), (1525861941719, .ofNat 2), (1625057555521, .negSucc 1), (2012199516293, .ofNat 4), (45669863956747, .ofNat 2), (55057215374929, .negSucc 0), (58636460733911, .ofNat 1)] 0)) (.nil)) (.nil)) (.nil)))) (.node (.node (.node (.node (.node (.leaf (.trans [(12179, .negSucc 0), (396169, .negSucc 0)] 0)) (.nil)) (.nil)) (.nil)) (.nil)) (.node (.node (.node (.node (.leaf (.trans [(6964744219, .negSucc 0), (19736266819, .negSucc 0), (19950498811, .negSucc 0), (377018780357, .negSucc 1), (3684349691851, .ofNat 1), (5703781110691, .ofNat 1), (8497576679359, .negSucc 0), (13350456844453, .ofNat 1), (15606430766093, .negSucc 1), (17403801148001, .ofNat 1), (19032503949241, .ofNat 2), (24244274626339, .ofNat 1), (37831709270653, .ofNat 1), (49317828813401, .ofNat 1), (132941276634941, .negSucc 1), (395005179319279, .ofNat 2), (431971014345239, .ofNat 2), (481720500224723, .negSucc 1), (563122125553963, .ofNat 2), (717324819503977, .ofNat 2), (3017300207555539, .negSucc 0), (8163263812141993, .ofNat 1), (10641719737420181, .ofNat 1), (10933363979218717, .negSucc 0), (12825221277333331, .negSucc 1), (14252852527072889, .negSucc 0), (16719098334268727, .negSucc 1), (19854862046315371, .negSucc 0), (379464829517603833, .negSucc 3), (462768583966229621, .ofNat 4), (10503222022500831259, .ofNat 2), (13692114780990398303, .ofNat 2)] 0)) (.nil)) (.nil)) (.nil)) (.node (.node (.node (.leaf (.trans [(1583304537, .ofNat 1), (92313558586, .ofNat 1), (112579115282, .negSucc 0), (2544676209219, .negSucc 0), (3317267659623, .negSucc 0)] 0)) (.nil)) (.nil)) (.nil))))

def dynTable_42 : JTree := .node (.node (.node (.node (.node (.node (.leaf (.trans [(943, .ofNat 1)] 0)) (.nil)) (.nil)) (.nil)) (.node (.node (.node (.leaf (.trans [(4289339, .negSucc 3), (7998229, .negSucc 1), (114123677, .negSucc 3), (227040739, .negSucc 3), (256068821, .ofNat 2)] 1)) (.nil)) (.nil)) (.nil))) (.node (.node (.node (.node (.leaf (.trans [(975677, .ofNat 1), (1517771, .ofNat 1)] 0)) (.nil)) (.nil)) (.nil)) (.node (.node (.node (.leaf (.trans [(8621405701, .negSucc 0), (111711279473, .negSucc 0), (135898983637, .ofNat 1), (162924841787, .negSucc 0), (244452374119, .ofNat 1), (4030844341543, .ofNat 1), (4619590558553, .negSucc 0), (5548210592201, .ofNat 1)] 0)) (.nil)) (.nil)) (.nil)))) (.node (.node (.node (.node (.node (.leaf (.trans [(838907, .ofNat 1), (1079375441, .ofNat 1), (1407085597, .ofNat 1)] 0)) (.nil)) (.nil)) (.nil)) (.nil)) (.node (.nil) (.node (.node (.node (.nil) (.leaf (.atom 607))) (.nil)) (.nil))))

def dynTable_43 : JTree := .node (.node (.node (.node (.node (.node (.leaf (.trans [(493, .ofNat 1)] 0)) (.nil)) (.nil)) (.nil)) (.node (.node (.node (.leaf (.trans [(25023, .negSucc 0), (25126, .ofNat 1)] 0)) (.nil)) (.nil)) (.nil))) (.node (.node (.node (.node (.leaf (.trans [(7197919, .ofNat 1), (8249249, .negSucc 0), (15750857, .negSucc 0)] 0)) (.nil)) (.nil)) (.nil)) (.node (.node (.node (.leaf (.trans [] 0)) (.nil)) (.nil)) (.nil)))) (.node (.node (.node (.node (.node (.leaf (.trans [(690713, .negSucc 0), (900421, .negSucc 0)] 0)) (.nil)) (.nil)) (.nil)) (.nil)) (.node (.nil) (.node (.node (.node (.leaf (.trans [(8621405701, .negSucc 0), (111711279473, .negSucc 0), (135898983637, .ofNat 1), (162924841787, .negSucc 0), (244452374119, .ofNat 1), (4030844341543, .ofNat 1), (4619590558553, .negSucc 0), (5548210592201, .ofNat 1)] 0)) (.nil)) (.nil)) (.nil))))

def dynTable_44 : JTree := .node (.node (.node (.node (.node (.node (.leaf (.trans [(23851, .ofNat 1), (29087, .negSucc 0)] 0)) (.nil)) (.nil)) (.nil)) (.node (.node (.node (.leaf (.trans [(275801, .ofNat 2)] 1)) (.nil)) (.nil)) (.nil))) (.node (.node (.node (.node (.leaf (.trans [(126829502677, .ofNat 1)] 0)) (.nil)) (.nil)) (.nil)) (.node (.node (.node (.leaf (.trans [(43949, .negSucc 0)] 0)) (.nil)) (.nil)) (.nil)))) (.node (.node (.node (.node (.node (.leaf (.trans [(1462, .ofNat 1), (2829, .ofNat 1), (45182, .ofNat 1)] 0)) (.nil)) (.nil)) (.nil)) (.node (.node (.node (.leaf (.trans [(51049, .negSucc 0), (755582, .ofNat 1), (1060953, .ofNat 1), (15586009, .negSucc 0), (49040623, .ofNat 1), (55084586, .negSucc 0), (63929891, .ofNat 1), (65644967, .ofNat 1), (67177282, .ofNat 1), (80055979, .negSucc 0), (88266939, .ofNat 1), (107644143, .negSucc 0), (282711659, .negSucc 0), (1081390586, .ofNat 1), (1409712562, .ofNat 1), (1518438219, .ofNat 1), (1979452623, .ofNat 1), (290477584393, .ofNat 1), (354246006341, .negSucc 0), (363749523617, .negSucc 0), (432757761757, .ofNat 1), (474187846189, .negSucc 0), (527760891209, .negSucc 0)] 0)) (.nil)) (.nil)) (.nil))) (.node (.nil) (.node (.node (.node (.nil) (.leaf (.trans [(457, .ofNat 1)] 0))) (.nil)) (.nil))))

def dynTable_45 : JTree := .node (.node (.node (.node (.node (.node (.leaf (.trans [(1247, .ofNat 1)] 0)) (.nil)) (.nil)) (.nil)) (.node (.node (.node (.leaf (.atom 293)) (.nil)) (.nil)) (.nil))) (.node (.node (.node (.node (.leaf (.trans [(443, .ofNat 1), (743, .ofNat 1), (14041, .ofNat 1)] 0)) (.nil)) (.nil)) (.nil)) (.node (.node (.node (.leaf (.trans [(6824123, .ofNat 1), (10269683, .negSucc 0)] 0)) (.nil)) (.nil)) (.nil)))) (.node (.node (.node (.node (.node (.leaf (.trans [(388721, .ofNat 1), (10578301, .ofNat 1)] 0)) (.nil)) (.nil)) (.nil)) (.nil)) (.node (.nil) (.node (.node (.node (.leaf (.trans [(231863, .ofNat 1), (234209, .ofNat 1), (479579, .ofNat 1), (11865031, .negSucc 0), (67566812477, .ofNat 1), (68358224629, .ofNat 1), (86909995373, .ofNat 2), (111790789277, .ofNat 1), (140059086967, .negSucc 0), (141699603359, .negSucc 0), (180155525383, .negSucc 0), (183283735049, .negSucc 0), (235754625401, .negSucc 0), (2704150103329, .ofNat 1), (2735823896633, .ofNat 1), (3465133812563, .ofNat 1), (3478300431121, .ofNat 1), (3505721031451, .ofNat 1), (4457140311587, .ofNat 1), (4534533826861, .ofNat 1), (4641597437221, .ofNat 1), (4695964610717, .ofNat 1), (5832690628189, .ofNat 1), (5970404655829, .ofNat 1)] 0)) (.nil)) (.nil)) (.nil))))

def dynTable_46 : JTree := .node (.node (.node (.node (.node (.node (.leaf (.trans [(20723, .negSucc 0), (38399, .ofNat 1), (950011, .negSucc 0)] 0)) (.nil)) (.nil)) (.nil)) (.node (.node (.node (.leaf (.trans [] 0)) (.nil)) (.nil)) (.nil))) (.node (.node (.node (.node (.leaf (.trans [(32447, .negSucc 0)] 0)) (.nil)) (.nil)) (.nil)) (.node (.node (.node (.leaf (.trans [(277779182917, .ofNat 1), (338759930129, .negSucc 0), (5249390992379, .negSucc 0), (6401787589423, .ofNat 1), (7688660988991, .negSucc 0), (10023022320947, .negSucc 0)] 0)) (.nil)) (.nil)) (.nil)))) (.node (.node (.node (.node (.node (.leaf (.trans [(57, .ofNat 1)] 0)) (.nil)) (.nil)) (.nil)) (.node (.node (.node (.leaf (.trans [(18038, .negSucc 0), (28797, .ofNat 1), (176269, .negSucc 0), (289294, .negSucc 0), (407721, .negSucc 0), (3255821, .ofNat 1), (138262981, .ofNat 1)] 0)) (.nil)) (.nil)) (.nil))) (.node (.nil) (.node (.node (.node (.nil) (.leaf (.atom 709))) (.nil)) (.nil))))

def dynTable_47 : JTree := .node (.node (.node (.node (.node (.node (.leaf (.trans [(14467, .negSucc 0), (15283, .negSucc 0)] 0)) (.nil)) (.nil)) (.nil)) (.node (.node (.node (.leaf (.trans [(43094, .negSucc 0), (50991, .negSucc 0), (649281, .negSucc 0), (814378, .negSucc 0), (974073, .negSucc 0)] 0)) (.nil)) (.nil)) (.nil))) (.node (.node (.node (.node (.leaf (.trans [(14345101, .negSucc 0), (185875673, .negSucc 0), (226121437, .ofNat 1), (271089587, .negSucc 0), (406742719, .ofNat 1), (6706895743, .ofNat 1), (7686506753, .negSucc 0), (9231631601, .ofNat 1)] 0)) (.nil)) (.nil)) (.nil)) (.node (.node (.node (.leaf (.trans [(4448728103, .ofNat 1), (84070782361, .negSucc 0), (160522111873, .negSucc 0)] 0)) (.nil)) (.nil)) (.nil)))) (.node (.node (.node (.node (.node (.leaf (.trans [(9671, .ofNat 1), (18537977, .negSucc 0), (24166309, .negSucc 0)] 0)) (.nil)) (.nil)) (.nil)) (.nil)) (.node (.nil) (.node (.node (.node (.nil) (.leaf (.atom 499))) (.nil)) (.nil))))

def dynTable_48 : JTree := .node (.node (.node (.node (.node (.node (.leaf (.trans [(58, .ofNat 1), (1311, .ofNat 1)] 0)) (.nil)) (.nil)) (.nil)) (.node (.node (.node (.leaf (.atom 397)) (.nil)) (.nil)) (.nil))) (.node (.node (.node (.node (.leaf (.trans [(71311304431, .negSucc 1), (193524402047, .ofNat 2), (484294095469, .ofNat 1), (489550980661, .ofNat 1), (2573104249721, .ofNat 1), (2758188069499, .negSucc 0), (4392324440113, .ofNat 2), (6343323619553, .ofNat 2), (9251393431307, .ofNat 2), (62601184863221, .negSucc 1), (83004882185231, .ofNat 1), (90407614457701, .negSucc 0), (119874302748511, .ofNat 2), (139960993590541, .negSucc 1), (228884229408823, .negSucc 1), (2258819637284611, .ofNat 1), (3262150634102291, .ofNat 2), (4325388243781001, .negSucc 1), (74039365609396189, .ofNat 1)] 0)) (.nil)) (.nil)) (.nil)) (.node (.node (.node (.leaf (.trans [] 0)) (.nil)) (.nil)) (.nil)))) (.node (.node (.node (.node (.node (.leaf (.trans [(251, .ofNat 1)] 0)) (.nil)) (.nil)) (.nil)) (.node (.node (.node (.leaf (.trans [(4947126559, .negSucc 0), (93489372833, .ofNat 1), (112282402961, .negSucc 0)] 0)) (.nil)) (.nil)) (.nil))) (.nil))

def dynTable_49 : JTree := .node (.node (.node (.node (.node (.node (.leaf (.atom 29)) (.nil)) (.nil)) (.nil)) (.nil)) (.node (.node (.node (.node (.leaf (.trans [(9329, .negSucc 0), (195529, .negSucc 0), (391837, .negSucc 0), (396169, .negSucc 0), (5320949, .negSucc 0), (10663097, .negSucc 0)] 0)) (.nil)) (.nil)) (.nil)) (.node (.node (.node (.leaf (.trans [] 0)) (.nil)) (.nil)) (.nil)))) (.node (.node (.node (.node (.node (.leaf (.trans [] 0)) (.nil)) (.nil)) (.nil)) (.nil)) (.node (.node (.node (.node (.leaf (.trans [(4018425571, .negSucc 0), (5983794329, .ofNat 1), (11387168971, .negSucc 0), (16956510929, .ofNat 1), (17140569401, .ofNat 1), (91204151309, .negSucc 1), (323917543687, .ofNat 2), (3165427200041, .negSucc 0), (3290891832619, .ofNat 1), (3860332102117, .ofNat 1), (4900431658481, .negSucc 0), (87615984649643, .ofNat 2), (114217153165231, .ofNat 2), (2592328347336449, .ofNat 1), (3161421099282013, .negSucc 0)] 0)) (.nil)) (.nil)) (.nil)) (.node (.node (.node (.leaf (.trans [(832333, .negSucc 0), (14477557, .ofNat 1), (17655809, .negSucc 0), (953649391, .ofNat 1), (1243187747, .ofNat 1), (411923758751, .ofNat 1), (7305122942471, .ofNat 1), (8908813510027, .negSucc 0), (376893506364733, .ofNat 1), (459632779322921, .negSucc 0), (471963555057077, .negSucc 0), (615256837801009, .negSucc 0), (630547761921673, .negSucc 0), (768971646933701, .ofNat 1)] 0)) (.nil)) (.nil)) (.nil))))

def dynTable_50 : JTree := .node (.node (.node (.node (.node (.node (.leaf (.trans [(731, .negSucc 0), (22591, .negSucc 0)] 0)) (.nil)) (.nil)) (.nil)) (.node (.node (.node (.leaf (.atom 383)) (.nil)) (.nil)) (.nil))) (.node (.node (.node (.node (.leaf (.trans [(905717, .negSucc 0), (1023613, .negSucc 0), (20870867, .negSucc 0), (37534229, .negSucc 0), (41521069, .negSucc 0)] 0)) (.nil)) (.nil)) (.nil)) (.node (.node (.node (.leaf (.trans [(24641, .ofNat 1)] 0)) (.nil)) (.nil)) (.nil)))) (.node (.node (.node (.node (.node (.leaf (.trans [(46789, .negSucc 0)] 0)) (.nil)) (.nil)) (.nil)) (.node (.node (.node (.leaf (.trans [(11254, .ofNat 1), (15861, .ofNat 1), (87470219, .negSucc 0), (110632651, .negSucc 0)] 0)) (.nil)) (.nil)) (.nil))) (.node (.node (.node (.node (.leaf (.atom 281)) (.nil)) (.nil)) (.nil)) (.node (.node (.node (.nil) (.leaf (.atom 587))) (.nil)) (.nil))))

def dynTable_51 : JTree := .node (.node (.node (.nil) (.node (.node (.node (.leaf (.atom 373)) (.nil)) (.nil)) (.nil))) (.node (.node (.node (.node (.leaf (.trans [(449, .ofNat 1), (12731, .ofNat 1), (288949, .ofNat 1)] 0)) (.nil)) (.nil)) (.nil)) (.node (.node (.node (.leaf (.trans [(466507, .ofNat 1), (11541623, .negSucc 0)] 0)) (.nil)) (.nil)) (.nil)))) (.node (.node (.node (.node (.node (.leaf (.trans [(388721, .ofNat 1), (508687, .ofNat 1), (10578301, .ofNat 1), (13842947, .ofNat 1)] 0)) (.nil)) (.nil)) (.nil)) (.node (.node (.node (.leaf (.trans [(136459, .negSucc 0)] 0)) (.nil)) (.nil)) (.nil))) (.node (.nil) (.node (.node (.node (.leaf (.trans [(24641, .ofNat 1)] 0)) (.nil)) (.nil)) (.nil))))

def dynTable_52 : JTree := .node (.node (.node (.nil) (.node (.node (.node (.leaf (.trans [(96497029, .negSucc 0), (160133591, .negSucc 0), (174535729, .negSucc 0), (184248397, .negSucc 0), (3706577167, .negSucc 0), (3861991433, .negSucc 0), (4749657149, .negSucc 0), (4948807051, .negSucc 0), (5306872133, .ofNat 1), (5784163027, .ofNat 1), (5943605467, .ofNat 1), (7373965169, .negSucc 0), (12657203381, .negSucc 0)] 0)) (.nil)) (.nil)) (.nil))) (.node (.node (.node (.node (.leaf (.trans [(7460558981, .ofNat 1)] 0)) (.nil)) (.nil)) (.nil)) (.node (.node (.node (.leaf (.trans [(43807, .negSucc 0)] 0)) (.nil)) (.nil)) (.nil)))) (.node (.node (.node (.node (.node (.leaf (.trans [(20459, .ofNat 1)] 0)) (.nil)) (.nil)) (.nil)) (.node (.node (.node (.leaf (.trans [(7344781, .ofNat 1), (135663629, .negSucc 0), (3691827049, .negSucc 0)] 0)) (.nil)) (.nil)) (.nil))) (.node (.nil) (.node (.node (.node (.nil) (.leaf (.trans [(443, .ofNat 1)] 0))) (.nil)) (.nil))))

def dynTable_53 : JTree := .node (.node (.node (.node (.node (.node (.leaf (.trans [(30031, .ofNat 1)] 0)) (.nil)) (.nil)) (.nil)) (.nil)) (.node (.node (.node (.node (.leaf (.trans [] 0)) (.nil)) (.nil)) (.nil)) (.node (.node (.node (.leaf (.trans [(10811, .ofNat 1)] 0)) (.nil)) (.nil)) (.nil)))) (.node (.node (.node (.node (.node (.leaf (.trans [(503, .ofNat 1)] 0)) (.nil)) (.nil)) (.nil)) (.node (.node (.node (.leaf (.trans [(419, .ofNat 4), (218747, .negSucc 3), (500569, .negSucc 3), (537457, .negSucc 3), (7184717, .ofNat 4), (7685519, .negSucc 3), (61248841, .negSucc 3), (62165473, .ofNat 4), (74661841, .negSucc 3), (91887553, .negSucc 3), (94194913, .ofNat 4), (120702611, .ofNat 4), (133872671, .negSucc 1), (144676331, .negSucc 3), (144965987, .negSucc 3), (157332743, .ofNat 4), (179852809, .ofNat 4), (196882369, .negSucc 3), (199138117, .negSucc 3), (1894808287, .ofNat 4), (1949417693, .ofNat 4), (1974256313, .ofNat 4), (1985463983, .negSucc 3), (2164033177, .negSucc 3), (2337093043, .negSucc 3), (3769583009, .ofNat 4), (3797165611, .ofNat 4), (3956378189, .ofNat 4), (4421365831, .negSucc 1), (4649476301, .negSucc 3), (4735448831, .ofNat 4), (7554184277, .ofNat 4)] 1)) (.nil)) (.nil)) (.nil))) (.node (.node (.node (.node (.leaf (.trans [(365221, .ofNat 1)] 0)) (.nil)) (.nil)) (.nil)) (.node (.node (.node (.leaf (.trans [(9299, .negSucc 0), (409139, .negSucc 0), (702763, .ofNat 1), (4919171, .ofNat 2), (5930297, .negSucc 0), (6315823, .ofNat 1), (6542603, .negSucc 0), (6724027, .ofNat 1), (6792061, .ofNat 1), (6814739, .negSucc 0), (6882773, .ofNat 1), (6950807, .negSucc 0), (13907791, .ofNat 1), (37138081, .negSucc 0), (37505179, .ofNat 1), (216434531, .ofNat 2), (371761627, .negSucc 1), (439916101, .ofNat 1), (444538687, .negSucc 0), (461488169, .ofNat 1), (463029031, .negSucc 0), (1129475881, .negSucc 0), (1472397077, .negSucc 0), (2446318003, .negSucc 1), (2844799499, .ofNat 1), (2878120723, .ofNat 1), (3722753653, .ofNat 1), (3997331227, .negSucc 0), (4715556883, .ofNat 1), (10883750489, .negSucc 0), (10998115643, .ofNat 1), (11417454541, .negSucc 0), (11455576259, .ofNat 1), (19646044849, .ofNat 2), (19840239691, .negSucc 1), (23958932813, .negSucc 1), (24195759167, .ofNat 2), (31202172623, .ofNat 1), (31507577249, .negSucc 0), (77732904937, .negSucc 0), (78493749031, .ofNat 1), (94277453537, .ofNat 1), (94797576869, .ofNat 1), (95381728249, .ofNat 1), (95725448747, .negSucc 0), (119487372847, .ofNat 1), (120808379539, .ofNat 1), (120886932119, .ofNat 1), (121277082697, .ofNat 1), (122223411803, .ofNat 1), (153391695113, .ofNat 1), (153694493503, .ofNat 1), (156363235409, .ofNat 1), (158091927533, .ofNat 1), (168360748531, .negSucc 0), (170008651453, .ofNat 1), (201127263041, .ofNat 1), (347799229961, .negSucc 0), (1294102223587, .ofNat 4), (1504898934971, .negSucc 1), (1522525862467, .negSucc 1), (1687005772679, .ofNat 4), (1867060724497, .ofNat 1), (1888929664169, .ofNat 1), (1928397457537, .negSucc 0), (1950984836249, .negSucc 0), (1969336682437, .negSucc 1), (2059341340759, .ofNat 1), (2114588219083, .ofNat 2), (2494529591107, .negSucc 1), (2523534147839, .negSucc 1), (3135493310507, .ofNat 1), (3155090096003, .negSucc 0), (3169713966169, .negSucc 0), (3206840923313, .negSucc 0), (3302340277633, .negSucc 0), (3451942893559, .negSucc 0), (3959845059661, .ofNat 1), (4006226846597, .ofNat 1), (4061713522043, .negSucc 0), (4077146990281, .negSucc 0), (4109288497411, .negSucc 0), (5093478635389, .ofNat 1), (5224510236107, .negSucc 0), (5315228316421, .negSucc 0), (6118870799021, .negSucc 0), (6836884136629, .negSucc 0), (7462143932377, .ofNat 1), (7662334230949, .ofNat 1), (9988702472033, .ofNat 1), (11111798328923, .negSucc 0), (13914710001187, .ofNat 2), (18626000710523, .ofNat 1), (63208820236063, .negSucc 1), (63949187090951, .negSucc 1), (78420352996541, .ofNat 2), (79338893002357, .ofNat 2), (81304387063087, .negSucc 1), (82716151531361, .negSucc 1), (89062835972899, .ofNat 2), (89934576618637, .negSucc 1), (100870712502509, .ofNat 2), (106396322148689, .negSucc 1), (108614762900663, .negSucc 1), (109677876403769, .ofNat 2), (133134442208357, .negSucc 0), (134693850023389, .negSucc 0), (171248477353493, .negSucc 1), (179178880075037, .ofNat 2), (183985792649369, .ofNat 2), (220273886377157, .negSucc 0), (446382212542603, .negSucc 0), (532389844943503, .negSucc 0), (544376311946111, .ofNat 1), (558980540625107, .ofNat 1), (649265163719411, .ofNat 1), (728693129230519, .ofNat 1), (966813777196489, .negSucc 1), (1210689119494241, .ofNat 2), (3293814541441273, .ofNat 1), (3332395092439121, .ofNat 1), (4236775364438377, .ofNat 2), (5449689186464473, .ofNat 1), (5878141316000267, .ofNat 2), (7168567207182079, .negSucc 1), (7360881590627923, .negSucc 3), (9595725522343991, .negSucc 3), (9853154375866667, .negSucc 1), (12016213212478879, .ofNat 2), (15589970652029791, .ofNat 1), (38838760406432729, .negSucc 0), (47365017145692373, .ofNat 1), (84120396366799427, .negSucc 0), (511444488136942681, .ofNat 4), (623721681541203797, .negSucc 3), (640454544212453489, .negSucc 3), (834903528895969213, .negSucc 3), (44499689678036896883, .ofNat 2), (54268687839715702471, .negSucc 1)] 0)) (.nil)) (.nil)) (.nil))))

def dynTable_54 : JTree := .node (.node (.node (.nil) (.node (.node (.node (.leaf (.trans [(108815599, .negSucc 3), (238115897, .ofNat 4), (268559983, .negSucc 1)] 1)) (.nil)) (.nil)) (.nil))) (.node (.node (.node (.node (.leaf (.trans [(457626331, .ofNat 1), (558088847, .negSucc 0), (8648090597, .negSucc 0), (10546602289, .ofNat 1), (12666657313, .negSucc 0), (16512392621, .negSucc 0)] 0)) (.nil)) (.nil)) (.nil)) (.node (.node (.node (.leaf (.trans [(607, .ofNat 1)] 0)) (.nil)) (.nil)) (.nil)))) (.node (.node (.node (.node (.node (.leaf (.trans [(888991, .negSucc 0), (15765511, .negSucc 0), (19226507, .ofNat 1), (813390653, .negSucc 0), (991953961, .ofNat 1), (1018565557, .ofNat 1), (1327813169, .ofNat 1), (1360813193, .ofNat 1), (1659551941, .negSucc 0)] 0)) (.nil)) (.nil)) (.nil)) (.node (.node (.node (.leaf (.trans [(135967439, .ofNat 1), (174892511, .ofNat 1), (3700094659, .ofNat 1), (4759366291, .ofNat 1)] 0)) (.nil)) (.nil)) (.nil))) (.node (.nil) (.node (.node (.node (.nil) (.leaf (.atom 677))) (.nil)) (.nil))))

def dynTable_55 : JTree := .node (.node (.node (.node (.node (.node (.leaf (.trans [(713, .ofNat 1), (1073, .negSucc 0)] 0)) (.nil)) (.nil)) (.nil)) (.node (.node (.node (.leaf (.trans [] 0)) (.nil)) (.nil)) (.nil))) (.node (.node (.node (.node (.leaf (.trans [(312953, .ofNat 1), (358663, .negSucc 0), (8873507, .ofNat 1), (10638157, .negSucc 0), (13312331, .ofNat 1)] 0)) (.nil)) (.nil)) (.nil)) (.node (.node (.node (.leaf (.trans [(231863, .ofNat 1)] 0)) (.nil)) (.nil)) (.nil)))) (.node (.node (.node (.node (.node (.leaf (.trans [(2714, .ofNat 1), (3538, .ofNat 1), (79971, .ofNat 1), (97527, .negSucc 0)] 0)) (.nil)) (.nil)) (.nil)) (.node (.node (.node (.leaf (.trans [(1357, .ofNat 1), (1769, .ofNat 1), (8037787, .ofNat 1), (9802319, .negSucc 0)] 0)) (.nil)) (.nil)) (.nil))) (.node (.nil) (.node (.node (.node (.nil) (.leaf (.atom 467))) (.nil)) (.nil))))

def dynTable_56 : JTree := .node (.node (.node (.node (.node (.node (.leaf (.trans [(13661, .ofNat 1)] 0)) (.nil)) (.nil)) (.nil)) (.nil)) (.node (.node (.node (.node (.leaf (.trans [(2707942087, .negSucc 1), (3187027177, .ofNat 1), (9031202977, .ofNat 1), (63115549337, .ofNat 1), (114996538607, .negSucc 1), (1432501364023, .ofNat 2), (2610017660353, .negSucc 0), (51688513860593, .negSucc 0)] 0)) (.nil)) (.nil)) (.nil)) (.node (.node (.node (.leaf (.trans [(823699, .ofNat 1), (1073783, .ofNat 1), (57998617, .negSucc 0), (70731029, .ofNat 1), (22321489453, .negSucc 0), (415624159697, .ofNat 1), (541812187549, .ofNat 1), (21443314248331, .ofNat 1), (27953738323727, .ofNat 1), (28703665860899, .ofNat 1), (35004969556663, .negSucc 0)] 0)) (.nil)) (.nil)) (.node (.node (.nil) (.leaf (.atom 797))) (.nil))))) (.node (.node (.node (.node (.node (.leaf (.trans [(7279, .ofNat 1), (242351, .negSucc 0)] 0)) (.nil)) (.nil)) (.nil)) (.node (.node (.node (.leaf (.trans [(5523059, .ofNat 1), (7091167, .ofNat 1), (160944593, .ofNat 1), (199286869, .negSucc 0)] 0)) (.nil)) (.nil)) (.nil))) (.nil))

def dynTable_57 : JTree := .node (.node (.node (.node (.node (.node (.leaf (.atom 61)) (.nil)) (.nil)) (.nil)) (.nil)) (.node (.node (.node (.node (.leaf (.trans [(21547, .negSucc 0)] 0)) (.nil)) (.nil)) (.nil)) (.node (.node (.node (.leaf (.trans [(252067, .ofNat 1), (422767, .ofNat 1), (7989329, .ofNat 1)] 0)) (.nil)) (.nil)) (.nil)))) (.node (.node (.node (.node (.node (.leaf (.trans [(9329, .ofNat 1)] 0)) (.nil)) (.nil)) (.nil)) (.nil)) (.node (.node (.node (.node (.leaf (.trans [(15935467981, .negSucc 0), (244249758059, .ofNat 1), (301143884147, .negSucc 0), (12465642093803, .negSucc 0), (15202219260511, .ofNat 1), (20772701951959, .ofNat 1), (27079520820203, .ofNat 1), (345037000479569, .ofNat 1), (392556538502633, .negSucc 0), (449793996940573, .ofNat 1), (511740984975061, .negSucc 0), (614610043317637, .ofNat 1), (749535127666769, .negSucc 0)] 0)) (.nil)) (.nil)) (.nil)) (.node (.node (.node (.leaf (.trans [] 0)) (.nil)) (.nil)) (.nil))))

def dynTable_58 : JTree := .node (.node (.node (.node (.node (.node (.leaf (.trans [] 0)) (.nil)) (.nil)) (.nil)) (.node (.node (.node (.leaf (.trans [(4961899, .negSucc 3), (11133427, .ofNat 2)] 1)) (.nil)) (.nil)) (.nil))) (.node (.node (.node (.node (.leaf (.trans [(457, .ofNat 1), (595723, .ofNat 1), (776591, .ofNat 1), (17625889, .ofNat 1), (21495293, .negSucc 0)] 0)) (.nil)) (.nil)) (.nil)) (.node (.node (.node (.leaf (.trans [(816437, .ofNat 1), (29937421, .ofNat 1)] 0)) (.nil)) (.nil)) (.nil)))) (.node (.node (.node (.node (.node (.leaf (.trans [(841453, .ofNat 1), (1082651239, .ofNat 1), (1411355963, .ofNat 1)] 0)) (.nil)) (.nil)) (.nil)) (.node (.node (.node (.leaf (.trans [(14587, .ofNat 1), (18763, .ofNat 1), (470557, .negSucc 0), (615779, .negSucc 0), (7574321, .negSucc 0), (9911887, .negSucc 0), (66278801, .ofNat 1), (85253249, .ofNat 1), (137389171, .negSucc 0), (179789837, .negSucc 0), (3399078719, .ofNat 1), (4448092993, .ofNat 1)] 0)) (.nil)) (.nil)) (.nil))) (.node (.nil) (.node (.node (.node (.nil) (.leaf (.atom 631))) (.nil)) (.nil))))

def dynTable_59 : JTree := .node (.node (.node (.node (.node (.node (.leaf (.trans [] 0)) (.nil)) (.nil)) (.nil)) (.node (.node (.node (.leaf (.trans [(14926, .ofNat 1), (42123, .negSucc 0)] 0)) (.nil)) (.nil)) (.nil))) (.node (.node (.node (.node (.leaf (.trans [(444061, .negSucc 0), (883427, .negSucc 0)] 0)) (.nil)) (.nil)) (.nil)) (.node (.node (.node (.leaf (.trans [(570653, .negSucc 0)] 0)) (.nil)) (.nil)) (.nil)))) (.node (.node (.node (.node (.node (.leaf (.trans [(31049, .ofNat 1)] 0)) (.nil)) (.nil)) (.nil)) (.nil)) (.nil))

def dynTable_60 : JTree := .node (.node (.node (.node (.node (.node (.leaf (.trans [(23851, .ofNat 1), (29087, .negSucc 0)] 0)) (.nil)) (.nil)) (.nil)) (.node (.node (.node (.leaf (.trans [(2217, .negSucc 0)] 0)) (.nil)) (.nil)) (.nil))) (.node (.node (.node (.node (.leaf (.trans [(3546245951, .ofNat 1)] 0)) (.nil)) (.nil)) (.nil)) (.node (.node (.node (.leaf (.trans [(13809199619, .negSucc 0), (13945699121, .ofNat 1), (237686721229, .negSucc 0), (240036178111, .ofNat 1), (260962277053, .negSucc 0), (263541805327, .ofNat 1), (282355446227, .negSucc 0), (344340818599, .ofNat 1), (1602902817349, .ofNat 1), (1620301906381, .ofNat 1), (5335871898349, .negSucc 0), (5539899856979, .ofNat 1), (5594659987361, .negSucc 0), (6507253612313, .ofNat 1), (7815327562121, .ofNat 1), (10188146247157, .ofNat 1), (12130687951693, .ofNat 1), (12250595905087, .negSucc 0), (14793732776441, .negSucc 0), (14939964072419, .ofNat 1), (18001001804441, .negSucc 0), (18178935924419, .ofNat 1), (23466302278597, .negSucc 0), (23698259138023, .ofNat 1), (29892203276263, .negSucc 0), (30187678102717, .ofNat 1), (30619998744947, .ofNat 2), (125736275530141, .ofNat 2), (126979138220719, .negSucc 1), (147691809286327, .ofNat 1), (192532653373259, .ofNat 1), (299228549924221, .negSucc 0), (335765791534039, .negSucc 0), (339084728517901, .ofNat 1), (340177747424167, .negSucc 0), (343540295174653, .ofNat 1), (437707947843563, .negSucc 0), (442034550293417, .ofNat 1), (443459421660539, .negSucc 0), (447842875581401, .ofNat 1), (463238914213861, .negSucc 1), (532602668847563, .negSucc 0), (537867275129417, .ofNat 1), (649524708765631, .ofNat 1), (655945051850629, .negSucc 0), (827387476598149, .ofNat 2), (835565936004391, .negSucc 1), (1267493598113003, .ofNat 2), (1545745934690911, .negSucc 1), (1969025675399269, .negSucc 0), (4536904036354331, .negSucc 0), (4581749875263929, .ofNat 1), (10064971834843381, .negSucc 0), (10164460848037879, .ofNat 1), (10796973349335611, .ofNat 2), (12274530869149697, .ofNat 1), (12395860663572923, .negSucc 0), (15812975533143127, .ofNat 2), (15969281716337293, .negSucc 1), (19284391402143899, .negSucc 1), (19475011416003641, .ofNat 2), (23952728951688661, .ofNat 2), (24480236322097807, .ofNat 1), (24722215593815413, .negSucc 0), (29211061465673057, .negSucc 1), (35083005426361169, .negSucc 1), (45734588503487773, .negSucc 1), (58258331460657967, .negSucc 1), (245053385619132469, .ofNat 1), (437687975120420821, .negSucc 3), (442014380146322839, .ofNat 4), (570574817972015057, .negSucc 3), (576214766749333163, .ofNat 4), (662988531886321903, .negSucc 1), (864279080992559651, .negSucc 1), (1041614582286213301, .ofNat 2), (1357860129745255217, .ofNat 2), (1612534660378450141, .ofNat 1), (12950045014389739903, .negSucc 1), (13078052049128353477, .ofNat 2), (15792962950549426211, .ofNat 2), (15949071315793736849, .negSucc 1), (30818657342688064543, .ofNat 4), (37584264229037261891, .negSucc 3), (853030835340200124589, .negSucc 1), (1112020300454542387913, .negSucc 1)] 0)) (.nil)) (.nil)) (.nil)))) (.node (.node (.node (.node (.node (.leaf (.trans [(1978, .negSucc 0), (2091, .negSucc 0), (71079, .ofNat 1)] 0)) (.nil)) (.nil)) (.nil)) (.node (.node (.node (.leaf (.trans [(182731, .ofNat 1), (844054, .negSucc 0), (1100318, .negSucc 0), (1347501, .ofNat 1), (1756617, .ofNat 1), (3375179, .negSucc 0), (15899033, .ofNat 1), (17646934, .negSucc 0), (21520958, .ofNat 1), (24870981, .negSucc 0), (30330897, .ofNat 1), (293667097, .negSucc 0), (6469753973, .ofNat 1), (8434041841, .ofNat 1), (377845282411, .negSucc 0), (492563231087, .negSucc 0)] 0)) (.nil)) (.nil)) (.nil))) (.nil))

def dynTable_61 : JTree := .node (.node (.node (.node (.node (.node (.leaf (.trans [(779, .ofNat 1), (21199, .ofNat 1)] 0)) (.nil)) (.nil)) (.nil)) (.node (.node (.node (.leaf (.atom 317)) (.nil)) (.nil)) (.nil))) (.node (.node (.node (.node (.leaf (.trans [] 0)) (.nil)) (.nil)) (.nil)) (.node (.node (.node (.leaf (.trans [] 0)) (.nil)) (.nil)) (.nil)))) (.node (.node (.node (.node (.node (.leaf (.trans [(503, .ofNat 1), (647, .ofNat 1)] 0)) (.nil)) (.nil)) (.nil)) (.node (.node (.node (.leaf (.trans [(23, .ofNat 1), (166141, .negSucc 0)] 0)) (.nil)) (.nil)) (.nil))) (.node (.nil) (.node (.node (.node (.leaf (.trans [(731989, .ofNat 1), (23153479, .ofNat 1), (23396773, .negSucc 0), (24288851, .ofNat 1), (24369949, .negSucc 0), (59446099, .negSucc 0), (77494583, .negSucc 0), (4091205523, .negSucc 0), (4131249949, .ofNat 1), (4989346151, .ofNat 1), (5038181513, .negSucc 0), (166827050851, .negSucc 0), (168781101227, .negSucc 0), (213774395897, .negSucc 0), (214586683699, .negSucc 0), (216278341969, .negSucc 0), (274974222953, .negSucc 0), (279748858759, .negSucc 0), (359836007191, .negSucc 0), (7007075905703, .negSucc 0), (7089150001231, .negSucc 0), (9013077755447, .negSucc 1), (11593362440903, .negSucc 0), (23493800660137, .negSucc 0), (28651384839269, .ofNat 1), (29420028453953, .ofNat 1), (38352269959501, .ofNat 1), (2044145284549091, .negSucc 0), (2492895639246967, .ofNat 1)] 0)) (.nil)) (.nil)) (.nil))))

def dynTable_62 : JTree := .node (.node (.node (.node (.node (.node (.leaf (.trans [(18377, .ofNat 1), (43301, .ofNat 1), (1071289, .negSucc 0)] 0)) (.nil)) (.nil)) (.nil)) (.node (.node (.node (.leaf (.trans [(76801733, .ofNat 4), (92075083, .negSucc 3), (214848979, .ofNat 2), (2277984887, .ofNat 4), (2610707977, .negSucc 3), (3135506809, .ofNat 4), (5846705399, .ofNat 2)] 1)) (.nil)) (.nil)) (.nil))) (.node (.node (.node (.node (.leaf (.trans [(45523141, .ofNat 1), (55516817, .negSucc 0), (67552817, .ofNat 1), (88062589, .ofNat 1)] 0)) (.nil)) (.nil)) (.nil)) (.node (.node (.node (.leaf (.trans [] 0)) (.nil)) (.nil)) (.nil)))) (.node (.node (.node (.node (.node (.leaf (.trans [] 0)) (.nil)) (.nil)) (.nil)) (.node (.node (.node (.leaf (.trans [(779, .ofNat 1), (21199, .ofNat 1)] 0)) (.nil)) (.nil)) (.nil))) (.node (.nil) (.node (.node (.node (.nil) (.leaf (.trans [(727, .ofNat 1)] 0))) (.nil)) (.nil))))

def dynTable_63 : JTree := .node (.node (.node (.node (.node (.node (.leaf (.trans [] 0)) (.nil)) (.nil)) (.nil)) (.node (.node (.node (.leaf (.trans [(42862, .ofNat 1), (51267, .ofNat 1), (343298, .negSucc 0), (818786, .ofNat 1), (968829, .ofNat 1)] 0)) (.nil)) (.nil)) (.nil))) (.node (.node (.node (.node (.leaf (.trans [] 0)) (.nil)) (.nil)) (.nil)) (.node (.node (.node (.leaf (.trans [(14254403, .negSucc 0), (404171057, .negSucc 0), (899460197, .ofNat 1), (9173263903, .negSucc 0), (11654694481, .ofNat 1), (16997739739, .ofNat 1), (420532819271, .negSucc 0)] 0)) (.nil)) (.nil)) (.nil)))) (.node (.node (.node (.node (.node (.leaf (.trans [] 0)) (.nil)) (.nil)) (.nil)) (.nil)) (.node (.nil) (.node (.node (.node (.nil) (.leaf (.atom 523))) (.nil)) (.nil))))

def dynTable_64 : JTree := .node (.node (.node (.node (.node (.node (.leaf (.trans [(314203, .ofNat 1)] 0)) (.nil)) (.nil)) (.nil)) (.nil)) (.node (.node (.node (.node (.leaf (.trans [(7158205399, .negSucc 0), (9367350953, .negSucc 0), (92751960827, .negSucc 0), (112834597063, .ofNat 1), (121376814469, .negSucc 0), (135273703913, .negSucc 0), (147657298361, .ofNat 1), (177021500311, .negSucc 0), (202964616781, .ofNat 1), (265602995507, .ofNat 1), (3346740975757, .ofNat 1), (3835566869747, .negSucc 0), (4379602920179, .ofNat 1), (4606584168899, .ofNat 1), (5019288909709, .negSucc 0), (6028255435453, .ofNat 1)] 0)) (.nil)) (.nil)) (.nil)) (.node (.node (.node (.leaf (.trans [(3138124333, .ofNat 1)] 0)) (.nil)) (.nil)) (.node (.node (.nil) (.leaf (.atom 839))) (.nil))))) (.node (.node (.node (.node (.node (.leaf (.trans [(257, .ofNat 1)] 0)) (.nil)) (.nil)) (.nil)) (.node (.node (.node (.leaf (.trans [] 0)) (.nil)) (.nil)) (.nil))) (.nil))

def dynTable_65 : JTree := .node (.node (.node (.node (.node (.node (.leaf (.trans [(2, .ofNat 1)] 0)) (.nil)) (.nil)) (.nil)) (.nil)) (.node (.node (.node (.node (.leaf (.trans [(200203, .ofNat 1), (388721, .ofNat 1), (5448143, .ofNat 1), (8255183, .ofNat 1), (10578301, .ofNat 1), (12882323, .negSucc 0)] 0)) (.nil)) (.nil)) (.nil)) (.node (.node (.node (.leaf (.trans [(2983699937, .ofNat 1)] 0)) (.nil)) (.nil)) (.nil)))) (.node (.node (.node (.node (.node (.leaf (.trans [(14789, .negSucc 0), (18589, .ofNat 1)] 0)) (.nil)) (.nil)) (.nil)) (.nil)) (.node (.node (.node (.node (.leaf (.trans [(96938663, .negSucc 0), (101405303, .negSucc 0), (124690487, .negSucc 0), (130435847, .negSucc 0), (2875258157, .negSucc 1), (3698393693, .negSucc 1), (65258264803, .negSucc 1), (79387971407, .negSucc 0), (83940551347, .negSucc 1), (102115342943, .negSucc 0), (202964616781, .ofNat 2), (265602995507, .ofNat 2), (461768788703, .negSucc 0), (466781167607, .negSucc 0), (593965022447, .negSucc 0), (600412356743, .negSucc 0), (2629900252313, .ofNat 1), (3441532795111, .ofNat 1), (4606584168899, .ofNat 2), (6028255435453, .ofNat 2), (6652754040019, .ofNat 2), (8557319808931, .ofNat 2), (8821096062409, .negSucc 1), (11346419786041, .negSucc 1), (59689501846327, .ofNat 2), (78110710832969, .ofNat 2), (86202609134087, .ofNat 1), (87053900828413, .ofNat 1), (110880890874263, .ofNat 1), (113920234951811, .ofNat 1), (125721829711853, .ofNat 2), (133451179935167, .ofNat 2), (161713765056797, .ofNat 2), (171655891487183, .ofNat 2), (240049313770229, .negSucc 1), (308771184909221, .negSucc 1), (2153758258806257, .negSucc 0), (2818445176353679, .negSucc 0), (3110422697632417, .negSucc 1), (4000881680652433, .negSucc 1), (4536382792258123, .negSucc 1), (5835068919664027, .negSucc 1), (70595674185703343, .negSucc 0), (90805966596719807, .negSucc 0)] 0)) (.nil)) (.nil)) (.nil)) (.node (.node (.node (.leaf (.trans [(593, .ofNat 1), (599, .ofNat 1), (172805147, .ofNat 1), (174829219, .ofNat 1), (222276203, .ofNat 2), (285909947, .ofNat 1)] 0)) (.nil)) (.nil)) (.node (.node (.nil) (.leaf (.atom 859))) (.nil)))))

def dynTable_66 : JTree := .node (.node (.node (.node (.node (.node (.leaf (.trans [] 0)) (.nil)) (.nil)) (.nil)) (.node (.node (.node (.leaf (.trans [(656438, .negSucc 0), (683962, .negSucc 0), (1270221, .negSucc 0), (1461742, .negSucc 0), (1545249, .negSucc 0), (2779563, .ofNat 1), (18612722, .negSucc 0), (20286718, .negSucc 0), (27923426, .negSucc 0), (52527381, .ofNat 1)] 0)) (.nil)) (.nil)) (.nil))) (.node (.node (.node (.node (.leaf (.trans [(23797, .negSucc 0), (674743, .negSucc 0), (1501603, .ofNat 1), (15314297, .negSucc 0), (19456919, .ofNat 1), (28376861, .ofNat 1), (702058129, .negSucc 0)] 0)) (.nil)) (.nil)) (.nil)) (.node (.node (.node (.leaf (.trans [(12413077, .negSucc 0), (23001001, .ofNat 1), (569056589, .negSucc 0)] 0)) (.nil)) (.nil)) (.nil)))) (.node (.node (.node (.node (.node (.leaf (.trans [(2414, .negSucc 0), (282003, .negSucc 0), (343911, .ofNat 1), (3454922, .negSucc 0), (4503874, .negSucc 0)] 0)) (.nil)) (.nil)) (.nil)) (.node (.node (.node (.leaf (.trans [(16994, .ofNat 1), (27231, .negSucc 0), (226273, .negSucc 0), (273562, .ofNat 1), (384123, .ofNat 1), (4104323, .negSucc 0), (133508953, .negSucc 0)] 0)) (.nil)) (.nil)) (.nil))) (.node (.node (.node (.node (.leaf (.trans [(251, .ofNat 1), (503, .ofNat 1)] 0)) (.nil)) (.nil)) (.nil)) (.node (.node (.node (.nil) (.leaf (.atom 557))) (.nil)) (.nil))))

def dynTable_67 : JTree := .node (.node (.node (.node (.node (.node (.leaf (.trans [(817, .ofNat 1), (20213, .negSucc 0)] 0)) (.nil)) (.nil)) (.nil)) (.node (.node (.node (.leaf (.atom 347)) (.nil)) (.nil)) (.nil))) (.node (.node (.node (.node (.leaf (.trans [(5947133, .negSucc 0), (6408881, .negSucc 0), (6770369, .negSucc 0), (8949893, .ofNat 1), (10748981, .negSucc 0), (11355269, .negSucc 0)] 0)) (.nil)) (.nil)) (.nil)) (.node (.node (.node (.leaf (.trans [(266257, .ofNat 1), (7549483, .ofNat 1), (18754063, .ofNat 1), (171346757, .ofNat 1), (243004499, .ofNat 1), (354408881, .ofNat 1), (8768257909, .negSucc 0)] 0)) (.nil)) (.nil)) (.nil)))) (.node (.node (.node (.node (.node (.leaf (.trans [(503, .ofNat 1), (647, .ofNat 1)] 0)) (.nil)) (.nil)) (.nil)) (.node (.node (.node (.leaf (.trans [(171071, .ofNat 1)] 0)) (.nil)) (.nil)) (.nil))) (.node (.nil) (.node (.node (.node (.leaf (.trans [(569, .ofNat 1)] 0)) (.nil)) (.nil)) (.nil))))

def dynTable_68 : JTree := .node (.node (.node (.node (.node (.node (.leaf (.trans [(1363, .ofNat 1), (49979, .ofNat 1)] 0)) (.nil)) (.nil)) (.nil)) (.node (.node (.node (.leaf (.trans [(94194913, .negSucc 0), (179852809, .negSucc 0)] 0)) (.nil)) (.nil)) (.nil))) (.node (.node (.node (.node (.leaf (.trans [(315641, .ofNat 1)] 0)) (.nil)) (.nil)) (.nil)) (.node (.node (.node (.leaf (.trans [(780349, .ofNat 1), (1004032087, .ofNat 1), (1308867179, .ofNat 1)] 0)) (.nil)) (.nil)) (.nil)))) (.node (.node (.nil) (.node (.node (.node (.leaf (.trans [(497467, .ofNat 1), (7279919, .negSucc 0), (132049069, .negSucc 0), (3593463689, .negSucc 0)] 0)) (.nil)) (.nil)) (.nil))) (.node (.nil) (.node (.node (.node (.nil) (.leaf (.atom 739))) (.nil)) (.nil))))

def dynTable_69 : JTree := .node (.node (.node (.node (.node (.node (.leaf (.atom 67)) (.nil)) (.nil)) (.nil)) (.nil)) (.node (.node (.node (.node (.leaf (.trans [(216427, .ofNat 1), (324691, .ofNat 1)] 0)) (.nil)) (.nil)) (.nil)) (.node (.node (.node (.leaf (.trans [(8144921, .negSucc 0), (8604329, .negSucc 0)] 0)) (.nil)) (.nil)) (.nil)))) (.node (.node (.node (.node (.node (.leaf (.trans [(191981, .ofNat 1)] 0)) (.nil)) (.nil)) (.nil)) (.nil)) (.node (.node (.node (.node (.leaf (.trans [(127388581, .negSucc 0), (138049189, .negSucc 0), (6572364263, .negSucc 0), (18624364463, .negSucc 0), (18826527047, .negSucc 0), (104324948509, .negSucc 0), (179954216671, .negSucc 1), (234590279507, .negSucc 1), (355778285689, .negSucc 1), (1620466068709, .negSucc 0), (1638055802221, .negSucc 0), (3476780695127, .ofNat 1), (5324375671453, .negSucc 1), (5382441329807, .ofNat 1), (5675643278771, .negSucc 0), (6493233623561, .ofNat 2), (9004894690067, .ofNat 1), (12598318430681, .ofNat 1), (16423305308677, .ofNat 1), (16538157976009, .ofNat 2), (20168772841733, .negSucc 1), (20709849601121, .negSucc 1), (22878399999503, .ofNat 1), (26997585810157, .negSucc 1), (30624647916487, .ofNat 1), (30955506755027, .negSucc 1), (35700345368081, .ofNat 1), (46539359584477, .ofNat 1), (125451627247057, .negSucc 1), (128817174594109, .negSucc 1), (302507242917661, .ofNat 1), (372751366399883, .ofNat 2), (454581317113471, .negSucc 1), (457760328634507, .negSucc 1), (468314693856901, .ofNat 2), (596741356930319, .negSucc 1), (612750406272803, .negSucc 1), (676912153616429, .ofNat 2), (747267245283511, .ofNat 2), (847660840760101, .negSucc 1), (1438949709790787, .ofNat 2), (1754841734463319, .negSucc 1), (1990600590919429, .ofNat 1), (2847311463467903, .negSucc 0), (4648071186327419, .ofNat 1), (8650622845702709, .negSucc 0), (10317399811375409, .negSucc 0), (10915277437898651, .negSucc 1), (11277046288907953, .negSucc 0), (11579580692431261, .negSucc 0), (12102673599737087, .negSucc 1), (13449874919913853, .negSucc 0), (14121641172309257, .ofNat 1), (15777177301352179, .negSucc 1), (16200438747821623, .negSucc 1), (18736278269058167, .negSucc 0), (19756914253401851, .ofNat 2), (25080072263256943, .negSucc 0), (27192857167123069, .ofNat 2), (33162493665678953, .negSucc 1), (39828745921879001, .negSucc 1), (51921187572442117, .negSucc 1), (58896676910040847, .ofNat 2), (247738473050300629, .negSucc 0), (358086529263090941, .negSucc 3), (436697114447005417, .ofNat 4), (448412584762093429, .ofNat 4), (584555536067902193, .ofNat 4), (752672168895158887, .negSucc 1), (981191648323902779, .negSucc 1), (1053027712596377941, .negSucc 1), (1372738410893878097, .negSucc 1), (1630203449315872381, .negSucc 0), (9911491204331770343, .ofNat 2), (12920728032765587131, .ofNat 2), (13267358227262922847, .ofNat 2), (16179935799605745539, .negSucc 1), (31156342085411608063, .negSucc 3), (37996080761325204131, .ofNat 4), (862377624688096489549, .ofNat 2), (1124204876988388128233, .ofNat 2)] 0)) (.nil)) (.nil)) (.nil)) (.node (.node (.node (.leaf (.trans [(5315545632039, .ofNat 1), (5337425550518, .negSucc 1), (5347138771011, .ofNat 1), (5369148733582, .negSucc 1), (5394528479469, .ofNat 1), (5416733508178, .negSucc 1), (5457714757413, .ofNat 1), (5480179874306, .negSucc 1), (5536697604843, .ofNat 1), (5559487831966, .negSucc 1), (8424592522798, .negSucc 0), (8516039261662, .negSucc 0), (8523270034046, .negSucc 0), (8615787891374, .negSucc 0), (10795384609706, .negSucc 0), (10837267721438, .negSucc 0), (10912565673914, .negSucc 0), (10921831281562, .negSucc 0), (10954903415822, .negSucc 0), (11040384891178, .negSucc 0), (12912299537721, .negSucc 1), (13063541699217, .negSucc 1), (13707015614302, .negSucc 0), (13855801668238, .negSucc 0), (14127026352982, .negSucc 0), (14280371513158, .negSucc 0), (15062868582639, .ofNat 1), (15152395290411, .ofNat 1), (15286685352069, .ofNat 1), (15465738767613, .ofNat 1), (15689555537043, .ofNat 1), (16019711868747, .ofNat 2), (16207351246419, .ofNat 2), (16394885201307, .negSucc 1), (16897257711687, .negSucc 1), (20607513760707, .ofNat 2), (86109879497727, .negSucc 0), (86464326110374, .ofNat 2), (87118487163879, .negSucc 0), (87477085420598, .ofNat 2), (106832671792989, .ofNat 1), (107272417834418, .negSucc 1), (108084006162453, .ofNat 1), (108528902962786, .negSucc 1), (109334637485709, .negSucc 0), (109784682151058, .ofNat 2), (112684872368769, .negSucc 0), (113148707314778, .ofNat 2), (128307942819213, .negSucc 1), (129810817698501, .negSucc 1), (130624024195814, .negSucc 0), (132154027407478, .negSucc 0), (137427924553509, .ofNat 1), (137993607174658, .negSucc 1), (145196571275997, .ofNat 1), (146897263179669, .ofNat 1), (151886789534157, .ofNat 1), (153665844169989, .ofNat 1), (158255299576443, .ofNat 2), (158906712111166, .negSucc 1), (160108948766211, .ofNat 2), (160767991315982, .negSucc 1), (160933657164194, .negSucc 1), (162818678038738, .negSucc 1), (164415499914711, .negSucc 1), (165053386660053, .negSucc 1), (166341303720447, .negSucc 1), (168019371082886, .negSucc 0), (182116669550786, .ofNat 2), (184249807700722, .ofNat 2), (186763780547853, .ofNat 1), (195369289917693, .ofNat 1), (203560991701707, .ofNat 2), (204398892119134, .negSucc 1), (206222523051718, .negSucc 1), (207022609504114, .negSucc 1), (208638013804886, .negSucc 1), (208760123519637, .negSucc 1), (215156956802217, .negSucc 1), (234253449700514, .ofNat 2), (244012917643527, .negSucc 0), (246661613767263, .negSucc 0), (246871048450479, .negSucc 0), (249550768833351, .negSucc 0), (261842949157106, .negSucc 1), (269866347801146, .negSucc 1), (285838216000042, .ofNat 2), (289186247812634, .ofNat 2), (302735900873589, .ofNat 1), (306022019554941, .ofNat 1), (306281855788653, .ofNat 1), (309606464879157, .ofNat 1), (309825818454309, .negSucc 0), (313188896328621, .negSucc 0), (319319509461369, .negSucc 0), (322785638857761, .negSucc 0), (323353110312501, .negSucc 0), (338218231588113, .ofNat 2), (342179792133801, .ofNat 2), (350413155471669, .negSucc 0), (353850043987094, .negSucc 0), (355017577435557, .negSucc 1), (356478905432834, .ofNat 2), (357690993265286, .negSucc 0), (357994700432038, .negSucc 0), (361880638867222, .negSucc 0), (367668639666058, .ofNat 2), (389434859642109, .ofNat 1), (393662072746821, .ofNat 1), (405574257170738, .negSucc 1), (411449176279797, .ofNat 1), (416268493132269, .ofNat 1), (435044126913537, .ofNat 2), (455151050615606, .negSucc 0), (460091595711014, .negSucc 0), (529239795334053, .ofNat 1), (546779651416534, .ofNat 1), (552714800904646, .ofNat 1), (666813958356158, .negSucc 0), (672860525191791, .ofNat 2), (674052048715502, .negSucc 0), (680741761211607, .ofNat 2), (684702876959846, .negSucc 0), (692135146831574, .negSucc 0), (797572469857803, .negSucc 1), (865488588069759, .ofNat 2), (892586138055982, .negSucc 0), (902274926120158, .negSucc 0), (916298296277901, .negSucc 0), (1039724170359951, .negSucc 1), (1067617319297187, .negSucc 1), (1301990900440119, .ofNat 2), (4306616297459583, .ofNat 2), (4357059826565991, .ofNat 2), (4487189797121817, .ofNat 1), (4505660026474954, .negSucc 1), (4539748389181809, .ofNat 1), (4558434960899258, .negSucc 1), (4693945912949577, .ofNat 1), (4748926245751329, .ofNat 1), (5318872062216861, .negSucc 0), (5340765672991282, .ofNat 2), (5389194918046089, .negSucc 1), (5401688278407254, .ofNat 2), (5452318723821153, .negSucc 1), (5464958419296358, .ofNat 2), (5539524342855567, .ofNat 2), (5771792840433033, .ofNat 1), (5795550769640746, .negSucc 1), (6037739573913273, .ofNat 1), (6460929330621639, .ofNat 2), (6536606394523503, .ofNat 2), (6759541368018682, .negSucc 1), (6838716083895914, .negSucc 1), (6932026067546361, .negSucc 1), (6933739630111737, .negSucc 0), (6948096055923446, .ofNat 2), (6962280379897994, .ofNat 2), (7119754188307269, .negSucc 0), (7149060613651778, .ofNat 2), (8310579079348311, .ofNat 2), (8327544870426729, .ofNat 2), (8682750831214353, .ofNat 1), (8694678459459418, .negSucc 1), (8718490883790586, .negSucc 1), (10155687293870373, .negSucc 1), (10428138494220801, .negSucc 1), (10445045113731002, .ofNat 2), (12715524406753617, .ofNat 1), (12738041475120274, .negSucc 1), (12853548084076473, .ofNat 1), (12864461735090409, .ofNat 1), (13004102087989521, .ofNat 1), (13079770654996138, .negSucc 1), (13594235074632717, .negSucc 1), (15072294817326261, .negSucc 0), (15235900618379709, .negSucc 0), (16355754057991233, .ofNat 1), (16533291471963177, .ofNat 1), (17050931679210146, .negSucc 1), (18193420064894978, .ofNat 1), (19648407908511537, .negSucc 0), (19861686215116953, .negSucc 0), (20175524603299869, .negSucc 0), (20394524623164261, .negSucc 0), (22187413920908986, .negSucc 0), (24604649035100553, .ofNat 1), (24871726037230257, .ofNat 1), (30317450930404234, .negSucc 1), (39522159687461378, .negSucc 1), (46764617919509517, .negSucc 1), (47574126566373362, .ofNat 1), (48090531213485378, .ofNat 1), (57030834825574329, .ofNat 2), (58018054565263594, .negSucc 0), (58647825307393786, .negSucc 0), (69395072637706329, .negSucc 1), (90464173541711493, .negSucc 1), (456781567214549391, .negSucc 1), (462783668014534623, .negSucc 0), (464688584203860326, .ofNat 2), (501512062936408287, .negSucc 0), (572930455604045558, .negSucc 1), (595465432868487747, .negSucc 1), (603289836932727891, .negSucc 0), (605773106452932142, .ofNat 2), (653776594940682579, .negSucc 0), (724561846122963747, .ofNat 2), (746878390540572286, .negSucc 1), (883624603504198839, .negSucc 1), (893337092245894251, .negSucc 1), (908801007763860286, .ofNat 2), (1089451008433873887, .ofNat 2), (1108309710822498182, .negSucc 1), (1311408095432078823, .negSucc 0), (1325643085827469887, .negSucc 0), (1709565895961199291, .negSucc 0), (1728122784693289779, .negSucc 0)] 0)) (.nil)) (.nil)) (.nil))))

def dynTable_70 : JTree := .node (.node (.node (.node (.node (.node (.leaf (.trans [(817, .ofNat 1), (20213, .negSucc 0)] 0)) (.nil)) (.nil)) (.nil)) (.node (.node (.node (.leaf (.trans [(4731113, .negSucc 3), (11676521, .negSucc 1)] 1)) (.nil)) (.nil)) (.nil))) (.node (.node (.node (.node (.leaf (.trans [(1979267, .ofNat 1)] 0)) (.nil)) (.nil)) (.nil)) (.node (.node (.node (.leaf (.trans [] 0)) (.nil)) (.nil)) (.nil)))) (.node (.node (.node (.node (.node (.leaf (.trans [(65844193, .negSucc 0), (80298941, .ofNat 1)] 0)) (.nil)) (.nil)) (.nil)) (.node (.node (.node (.leaf (.trans [(14122, .negSucc 0), (21873, .ofNat 1), (349334, .ofNat 1), (507471, .ofNat 1), (109028441, .ofNat 1)] 0)) (.nil)) (.nil)) (.nil))) (.node (.nil) (.node (.node (.node (.nil) (.leaf (.atom 647))) (.nil)) (.nil))))

def dynTable_71 : JTree := .node (.node (.node (.node (.node (.node (.leaf (.trans [(29, .ofNat 1)] 0)) (.nil)) (.nil)) (.nil)) (.node (.node (.node (.leaf (.trans [(315859, .ofNat 1), (475339, .negSucc 0), (529759, .ofNat 1), (797239, .negSucc 0)] 0)) (.nil)) (.nil)) (.nil))) (.node (.node (.node (.node (.leaf (.trans [(444061, .negSucc 0), (883427, .negSucc 0)] 0)) (.nil)) (.nil)) (.nil)) (.node (.node (.node (.leaf (.trans [(229517, .ofNat 1)] 0)) (.nil)) (.nil)) (.nil)))) (.node (.node (.node (.node (.node (.leaf (.trans [(30031, .ofNat 1)] 0)) (.nil)) (.nil)) (.nil)) (.nil)) (.node (.nil) (.node (.node (.node (.nil) (.leaf (.atom 443))) (.nil)) (.nil))))

def dynTable_72 : JTree := .node (.node (.node (.node (.node (.node (.leaf (.trans [(99613, .negSucc 0), (121481, .ofNat 1)] 0)) (.nil)) (.nil)) (.nil)) (.node (.node (.node (.leaf (.trans [(5997179, .negSucc 3), (49303651, .ofNat 4), (80548159, .negSucc 3), (87792521, .negSucc 3), (94138843, .ofNat 4), (95729657, .ofNat 4), (106174877, .negSucc 1), (118767499, .negSucc 3), (142641883, .ofNat 4), (161417227, .negSucc 3), (175934813, .negSucc 3), (182783201, .ofNat 4), (225329417, .negSucc 1), (2389106101, .negSucc 3), (2489279699, .negSucc 3), (2989669283, .ofNat 4), (4787730553, .negSucc 3), (4988476847, .negSucc 3), (5574765613, .ofNat 2), (5991249599, .ofNat 4)] 1)) (.nil)) (.nil)) (.nil))) (.node (.node (.node (.node (.leaf (.trans [(351155803, .negSucc 0), (354967507, .negSucc 0), (3187027177, .ofNat 1), (3535215637, .negSucc 1), (6708073709, .negSucc 1), (9031202977, .ofNat 1), (65553469987, .negSucc 0), (82397285387, .ofNat 1), (114996538607, .negSucc 1), (1870129071973, .ofNat 2), (2365346049317, .ofNat 2), (2610017660353, .negSucc 0), (53685050318443, .ofNat 1), (67479302209043, .negSucc 0)] 0)) (.nil)) (.nil)) (.nil)) (.node (.node (.node (.leaf (.trans [(9299, .negSucc 0), (409139, .negSucc 0), (702763, .ofNat 1), (4919171, .ofNat 2), (5930297, .negSucc 0), (6315823, .ofNat 1), (6542603, .negSucc 0), (6724027, .ofNat 1), (6792061, .ofNat 1), (6814739, .negSucc 0), (6882773, .ofNat 1), (6950807, .negSucc 0), (13907791, .ofNat 1), (37138081, .negSucc 0), (37505179, .ofNat 1), (216434531, .ofNat 2), (371761627, .negSucc 1), (439916101, .ofNat 1), (444538687, .negSucc 0), (461488169, .ofNat 1), (463029031, .negSucc 0), (1129475881, .negSucc 0), (1472397077, .negSucc 0), (2446318003, .negSucc 1), (2844799499, .ofNat 1), (2878120723, .ofNat 1), (3722753653, .ofNat 1), (3997331227, .negSucc 0), (4715556883, .ofNat 1), (10883750489, .negSucc 0), (10998115643, .ofNat 1), (11417454541, .negSucc 0), (11455576259, .ofNat 1), (19646044849, .ofNat 2), (19840239691, .negSucc 1), (23958932813, .negSucc 1), (24195759167, .ofNat 2), (31202172623, .ofNat 1), (31507577249, .negSucc 0), (77732904937, .negSucc 0), (78493749031, .ofNat 1), (94277453537, .ofNat 1), (94797576869, .ofNat 1), (95381728249, .ofNat 1), (95725448747, .negSucc 0), (119487372847, .ofNat 1), (120808379539, .ofNat 1), (120886932119, .ofNat 1), (121277082697, .ofNat 1), (122223411803, .ofNat 1), (153391695113, .ofNat 1), (153694493503, .ofNat 1), (156363235409, .ofNat 1), (158091927533, .ofNat 1), (168360748531, .negSucc 0), (170008651453, .ofNat 1), (201127263041, .ofNat 1), (347799229961, .negSucc 0), (1294102223587, .ofNat 4), (1504898934971, .negSucc 1), (1522525862467, .negSucc 1), (1687005772679, .ofNat 4), (1867060724497, .ofNat 1), (1888929664169, .ofNat 1), (1928397457537, .negSucc 0), (1950984836249, .negSucc 0), (1969336682437, .negSucc 1), (2059341340759, .ofNat 1), (2114588219083, .ofNat 2), (2494529591107, .negSucc 1), (2523534147839, .negSucc 1), (3135493310507, .ofNat 1), (3155090096003, .negSucc 0), (3169713966169, .negSucc 0), (3206840923313, .negSucc 0), (3302340277633, .negSucc 0), (3451942893559, .negSucc 0), (3959845059661, .ofNat 1), (4006226846597, .ofNat 1), (4061713522043, .negSucc 0), (4077146990281, .negSucc 0), (4109288497411, .negSucc 0), (5093478635389, .ofNat 1), (5224510236107, .negSucc 0), (5315228316421, .negSucc 0), (6118870799021, .negSucc 0), (6836884136629, .negSucc 0), (7462143932377, .ofNat 1), (7662334230949, .ofNat 1), (9988702472033, .ofNat 1), (11111798328923, .negSucc 0), (13914710001187, .ofNat 2), (18626000710523, .ofNat 1), (63208820236063, .negSucc 1), (63949187090951, .negSucc 1), (78420352996541, .ofNat 2), (79338893002357, .ofNat 2), (81304387063087, .negSucc 1), (82716151531361, .negSucc 1), (89062835972899, .ofNat 2), (89934576618637, .negSucc 1), (100870712502509, .ofNat 2), (106396322148689, .negSucc 1), (108614762900663, .negSucc 1), (109677876403769, .ofNat 2), (133134442208357, .negSucc 0), (134693850023389, .negSucc 0), (171248477353493, .negSucc 1), (179178880075037, .ofNat 2), (183985792649369, .ofNat 2), (220273886377157, .negSucc 0), (446382212542603, .negSucc 0), (532389844943503, .negSucc 0), (544376311946111, .ofNat 1), (558980540625107, .ofNat 1), (649265163719411, .ofNat 1), (728693129230519, .ofNat 1), (966813777196489, .negSucc 1), (1210689119494241, .ofNat 2), (3293814541441273, .ofNat 1), (3332395092439121, .ofNat 1), (4236775364438377, .ofNat 2), (5449689186464473, .ofNat 1), (5878141316000267, .ofNat 2), (7168567207182079, .negSucc 1), (7360881590627923, .negSucc 3), (9595725522343991, .negSucc 3), (9853154375866667, .negSucc 1), (12016213212478879, .ofNat 2), (15589970652029791, .ofNat 1), (38838760406432729, .negSucc 0), (47365017145692373, .ofNat 1), (84120396366799427, .negSucc 0), (511444488136942681, .ofNat 4), (623721681541203797, .negSucc 3), (640454544212453489, .negSucc 3), (834903528895969213, .negSucc 3), (44499689678036896883, .ofNat 2), (54268687839715702471, .negSucc 1)] 0)) (.nil)) (.nil)) (.node (.node (.nil) (.leaf (.atom 757))) (.nil))))) (.node (.node (.node (.node (.node (.leaf (.trans [(497467, .ofNat 1)] 0)) (.nil)) (.nil)) (.nil)) (.node (.node (.node (.leaf (.trans [(461, .ofNat 1), (4789997413, .ofNat 1), (4818466937, .ofNat 1), (4861171223, .ofNat 1), (4918110271, .ofNat 1), (4989284081, .ofNat 1), (77596192109, .negSucc 0), (78505078693, .negSucc 0), (96270121063, .ofNat 1), (97397735951, .ofNat 1), (98524717303, .negSucc 0), (101543714323, .negSucc 0), (123840419903, .ofNat 1), (130840980199, .ofNat 1), (132373524623, .ofNat 1), (168298437751, .ofNat 1), (291383174767, .negSucc 0), (4043541154139, .ofNat 1), (4090903276003, .ofNat 1), (4792994958887, .negSucc 0), (5201135440811, .ofNat 1), (6248200502779, .negSucc 0), (6415823793823, .negSucc 0), (7824286893251, .ofNat 1), (24115228528999, .negSucc 0), (24397690942223, .negSucc 0), (30901573722053, .negSucc 0), (31021463296319, .negSucc 0), (31263524805181, .negSucc 0), (39236059559551, .negSucc 0), (40438331944891, .negSucc 0), (417028227395341, .negSucc 0), (543642545513897, .negSucc 0), (1012888712736347, .negSucc 0), (1024752709371619, .negSucc 0), (1302860829305003, .negSucc 0), (1565145876579067, .ofNat 1), (1908741692677679, .negSucc 0), (1959948366365123, .negSucc 0), (2555010066396391, .negSucc 0), (136179991033511081, .ofNat 1), (166075527197674597, .negSucc 0)] 0)) (.nil)) (.nil)) (.nil))) (.nil))

def dynTable_73 : JTree := .node (.node (.node (.node (.node (.node (.leaf (.atom 41)) (.nil)) (.nil)) (.nil)) (.nil)) (.node (.node (.node (.node (.leaf (.trans [(10097, .ofNat 1), (364327, .negSucc 0)] 0)) (.nil)) (.nil)) (.nil)) (.node (.node (.node (.leaf (.trans [(4178653547, .ofNat 1), (78966991189, .negSucc 0), (150777093277, .negSucc 0)] 0)) (.nil)) (.nil)) (.nil)))) (.node (.node (.node (.node (.node (.leaf (.trans [(12217, .ofNat 1), (314203, .negSucc 0)] 0)) (.nil)) (.nil)) (.nil)) (.nil)) (.node (.node (.node (.node (.leaf (.trans [(2807214913, .ofNat 2), (65429357663, .negSucc 0), (194408657797, .ofNat 1), (237087108689, .negSucc 0), (353043865411, .ofNat 1), (550903381597, .ofNat 1), (671842969289, .negSucc 0), (1485016688977, .negSucc 1), (5381044927231, .negSucc 1), (7014788855027, .negSucc 1), (9771915112153, .negSucc 1), (53583408462407, .ofNat 1), (159211077281533, .negSucc 0), (186760204802419, .negSucc 1), (194162618124521, .ofNat 1), (227759594024903, .ofNat 2), (289125467850379, .negSucc 0), (5169343094328937, .ofNat 4), (6738812036748629, .ofNat 4), (152947372492850491, .ofNat 2), (186523844857638767, .negSucc 1)] 0)) (.nil)) (.nil)) (.nil)) (.node (.node (.node (.leaf (.trans [(607, .ofNat 1), (306281621, .ofNat 1)] 0)) (.nil)) (.nil)) (.nil))))

def dynTable_74 : JTree := .node (.node (.node (.node (.node (.node (.leaf (.trans [(43, .ofNat 1)] 0)) (.nil)) (.nil)) (.nil)) (.node (.node (.node (.leaf (.trans [(275801, .ofNat 1)] 0)) (.nil)) (.nil)) (.nil))) (.node (.node (.node (.node (.leaf (.trans [(9016621, .negSucc 0), (15562973, .negSucc 0), (17008177, .ofNat 1), (17216053, .negSucc 0), (18537863, .ofNat 1), (28837649, .ofNat 1), (504472603, .ofNat 1), (525624797, .ofNat 1), (631284749, .negSucc 0), (713458261, .negSucc 0)] 0)) (.nil)) (.nil)) (.nil)) (.node (.node (.node (.leaf (.trans [(601, .ofNat 1)] 0)) (.nil)) (.nil)) (.nil)))) (.node (.node (.node (.node (.node (.leaf (.trans [] 0)) (.nil)) (.nil)) (.nil)) (.nil)) (.node (.nil) (.node (.node (.node (.nil) (.leaf (.atom 601))) (.nil)) (.nil))))

def dynTable_75 : JTree := .node (.node (.node (.node (.node (.node (.leaf (.trans [(551, .ofNat 1)] 0)) (.nil)) (.nil)) (.nil)) (.node (.node (.node (.leaf (.trans [(1083374, .ofNat 1), (1611759, .negSucc 0)] 0)) (.nil)) (.nil)) (.nil))) (.node (.node (.node (.node (.leaf (.trans [(7380907, .ofNat 1), (8044733, .ofNat 1), (17603899, .negSucc 0)] 0)) (.nil)) (.nil)) (.nil)) (.node (.node (.node (.leaf (.trans [(553541, .ofNat 1)] 0)) (.nil)) (.nil)) (.nil)))) (.node (.node (.node (.node (.node (.leaf (.trans [(391837, .ofNat 1), (504013, .ofNat 1), (10663097, .ofNat 1), (13715753, .ofNat 1)] 0)) (.nil)) (.nil)) (.nil)) (.node (.node (.node (.leaf (.trans [(1, .ofNat 1), (6593, .negSucc 0)] 0)) (.nil)) (.nil)) (.nil))) (.node (.nil) (.node (.node (.node (.leaf (.trans [(601, .ofNat 1)] 0)) (.nil)) (.nil)) (.nil))))

def dynTable_76 : JTree := .node (.node (.node (.nil) (.node (.node (.node (.leaf (.trans [] 0)) (.nil)) (.nil)) (.nil))) (.node (.node (.node (.node (.leaf (.trans [(4018425571, .negSucc 0), (11387168971, .negSucc 0), (91204151309, .negSucc 1), (3290891832619, .ofNat 1)] 0)) (.nil)) (.nil)) (.nil)) (.node (.node (.node (.leaf (.trans [(835031, .negSucc 0), (956740637, .ofNat 1), (1247217529, .ofNat 1)] 0)) (.nil)) (.nil)) (.nil)))) (.node (.node (.node (.node (.node (.leaf (.trans [(1886, .ofNat 1), (2193, .negSucc 0), (67773, .negSucc 0)] 0)) (.nil)) (.nil)) (.nil)) (.node (.node (.node (.leaf (.trans [(48173, .ofNat 1), (713014, .negSucc 0), (896977, .negSucc 0), (1001181, .negSucc 0), (1169309, .negSucc 0), (16516517, .negSucc 0), (46277771, .negSucc 0), (58373218, .negSucc 0), (60328207, .negSucc 0), (61946659, .negSucc 0), (71187866, .ofNat 1), (75545783, .ofNat 1), (93536607, .ofNat 1), (114070659, .negSucc 0), (299589967, .negSucc 0), (1145951218, .ofNat 1), (1493874506, .ofNat 1), (1609091247, .ofNat 1), (2097628899, .ofNat 1), (5312977207, .negSucc 0), (6479332859, .ofNat 1), (274112650061, .negSucc 0), (334288484857, .ofNat 1), (343256592709, .ofNat 1), (447473037953, .ofNat 1), (458594046041, .ofNat 1), (559269004117, .negSucc 0)] 0)) (.nil)) (.nil)) (.nil))) (.node (.nil) (.node (.node (.node (.nil) (.leaf (.trans [(751, .ofNat 1)] 0))) (.nil)) (.nil))))

def dynTable_77 : JTree := .node (.node (.node (.node (.node (.node (.leaf (.trans [(989, .ofNat 1)] 0)) (.nil)) (.nil)) (.nil)) (.nil)) (.node (.node (.node (.node (.leaf (.trans [(313007, .ofNat 1), (471047, .negSucc 0), (10691113, .negSucc 0), (11294137, .negSucc 0)] 0)) (.nil)) (.nil)) (.nil)) (.node (.node (.node (.leaf (.trans [(479113, .ofNat 1), (506137, .ofNat 1)] 0)) (.nil)) (.nil)) (.nil)))) (.node (.node (.node (.node (.node (.leaf (.trans [(493511, .negSucc 0)] 0)) (.nil)) (.nil)) (.nil)) (.nil)) (.node (.node (.node (.node (.leaf (.trans [(479, .negSucc 0), (222559, .ofNat 1), (273223, .ofNat 1)] 0)) (.nil)) (.nil)) (.nil)) (.node (.node (.node (.leaf (.trans [(10811, .ofNat 1)] 0)) (.nil)) (.nil)) (.nil))))

def dynTable_78 : JTree := .node (.node (.node (.node (.node (.node (.leaf (.trans [(18377, .ofNat 1), (43301, .ofNat 1), (1071289, .negSucc 0)] 0)) (.nil)) (.nil)) (.nil)) (.node (.node (.node (.leaf (.trans [(4289339, .ofNat 4), (7998229, .ofNat 2), (114123677, .ofNat 4), (227040739, .ofNat 4), (256068821, .negSucc 1)] 1)) (.nil)) (.nil)) (.nil))) (.node (.node (.node (.node (.leaf (.trans [(42958457, .negSucc 0), (52389109, .ofNat 1), (71585821, .ofNat 1), (93320057, .ofNat 1)] 0)) (.nil)) (.nil)) (.nil)) (.node (.node (.node (.leaf (.trans [] 0)) (.nil)) (.nil)) (.nil)))) (.node (.node (.node (.node (.node (.leaf (.trans [(838907, .negSucc 0), (861951289, .ofNat 1), (1051175093, .negSucc 0), (1079375441, .negSucc 0), (1284147661, .ofNat 1), (1407085597, .negSucc 0), (1566056057, .negSucc 0)] 0)) (.nil)) (.nil)) (.nil)) (.node (.node (.node (.leaf (.trans [(11254, .ofNat 1), (15861, .ofNat 1), (67001369, .negSucc 0)] 0)) (.nil)) (.nil)) (.nil))) (.node (.nil) (.node (.node (.node (.nil) (.leaf (.atom 701))) (.nil)) (.nil))))

def dynTable_79 : JTree := .node (.node (.node (.nil) (.node (.node (.node (.leaf (.trans [(34178, .ofNat 1), (64293, .negSucc 0), (514947, .ofNat 1), (645886, .ofNat 1), (1228179, .negSucc 0)] 0)) (.nil)) (.nil)) (.nil))) (.node (.node (.node (.node (.leaf (.trans [(305983, .ofNat 1), (366833, .negSucc 0), (9075637, .ofNat 1), (10401227, .negSucc 0), (12492059, .ofNat 1)] 0)) (.nil)) (.nil)) (.nil)) (.node (.node (.node (.leaf (.trans [(17197, .ofNat 1)] 0)) (.nil)) (.nil)) (.nil)))) (.node (.node (.node (.node (.node (.leaf (.trans [(509, .ofNat 1)] 0)) (.nil)) (.nil)) (.nil)) (.node (.node (.node (.leaf (.trans [(8276297, .ofNat 1), (10093189, .negSucc 0)] 0)) (.nil)) (.nil)) (.nil))) (.node (.nil) (.node (.node (.node (.nil) (.leaf (.atom 491))) (.nil)) (.nil))))

def dynTable_80 : JTree := .node (.node (.node (.node (.node (.node (.leaf (.trans [(51, .ofNat 1)] 0)) (.nil)) (.nil)) (.nil)) (.nil)) (.node (.node (.node (.node (.leaf (.trans [(7215585803, .negSucc 0), (93495463519, .negSucc 0), (113739082811, .ofNat 1), (136358062261, .negSucc 0), (204591587657, .ofNat 1), (3373568558729, .ofNat 1), (3866312896759, .negSucc 0), (4643510695303, .ofNat 1)] 0)) (.nil)) (.nil)) (.nil)) (.node (.node (.node (.leaf (.trans [(178418819, .negSucc 1), (3166717721, .negSucc 0), (4381260731, .negSucc 0), (4427298497, .ofNat 1), (4550065873, .ofNat 1), (4611449561, .ofNat 1), (4881843607, .ofNat 1), (5049861169, .negSucc 0), (5199210113, .negSucc 0), (5311221821, .negSucc 0), (5329890439, .negSucc 0), (5385896293, .ofNat 1), (5535245237, .negSucc 0), (5591251091, .negSucc 1), (5609919709, .ofNat 1), (5665925563, .negSucc 0), (5721931417, .ofNat 1), (5777937271, .negSucc 0), (7850101859, .negSucc 1), (13483831003, .ofNat 2), (82795803397, .negSucc 0), (83665811839, .ofNat 1), (85985834351, .ofNat 1), (87145845607, .ofNat 1), (92255674409, .ofNat 1), (94383555251, .ofNat 4), (95430821903, .negSucc 0), (99311557729, .ofNat 1), (100369940227, .negSucc 0), (100722734393, .negSucc 0), (101781116891, .ofNat 1), (105661852717, .negSucc 0), (106014646883, .ofNat 1), (108131411879, .ofNat 1), (109189794377, .negSucc 0), (113783910857, .negSucc 1), (117038049343, .negSucc 0), (121180952863, .ofNat 2), (125532154043, .negSucc 1), (129013114987, .ofNat 2), (130318475341, .ofNat 2), (130753595459, .negSucc 1), (132058955813, .ofNat 2), (133364316167, .negSucc 1), (191105172857, .negSucc 0), (232483227133, .negSucc 0), (289168762171, .ofNat 1), (292027102489, .ofNat 1), (294885442807, .negSucc 0), (317046723703, .ofNat 1), (320488182607, .ofNat 1), (352649858927, .negSucc 0), (356135689493, .negSucc 0), (359621520059, .ofNat 1), (418186179871, .ofNat 1), (712563990961, .negSucc 1), (719607457099, .ofNat 2), (2582495268103, .negSucc 1), (2750382149777, .ofNat 2), (2849139138997, .negSucc 1), (2928144730373, .ofNat 2), (2957771827139, .ofNat 2), (2967647526061, .negSucc 1), (2997274622827, .ofNat 2), (3026901719593, .negSucc 1), (3318510926917, .negSucc 1), (3405613304341, .negSucc 3), (4152703883411, .ofNat 4), (5464627980677, .ofNat 1), (5518644072743, .ofNat 1), (5572660164809, .negSucc 0), (5862057404587, .ofNat 2), (6056493367409, .ofNat 2), (6664275463249, .negSucc 0), (6730149685291, .negSucc 0), (6796023907333, .ofNat 1), (7132946600587, .negSucc 3), (7364899288811, .ofNat 2), (7442288773457, .negSucc 1), (7726050217159, .ofNat 2), (7751846712041, .negSucc 1), (7902761980577, .ofNat 1), (8959545827959, .ofNat 2), (9053691668533, .negSucc 1), (9398893083971, .ofNat 2), (9430275030829, .negSucc 1), (12836114544629, .ofNat 1), (15654021372673, .negSucc 0), (15943192697557, .negSucc 0), (16110721867759, .ofNat 1), (16116251866333, .negSucc 0), (16285599521671, .ofNat 1), (16724995491833, .negSucc 0), (16780838548567, .ofNat 1), (16906540924577, .negSucc 0), (16962990143023, .ofNat 1), (19723086884803, .ofNat 2), (19918043262577, .negSucc 1), (25685750130913, .negSucc 1), (25937160409519, .ofNat 2), (31630501647839, .negSucc 1), (33565263473741, .negSucc 0), (33929605591829, .negSucc 0), (40933831649017, .ofNat 1), (41378157639073, .ofNat 1), (46937215721443, .negSucc 3), (48803251762361, .negSucc 0), (51975929697199, .ofNat 1), (53842210835339, .negSucc 0), (54582833305019, .ofNat 2), (55222163709763, .ofNat 2), (55335235745851, .ofNat 1), (55895120087293, .ofNat 1), (56081748201107, .negSucc 0), (56641632542549, .ofNat 1), (57201516883991, .negSucc 0), (64358299335467, .negSucc 1), (71428036369093, .ofNat 2), (75318546368843, .negSucc 1), (76696323978187, .negSucc 1), (90476835142723, .ofNat 2), (91626503150167, .negSucc 1), (104967524180887, .negSucc 1), (106070510424469, .ofNat 2), (110114793317603, .negSucc 1), (110482455398797, .ofNat 2), (133048120728773, .ofNat 2), (139179745510357, .ofNat 2), (140642229701359, .negSucc 1), (146004671735033, .ofNat 2), (146492166465367, .negSucc 1), (149840759406901, .negSucc 3), (169314916514633, .ofNat 2), (171094057493771, .negSucc 1), (177617574417277, .ofNat 2), (178210621410323, .negSucc 1), (208825240191209, .negSucc 1), (211019550946283, .ofNat 2), (219065357048221, .negSucc 1), (219796793966579, .ofNat 2), (257375956833917, .ofNat 4), (304560285942371, .negSucc 1), (307760569157177, .ofNat 2), (309478168684247, .ofNat 2), (312507318785561, .negSucc 1), (319494940944799, .negSucc 1), (320561702016401, .ofNat 2), (372721215275261, .ofNat 1), (376405444750799, .negSucc 0), (376946351218369, .ofNat 4), (380672344805371, .negSucc 3), (459697225185053, .negSucc 3), (464241184577327, .ofNat 4), (485401907924831, .negSucc 1), (490152986958353, .ofNat 2), (598672415273663, .ofNat 2), (604532177902769, .negSucc 1), (641191914017323, .negSucc 1), (781952505262751, .ofNat 2), (875501905967597, .ofNat 2), (1310909663073121, .negSucc 1), (1323740752760623, .ofNat 2), (1325927153530267, .ofNat 2), (1341457779047459, .ofNat 2), (1388749728103849, .negSucc 3), (1429715079143107, .negSucc 1), (1446461375824139, .negSucc 1), (1536971666303807, .negSucc 1), (1554974262688039, .negSucc 1), (1598693110134077, .ofNat 2), (1614341003544851, .negSucc 1), (1695257819130329, .negSucc 1), (1705516636847083, .ofNat 4), (1808890409549297, .ofNat 2), (1830077998533769, .ofNat 2), (1839017209156243, .negSucc 1), (2036471654423183, .ofNat 2), (2056404492802529, .negSucc 1), (2141305915197233, .negSucc 0), (2161037734986077, .ofNat 1), (2166387097220041, .negSucc 0), (2182189817220851, .negSucc 0), (2184495231938213, .ofNat 1), (2193775872843067, .ofNat 2), (2205876914469419, .negSucc 0), (2292590165477407, .ofNat 2), (2317936165464259, .ofNat 2), (2319443344575239, .ofNat 2), (2326929117815257, .ofNat 2), (2345086223039243, .ofNat 2), (2581150315522117, .negSucc 1), (2754323910800417, .negSucc 0), (2817152360494009, .ofNat 1), (2831647513906187, .negSucc 1), (2844726445588567, .negSucc 0), (2847731809357921, .ofNat 1), (2875605203903023, .negSucc 0), (2943108408051353, .ofNat 2), (2948918165136943, .ofNat 2), (3000123002117729, .ofNat 2), (3033291214525373, .ofNat 2), (3230317874917411, .negSucc 1), (3261935994410893, .ofNat 2), (3359513021980517, .negSucc 1), (3787511457091217, .ofNat 2), (3827310176430179, .negSucc 1), (3859005133936721, .ofNat 2), (3973238814006373, .ofNat 2), (3986505053786027, .negSucc 1), (4607582689593973, .ofNat 2), (4655998619782351, .negSucc 1), (4739599742990311, .negSucc 1), (4789402892653957, .ofNat 2), (4833523697139737, .ofNat 2), (4849662340535863, .negSucc 1), (4863816702429379, .ofNat 2), (4940138407531961, .ofNat 1), (4972014441420659, .negSucc 1), (4988615491308541, .ofNat 2), (5800626622454393, .ofNat 1), (5868569540433361, .ofNat 1), (6673182907705241, .negSucc 1), (7461243389121257, .ofNat 1), (9700361143911149, .ofNat 2), (10433512962060787, .negSucc 3), (10536644885903233, .ofNat 4), (11166807245936977, .negSucc 1), (11276107153727551, .ofNat 2), (11829877346565913, .negSucc 1), (12918009314192369, .negSucc 0), (13587761819252977, .ofNat 2), (13601241289525079, .negSucc 3), (13720757856635551, .negSucc 1), (13735685190245261, .ofNat 4), (16732535371706831, .ofNat 4), (20405821825367347, .negSucc 3), (24773193242543327, .negSucc 1), (24829787116643347, .ofNat 8), (25015671479827601, .ofNat 2), (25056989451841829, .ofNat 2), (25350482739711133, .ofNat 2), (26244192371879063, .negSucc 1), (28874318818355051, .negSucc 3), (29045247868871809, .negSucc 0), (29212524602464627, .negSucc 3), (29385455750205593, .negSucc 0), (30211641937271299, .ofNat 2), (30482323858186201, .ofNat 1), (30507351320017837, .negSucc 1), (30839364254768177, .ofNat 1), (32036493995166823, .negSucc 0), (32230362177617621, .ofNat 4), (32368381289124599, .ofNat 8), (34180483989872939, .ofNat 1), (34580841049783603, .ofNat 1), (35823074466721057, .ofNat 2), (36242671239391289, .ofNat 2), (36999935147473297, .negSucc 1), (37433316525481769, .negSucc 1), (37785431239250197, .negSucc 3), (39208873829515849, .ofNat 2), (39512340029691079, .ofNat 2), (40572355384460923, .ofNat 4), (41281961711499931, .ofNat 2), (41457344590295429, .ofNat 2), (41686026589589653, .negSucc 1), (42406196003467873, .negSucc 0), (42902901081107321, .negSucc 0), (43965751772262011, .ofNat 1), (44729170431637333, .ofNat 1), (47862245790500467, .negSucc 3), (48418752808216559, .negSucc 3), (48777835235862779, .negSucc 0), (50433680651484601, .ofNat 1), (52609012416521261, .ofNat 2), (53225223396509797, .ofNat 2), (53815615525160927, .ofNat 2), (54027184520911543, .ofNat 1), (54342358907136401, .negSucc 1), (54546339590941777, .negSucc 0), (57534340495565317, .ofNat 1), (60160341267131867, .ofNat 2), (60253881976202669, .ofNat 2), (60536342484939443, .negSucc 1), (60714845448498827, .negSucc 1), (60843642648074147, .negSucc 1), (61371147561865499, .negSucc 0), (61426000300018579, .negSucc 1), (61735909211564551, .negSucc 0), (62283051686113129, .negSucc 0), (63012574985511233, .negSucc 0), (63361614396323473, .negSucc 1), (63924479109758863, .negSucc 0), (64555940273285971, .negSucc 3), (65269646057231527, .negSucc 1), (65312085986589467, .negSucc 3), (66034151428326479, .negSucc 1), (66232022187787879, .negSucc 1), (66798227271858487, .ofNat 2), (68845060336650067, .ofNat 2), (75977081295590941, .ofNat 2), (76867003184851157, .ofNat 2), (78096431421826523, .negSucc 1), (83037163731244579, .negSucc 3), (83961880232373887, .negSucc 1), (89412096205708153, .ofNat 2), (89567590836240857, .negSucc 0), (90287255385535639, .negSucc 1), (90508756414204859, .ofNat 1), (92592199924769219, .negSucc 0), (93597263932844411, .negSucc 0), (93676735209393163, .negSucc 0), (93959696866739533, .negSucc 0), (94273418726060867, .ofNat 1), (94693571563097347, .negSucc 0), (97727975344428109, .ofNat 2), (114874996491137833, .ofNat 1), (116121934402698577, .ofNat 1), (116220530857066241, .ofNat 1), (117402054153663101, .negSucc 1), (117482074190724329, .ofNat 1), (119099708451939731, .negSucc 0), (120392504502088139, .negSucc 0), (121167748598946493, .negSucc 0), (122482992681658117, .negSucc 0), (143175277731231337, .ofNat 2), (145909517661115913, .ofNat 2), (147016305438132469, .ofNat 2), (147500752526178547, .negSucc 3), (147761675407089817, .ofNat 1), (149365589579614273, .ofNat 1), (155855931100434157, .negSucc 0), (157547706292311733, .negSucc 0), (177940972714304581, .negSucc 1), (191652059189429873, .ofNat 2), (197169522880613069, .negSucc 1), (199118480273172671, .ofNat 2), (213200767266653963, .negSucc 1), (256777609292235599, .ofNat 1), (257032340439060073, .negSucc 1), (259290930100968737, .negSucc 0), (259573022552131507, .ofNat 2), (266979903768068947, .ofNat 4), (357374884338603563, .ofNat 2), (463140508256858813, .negSucc 3), (603755017764468121, .negSucc 3), (624539905410976253, .negSucc 1), (630652857176825939, .ofNat 2), (734648606166936121, .ofNat 8), (756319276866703603, .ofNat 2), (765178067810969531, .ofNat 2), (813058011474713903, .ofNat 2), (814157032182768601, .negSucc 1), (822125942775095863, .ofNat 2), (822581384961972631, .ofNat 2), (839768616835068863, .negSucc 1), (849604852464176551, .negSucc 1), (895925705738865077, .negSucc 7), (896791386319944041, .ofNat 2), (969157553842032041, .ofNat 2), (972840103643652547, .ofNat 2), (980509326068585857, .ofNat 2), (994189964118943507, .ofNat 2), (1005834941736734939, .ofNat 2), (1041863320999786141, .ofNat 4), (1054066698112521557, .ofNat 4), (1077293505189863807, .negSucc 3), (1087837976692537841, .ofNat 4), (1098935684956512961, .negSucc 3), (1212780197537548303, .negSucc 3), (1219959565783591277, .negSucc 1), (1226985529280301431, .negSucc 3), (1233446972125959449, .negSucc 1), (1234248989687352229, .negSucc 1), (1246610213391242009, .ofNat 2), (1247894374434901873, .negSucc 1), (1262333659655672969, .ofNat 2), (1268256277873440727, .ofNat 2), (1301014121382104429, .ofNat 2), (1363400297821363427, .ofNat 4), (1365428516911199893, .ofNat 2), (1373962424372065597, .negSucc 1), (1378013814900501733, .negSucc 1), (1394154533083816541, .negSucc 1), (1404371562771458419, .negSucc 3), (1418117450824686397, .ofNat 4), (1438086176907019967, .negSucc 1), (1463960039631028493, .negSucc 3), (1503234355442551241, .negSucc 1), (1504642087020750221, .ofNat 4), (1522266006048811717, .ofNat 4), (1559977709357442847, .negSucc 3), (1569212403701756573, .negSucc 1), (1586687429801832769, .negSucc 1), (1587065068120278641, .negSucc 3), (1631335609908779623, .ofNat 2), (1676381093889319577, .negSucc 1), (1689684041486336711, .ofNat 1), (1696016597185241329, .negSucc 1), (1706222547602026793, .negSucc 0), (1708838155831310419, .ofNat 4), (1725564141043362397, .negSucc 3), (1726998952373542997, .ofNat 4), (1768774135775327557, .negSucc 1), (1772514787754720917, .negSucc 1), (1777182388627693493, .ofNat 2), (1789491841611641789, .negSucc 1), (1935394493642992829, .ofNat 4), (2041413715852525409, .negSucc 3), (2083978677567620903, .negSucc 3), (2104376511279538889, .ofNat 4), (2156299339456043273, .negSucc 1), (2194438870724482799, .ofNat 2), (2220142400689044823, .ofNat 2), (2228883545084378827, .negSucc 1), (2254990526578778579, .negSucc 1), (2275142874446594293, .negSucc 1), (2314648317958494779, .negSucc 1), (2711480969971439063, .negSucc 1), (2741458066473087131, .negSucc 1), (2743240629941821951, .negSucc 1), (2757356039676619831, .ofNat 2), (2773568849096490787, .negSucc 1), (2787426737846666189, .negSucc 1), (2822667891369265151, .ofNat 2), (2866973466539946523, .negSucc 3), (2901147401474660489, .negSucc 1), (2977291176380012171, .negSucc 1), (3249576099690642023, .ofNat 2), (3362677251522948347, .negSucc 1), (3437884092131490797, .ofNat 4), (3487729995172010087, .negSucc 3), (3526289003992221419, .negSucc 1), (3530113758176072489, .ofNat 4), (3687737242249195627, .negSucc 1), (3733304691801594641, .ofNat 2), (4236182844769893691, .ofNat 2), (4349828831256505567, .ofNat 2), (4486205381463798263, .negSucc 1), (4745782781476527647, .negSucc 0), (4824983813924104949, .ofNat 1), (4877357745798070781, .ofNat 1), (4881498997688955373, .ofNat 1), (4934486387037286837, .ofNat 1), (5304744925359858179, .negSucc 1), (5901192468392675249, .ofNat 2), (6186654193391287699, .negSucc 0), (6206291307373550501, .ofNat 2), (6273658969247220269, .ofNat 2), (6352626353853515863, .negSucc 0), (6439724447593353179, .ofNat 2), (7747215745861272731, .ofNat 1), (7899238654620796921, .ofNat 4), (7983042695567966549, .ofNat 1), (8069696527043641181, .ofNat 1), (8394895024165542943, .ofNat 2), (9891793556324236049, .negSucc 1), (10214901320831586943, .negSucc 1), (11694464829514179677, .ofNat 2), (12409787159156820263, .ofNat 1), (12457374312147430691, .ofNat 2), (12544492138968037247, .ofNat 1), (12833724611251216721, .negSucc 1), (13883177764724024327, .ofNat 4), (15364936122633186961, .ofNat 1), (15544906091858758697, .ofNat 1), (15654017238241833733, .ofNat 2), (15869705449503636481, .negSucc 0), (16055587797374835737, .negSucc 0), (16177533886918507771, .ofNat 1), (16353136767748310899, .ofNat 1), (16611535879955546527, .ofNat 1), (16791849738416174263, .ofNat 1), (16930945941156668299, .negSucc 3), (16947305323443249367, .ofNat 1), (18550142200271717209, .negSucc 3), (19688832961181692067, .ofNat 2), (19919448867022766059, .ofNat 2), (20258259366075509699, .negSucc 0), (20478157450057073531, .negSucc 0), (20767370057166081407, .negSucc 1), (21996473648975046439, .ofNat 2), (22254119021144593103, .ofNat 2), (23229349701721943921, .ofNat 4), (25765146139582454749, .ofNat 2), (25803474839771410091, .ofNat 1), (25964746165017729539, .negSucc 0), (26759145778258304291, .ofNat 2), (27072576475514624107, .ofNat 2), (27176538371401705729, .negSucc 0), (27290039930971132373, .negSucc 1), (27609689007761423821, .negSucc 1), (27665495176930378291, .negSucc 1), (28293674852657763511, .ofNat 2), (28407689885287835767, .negSucc 0), (28784964514590591833, .ofNat 2), (31766949993527552759, .ofNat 2), (31874303565411211901, .negSucc 3), (32139037255530803743, .ofNat 2), (32186286960831223763, .ofNat 4), (32636328789067183339, .ofNat 2), (33198873985938833737, .negSucc 1), (33587733417692143649, .negSucc 1), (34150092404568278659, .ofNat 4), (34419815742610582259, .ofNat 2), (34550093486905828043, .ofNat 4), (35017479345095536477, .ofNat 2), (35102695497690502277, .negSucc 1), (37025590538648335817, .ofNat 2), (38871656023106616937, .ofNat 4), (39252129002125605031, .negSucc 3), (40861265697440013191, .ofNat 4), (42120799268546114549, .negSucc 1), (42614161485454414573, .negSucc 1), (42703124192648957113, .negSucc 1), (43760381403215050073, .ofNat 4), (43926659613828382291, .ofNat 4), (44272948096078476721, .ofNat 4), (45042364088025471373, .ofNat 2), (47298998892819612937, .negSucc 3), (47761958098948353031, .ofNat 4), (51240786405611003881, .negSucc 1), (51807284941249820197, .negSucc 1), (51840971312265305537, .negSucc 1), (52414105262670023069, .negSucc 1), (52559123074043118359, .ofNat 2), (54179238820575220901, .negSucc 3), (56288204309900869577, .ofNat 4), (57265589291181217831, .ofNat 4), (61409553184059629401, .ofNat 2), (61659490819010976629, .negSucc 3), (62263009489343873627, .ofNat 4), (63198032099040594313, .ofNat 2), (63938272592147951201, .ofNat 2), (64125535119497047363, .negSucc 1), (65845859752470479431, .negSucc 1), (65910116907416142169, .negSucc 3), (66638793950275613653, .negSucc 1), (69689796256286616149, .negSucc 1), (73659714257245025719, .ofNat 4), (78027898086348451363, .ofNat 4), (80054163288578838917, .ofNat 2), (81290510473318617337, .ofNat 4), (82201812408711432929, .ofNat 2), (84779017175145614281, .negSucc 1), (92170901896030567747, .ofNat 2), (93250502503890369419, .ofNat 2), (100247541718678019773, .negSucc 1), (104562545280789553513, .ofNat 2), (111519035597175710863, .ofNat 1), (112783205884059946427, .ofNat 4), (118557800251951843603, .ofNat 4), (127376028045460429999, .negSucc 3), (137542455643354645999, .negSucc 3), (141232369093308472963, .negSucc 7), (149277536944186553927, .ofNat 2), (152498800721695512547, .ofNat 2), (154628833880461024999, .ofNat 2), (184112056688329173671, .negSucc 7), (186932265577858140463, .negSucc 0), (189051313815121284827, .negSucc 3), (190534641610054942097, .ofNat 2), (230553669235689606799, .ofNat 4), (232362631357665007789, .negSucc 1), (237062199358344833089, .ofNat 2), (242528031314371916527, .negSucc 1), (282738657616894819789, .ofNat 2), (299122932786301243471, .ofNat 2), (309036868581364782413, .ofNat 2), (317327539942263126281, .ofNat 2), (346008696994107756311, .ofNat 2), (368581197733446526313, .ofNat 2), (386990321340849756997, .negSucc 1), (433288162189697048959, .negSucc 1), (513450119543627522107, .ofNat 4), (645358610299519785533, .ofNat 2), (652917715544609329141, .ofNat 2), (654987824780749333457, .negSucc 1), (687295839483676293203, .ofNat 4), (798777026514513264109, .ofNat 2), (826971083825763819751, .ofNat 2), (830113361558229227117, .ofNat 2), (836657421557251536527, .ofNat 2), (893842857946272120119, .negSucc 1), (902591727681472173497, .ofNat 2), (1017510341659517633311, .ofNat 2), (1063718272833537159799, .ofNat 2), (1079749005731980548109, .ofNat 1), (1082188612701851251097, .ofNat 2), (1091469397560859460821, .ofNat 1), (1146237257630178539569, .negSucc 1), (1159663169871820455113, .negSucc 1), (1165223298236518334923, .negSucc 1), (1176628420242096002149, .ofNat 2), (1392000064449498527753, .ofNat 2), (1394420322224066330261, .negSucc 1), (1407572580058860419753, .ofNat 1), (1410753210332108102797, .negSucc 1), (1422851410674399695057, .ofNat 1), (1434373433114891264327, .ofNat 2), (1451174293239223812079, .ofNat 2), (1474384703154523886881, .negSucc 3), (1474548744320886413981, .ofNat 2), (1614008148572560982387, .negSucc 1), (1793618187830956094789, .negSucc 3), (1845009167445993336023, .ofNat 4), (1896474956145083409169, .negSucc 1), (2307099339019142332661, .negSucc 1), (2373202646794349281127, .ofNat 2), (2407115490964077924113, .negSucc 1), (3121730815779725206721, .negSucc 3), (3586428488996321056007, .negSucc 1), (4069522338330386065357, .negSucc 3), (4178697248294401571209, .negSucc 7), (4675307293319448745819, .negSucc 1), (4800733869307152946303, .negSucc 1), (5096044897955610184133, .ofNat 8), (5232758791295520869921, .ofNat 4), (5343113716822099817843, .ofNat 2), (5579425488874588873409, .negSucc 1), (5854636956795822303011, .ofNat 2), (6186371894813001049133, .negSucc 3), (6789040319351893645409, .ofNat 2), (6821481430951935459757, .ofNat 4), (6965341315444579644631, .ofNat 2), (8064621873193956415561, .negSucc 3), (8280975119029930044757, .negSucc 3), (9703032474444245003909, .ofNat 2), (9813025223943738403561, .ofNat 8), (10098894104533293162209, .ofNat 4), (11967274524709719464357, .negSucc 7), (12288325992210908334209, .negSucc 7), (12377771262108346421359, .negSucc 1), (12988318818560294526061, .ofNat 2), (15095058182086515129683, .ofNat 2), (16019195784982385293453, .negSucc 7), (20626274308414572933227, .ofNat 2), (26888636147078393160559, .ofNat 2), (27106376008568221053049, .ofNat 1), (27423873824188346629073, .ofNat 1), (30105475763807564250973, .ofNat 2), (34866451844023139207401, .ofNat 2), (44674195371765485405801, .ofNat 2), (44848100085652029954649, .ofNat 1), (58993569830905951046527, .negSucc 1), (76904661039699799116659, .negSucc 1), (78967817043474687027383, .negSucc 3), (96303588710894646830971, .ofNat 4), (98887168490686956304927, .ofNat 2), (128297328565302743842783, .ofNat 1), (128910391348581595949459, .ofNat 2), (183038600709883003088519, .negSucc 3), (223220987750969221870603, .ofNat 4), (229209437798349738899311, .ofNat 4), (271615113238578959194603, .negSucc 7), (298799922966308539508387, .ofNat 4), (312047462656542378403501, .negSucc 1), (354080423963924965965551, .negSucc 7), (363579499086864759104387, .negSucc 7), (406788475637010661308617, .negSucc 1), (443395953626247756826519, .ofNat 8), (538262970737884828021519, .negSucc 3), (701685479171199897398723, .negSucc 3), (844240077005328641430487, .ofNat 1), (853810310594884759682723, .ofNat 4), (1041246929029114628522551, .negSucc 3), (5132904178981005607067861, .negSucc 3), (6691309869283271126678737, .negSucc 3), (6870820655018395804286269, .negSucc 3), (8379169024045955253837353, .ofNat 4), (15925796679054201488764717, .negSucc 3), (19421980126772443868336729, .ofNat 4), (23632649351663941779668729, .negSucc 3), (30807779442220717028912293, .negSucc 3), (446603000735818851316727623, .negSucc 1), (582196542595183159896308891, .negSucc 1)] 0)) (.nil)) (.nil)) (.node (.node (.nil) (.leaf (.atom 821))) (.nil))))) (.node (.node (.node (.node (.node (.leaf (.trans [(195529, .ofNat 1), (5320949, .ofNat 1)] 0)) (.nil)) (.nil)) (.nil)) (.node (.node (.node (.leaf (.trans [(257839, .ofNat 1)] 0)) (.nil)) (.nil)) (.nil))) (.nil))

def dynTable_81 : JTree := .node (.node (.node (.node (.node (.node (.leaf (.atom 23)) (.nil)) (.nil)) (.nil)) (.nil)) (.node (.node (.node (.node (.leaf (.trans [(7279, .ofNat 1), (14587, .ofNat 1), (29479, .ofNat 1), (242351, .negSucc 0), (470557, .negSucc 0), (583799, .ofNat 1)] 0)) (.nil)) (.nil)) (.nil)) (.node (.node (.node (.leaf (.trans [(4103632837, .ofNat 1), (77549271419, .negSucc 0), (148070143667, .negSucc 0)] 0)) (.nil)) (.nil)) (.nil)))) (.node (.node (.node (.node (.node (.leaf (.trans [(12179, .ofNat 1)] 0)) (.nil)) (.nil)) (.nil)) (.node (.node (.node (.leaf (.trans [(155227, .ofNat 4), (318611, .negSucc 3), (327617, .negSucc 3), (5365897, .ofNat 4), (8105413, .ofNat 4), (8670391, .negSucc 3), (44113793, .negSucc 3), (54291569, .negSucc 3), (78551203, .ofNat 4), (82309427, .negSucc 3), (85652851, .negSucc 3), (88891793, .negSucc 3), (90024413, .negSucc 3), (96886567, .negSucc 3), (98678077, .ofNat 4), (103662617, .negSucc 3), (105214001, .ofNat 4), (106265657, .ofNat 4), (118666039, .negSucc 1), (157415359, .ofNat 4), (159423281, .ofNat 4), (180407489, .negSucc 3), (201610531, .ofNat 2), (204287107, .ofNat 4), (2227250257, .ofNat 4), (2441346353, .negSucc 3), (2636583227, .negSucc 3), (2670177407, .negSucc 3), (2747133373, .negSucc 3), (2797930063, .ofNat 4), (3299356141, .ofNat 4), (3341395081, .ofNat 4), (3360363871, .negSucc 3), (4463374021, .ofNat 4), (5350992971, .negSucc 3), (6230620391, .ofNat 2), (6696102493, .ofNat 4)] 1)) (.nil)) (.nil)) (.nil))) (.node (.node (.node (.node (.leaf (.trans [(165625679867, .ofNat 1)] 0)) (.nil)) (.nil)) (.nil)) (.node (.node (.node (.leaf (.trans [(4283682541, .ofNat 1), (4328694967, .negSucc 0), (4448728103, .ofNat 1), (4493740529, .ofNat 2), (4508744671, .negSucc 0), (14420213099, .ofNat 1), (80951798867, .ofNat 1), (81802430729, .negSucc 0), (84070782361, .negSucc 0), (85204958177, .negSucc 0), (154566822731, .negSucc 0), (156190992497, .ofNat 1), (160522111873, .negSucc 0), (162146281639, .negSucc 1), (162687671561, .ofNat 1), (186848932927, .ofNat 1), (227652953911, .negSucc 1), (272509033813, .ofNat 1), (549765265433, .negSucc 0), (555542133371, .ofNat 1), (555732822977, .negSucc 0), (561572397299, .ofNat 1), (576723982477, .negSucc 0), (578649605123, .ofNat 1), (582984169813, .negSucc 0), (584930694587, .ofNat 1), (2920959297397, .negSucc 0), (2951652389839, .ofNat 1), (3064193728793, .negSucc 0), (3074424759607, .ofNat 1), (3244601997587, .ofNat 1), (5166922738169, .negSucc 1), (6742013586857, .negSucc 0), (7200870351421, .negSucc 1), (7276536239527, .ofNat 2), (7553977829249, .negSucc 1), (7579199791951, .ofNat 2), (10502078825599, .negSucc 1), (10612433419213, .ofNat 2), (11017066929131, .negSucc 1), (11053851793669, .ofNat 2), (73641073175773, .ofNat 2), (97643017720903, .negSucc 0), (102629717406257, .ofNat 1), (103708138254659, .negSucc 0), (107662348032133, .ofNat 1), (108021821648267, .negSucc 0), (136079973895427, .negSucc 1), (137509886055449, .ofNat 2), (142752897308863, .negSucc 1), (143229534695537, .ofNat 2), (158882161710137, .ofNat 2), (160551676544219, .negSucc 1), (166673230935853, .ofNat 2), (167229735880547, .negSucc 1), (259826829010811, .ofNat 2), (262557058387457, .negSucc 1), (272567899435159, .ofNat 2), (273477975894041, .negSucc 1), (1397872872480677, .ofNat 1), (1414246200416029, .ofNat 1), (1798059142137173, .ofNat 1), (2657168591354843, .negSucc 0), (3703157081654887, .negSucc 1), (3742069415262469, .ofNat 2), (3884747971823603, .negSucc 1), (3897718749692797, .ofNat 2), (3961206775556477, .ofNat 1), (4004204634575813, .ofNat 1), (4007604512312629, .ofNat 1), (4051106006576701, .ofNat 1), (4910132578924357, .ofNat 2), (4961727667319359, .negSucc 1), (5095230186451373, .ofNat 1), (5150537571710837, .ofNat 1), (5150909658101033, .ofNat 2), (5168108020899367, .negSucc 1), (24498927325965619, .negSucc 1), (24785884014995963, .negSucc 1), (31512536739363331, .negSucc 3), (40534018430155219, .negSucc 1), (51884209897267249, .ofNat 2), (52491931243062473, .ofNat 2), (59362621719133597, .ofNat 1), (60057937932534869, .ofNat 1), (66485114798844803, .ofNat 2), (66737741160103201, .ofNat 2), (67263856992681931, .ofNat 2), (75670305887051131, .ofNat 2), (76357089964770253, .ofNat 1), (76556634506518787, .ofNat 2), (84048663544662473, .negSucc 0), (84931836891891851, .ofNat 1), (85518626788971347, .ofNat 2), (87003567061414141, .ofNat 2), (88170139165066237, .negSucc 0), (88464530280809363, .ofNat 1), (97333375564457419, .ofNat 2), (111911148884164909, .ofNat 2), (166378752204279481, .ofNat 1), (168184749855105889, .ofNat 1), (168218172051177397, .ofNat 1), (168327551644446737, .ofNat 1), (170154703001285753, .ofNat 1), (170188516672567469, .ofNat 1), (214010045081846569, .ofNat 2), (216333067905076561, .ofNat 2), (216376058284516453, .ofNat 1), (275277334329929881, .ofNat 1), (278265397484263489, .ofNat 1), (739474749542278133, .negSucc 0), (748136240020079341, .negSucc 0), (883987391887399829, .ofNat 1), (894341563388277133, .ofNat 1), (947572753088311951, .negSucc 0), (951173286190564517, .negSucc 0), (958671701879975927, .negSucc 0), (1137057341055959621, .ofNat 2), (1144788758135821853, .negSucc 0), (1158197704058349781, .negSucc 0), (1218846066099677599, .negSucc 0), (1240010035604544497, .negSucc 0), (1347323084056392563, .ofNat 2), (1363104320765691451, .ofNat 2), (1462576738893053429, .ofNat 1), (1472521523884446797, .negSucc 0), (1508978669076381037, .ofNat 2), (1526653382623395749, .ofNat 2), (1595002968262704353, .negSucc 0), (1733037843706731587, .ofNat 2), (1786458101422407593, .negSucc 0), (1807382940092069761, .negSucc 0), (1872122267925293159, .negSucc 1), (1894050493611094543, .negSucc 1), (1940972562410374813, .ofNat 2), (1974675492799352339, .ofNat 2), (2179242486173813597, .ofNat 2), (2204768020418894869, .ofNat 2), (2297889446561228057, .negSucc 0), (2408077748206092791, .negSucc 1), (2539990146801552611, .ofNat 2), (2803121050804090253, .ofNat 4), (3178306961932088543, .ofNat 2), (3215534569099667911, .ofNat 2), (3605605009682398397, .ofNat 2), (4088200008687994607, .ofNat 4), (5258579335230879743, .ofNat 2), (21506574458574711329, .negSucc 1), (21758481626464312633, .negSucc 1), (26682243941417209603, .ofNat 2), (26994773885094131531, .ofNat 2), (27663526192242223121, .negSucc 1), (28143873990880333663, .negSucc 1), (28516244269853924819, .ofNat 1), (28850255915767294363, .ofNat 1), (31059445539328720849, .negSucc 0), (31423245779906509673, .negSucc 0), (34320898270570446547, .ofNat 2), (35378827407724147033, .negSucc 0), (35793220700933214641, .negSucc 0), (36200967141351045487, .negSucc 1), (36679940442535764131, .ofNat 1), (37316848713856939693, .ofNat 1), (39951215236472529601, .negSucc 1), (41182696834948205539, .ofNat 2), (41665071029208213803, .ofNat 2), (45507159707350940617, .negSucc 0), (48000002222396500957, .ofNat 1), (48083459387036770009, .negSucc 1), (48615051722790267733, .negSucc 0), (48646662425245106993, .negSucc 1), (49184481318371998541, .negSucc 0), (51388541268385142449, .negSucc 0), (52972574258869759411, .ofNat 4), (61848903028653658441, .negSucc 3), (62532680844225254917, .negSucc 0), (68137684981090923139, .ofNat 2), (78632948129171732827, .negSucc 1), (79553978268312836579, .negSucc 1), (79555149621349735609, .negSucc 1), (101144169859988292523, .negSucc 3), (130099956062450149627, .negSucc 1), (605593253053849760237, .ofNat 1), (612686585446867034149, .ofNat 1), (776015227569490824439, .ofNat 1), (778963886134872355613, .ofNat 1), (785104717789924099103, .ofNat 1), (998174656535706885511, .ofNat 1), (1015506901007770557833, .ofNat 1), (1120708588195207970759, .ofNat 2), (1133835482346835589743, .ofNat 2), (1306228558552738669817, .ofNat 1), (1441547627360436495191, .ofNat 4), (1485982805762719112549, .negSucc 1), (1503388168055693860573, .negSucc 1), (1854237206565014736359, .ofNat 2), (1911393390315068122901, .negSucc 3), (2458591498079222814149, .negSucc 1), (25436150015742451334761, .ofNat 1), (25734084422954661599297, .ofNat 1), (32718069702157785315289, .ofNat 2), (42084674149694010137161, .ofNat 1)] 0)) (.nil)) (.nil)) (.nil))))

def dynTable_82 : JTree := .node (.node (.node (.node (.node (.node (.leaf (.trans [(779, .negSucc 0), (21199, .negSucc 0)] 0)) (.nil)) (.nil)) (.nil)) (.nil)) (.node (.node (.node (.node (.leaf (.trans [(865223, .ofNat 1), (1711529, .negSucc 0)] 0)) (.nil)) (.nil)) (.nil)) (.node (.node (.node (.leaf (.trans [(9493163447, .negSucc 0), (238168248037, .negSucc 0), (269170298093, .negSucc 0), (385073552711, .ofNat 1), (761727962153, .negSucc 0), (4500834953819, .ofNat 1), (5488224057187, .negSucc 0), (6109220678947, .negSucc 0), (6676533245903, .ofNat 1), (7277009089657, .ofNat 1), (8593752926867, .ofNat 1), (9870038392069, .negSucc 0), (10918421825309, .negSucc 0), (14394915634711, .negSucc 0), (198029930284517, .ofNat 1), (206333190914083, .ofNat 1), (247809839604211, .negSucc 0), (356137612881779, .ofNat 1)] 0)) (.nil)) (.nil)) (.nil)))) (.node (.node (.node (.node (.node (.leaf (.trans [(888991, .negSucc 0), (15765511, .negSucc 0), (19226507, .ofNat 1), (1018565557, .ofNat 1), (1327813169, .ofNat 1)] 0)) (.nil)) (.nil)) (.nil)) (.node (.node (.node (.leaf (.trans [(14306, .negSucc 0), (22839, .ofNat 1), (230837, .ofNat 1), (364762, .ofNat 1), (514083, .ofNat 1), (4263733, .negSucc 0), (109656847, .ofNat 1)] 0)) (.nil)) (.nil)) (.nil))) (.node (.node (.node (.node (.leaf (.atom 277)) (.nil)) (.nil)) (.nil)) (.node (.node (.node (.nil) (.leaf (.atom 577))) (.nil)) (.nil))))

def dynTable_83 : JTree := .node (.node (.node (.nil) (.node (.node (.node (.leaf (.atom 367)) (.nil)) (.nil)) (.nil))) (.node (.node (.node (.node (.leaf (.trans [(30463, .ofNat 1), (434171, .negSucc 0), (575681, .ofNat 1), (15666061, .ofNat 1)] 0)) (.nil)) (.nil)) (.nil)) (.node (.node (.node (.leaf (.trans [] 0)) (.nil)) (.nil)) (.nil)))) (.node (.node (.node (.node (.node (.leaf (.trans [(493511, .negSucc 0), (645817, .negSucc 0)] 0)) (.nil)) (.nil)) (.nil)) (.nil)) (.node (.nil) (.node (.node (.node (.leaf (.trans [(105418387, .ofNat 1), (2588658763, .negSucc 0), (2615860081, .ofNat 1), (2688396929, .negSucc 0), (2715598247, .negSucc 1), (2724665353, .ofNat 1), (2884427111, .negSucc 0), (2983699937, .ofNat 1), (3071942449, .ofNat 1), (3138124333, .ofNat 1), (3149154647, .ofNat 1), (3182245589, .negSucc 0), (3270488101, .ofNat 1), (3303579043, .ofNat 2), (3314609357, .negSucc 0), (3347700299, .ofNat 1), (3380791241, .negSucc 0), (3413882183, .ofNat 1), (4638216307, .ofNat 1), (4851931267, .ofNat 1), (7966893419, .negSucc 0), (8633608811, .negSucc 0), (8714233757, .negSucc 0), (55766326723, .negSucc 1), (67228986361, .ofNat 1), (71599513199, .negSucc 0), (74170411339, .ofNat 1), (76227129851, .negSucc 0), (76998399293, .negSucc 0), (77255489107, .ofNat 1), (78026758549, .negSucc 0), (78798027991, .ofNat 1), (86332446043, .negSucc 0), (93405791933, .ofNat 1), (94387288871, .negSucc 0), (97004614039, .ofNat 1), (97986110977, .ofNat 2), (98313276623, .negSucc 0), (137572242673, .ofNat 2), (170854759883, .negSucc 0), (172543604297, .ofNat 1), (174232448711, .negSucc 0), (208362433471, .ofNat 1), (210422029189, .negSucc 0), (212481624907, .ofNat 1), (247084431983, .negSucc 0), (335833159511, .ofNat 2), (339362054357, .negSucc 1), (352301335459, .ofNat 2), (353477633741, .negSucc 1), (421016947553, .ofNat 1), (425178564827, .negSucc 0), (990144637591, .negSucc 1), (999836102233, .ofNat 2), (1525861941719, .ofNat 2), (1625057555521, .negSucc 1), (1683407916581, .ofNat 2), (1730088205429, .negSucc 1), (1747593313747, .negSucc 1), (1753428349853, .ofNat 2), (1770933458171, .negSucc 1), (1788438566489, .ofNat 2), (2012199516293, .ofNat 4), (2453616426403, .negSucc 1), (3122406876767, .ofNat 2), (3578466471457, .negSucc 1), (3798469796923, .negSucc 0), (4214486618651, .ofNat 2), (4351535380603, .ofNat 2), (4397260796161, .negSucc 1), (4564920653207, .ofNat 2), (4580162458393, .negSucc 1), (4729095655409, .ofNat 1), (4775841246731, .negSucc 0), (4822586838053, .ofNat 1), (5293728961607, .negSucc 1), (5349354835109, .ofNat 2), (5553316371283, .negSucc 1), (5571858329117, .ofNat 2), (5607949064257, .negSucc 0), (6164900673853, .ofNat 1), (6225838736527, .negSucc 0), (6286776799201, .ofNat 1), (6346478321257, .ofNat 2), (6413166359659, .negSucc 1), (6524491749491, .ofNat 1), (6657689167133, .ofNat 2), (6679918513267, .negSucc 1), (11254353045329, .negSucc 1), (11653344740819, .negSucc 1), (11768534309921, .ofNat 2), (14671297374493, .negSucc 1), (15176371880849, .ofNat 2), (15324917119487, .negSucc 1), (18711468178217, .negSucc 1), (18894614685671, .ofNat 2), (27732755991539, .ofNat 2), (32250153190987, .negSucc 0), (32627900226899, .negSucc 0), (42203106279989, .negSucc 0), (45315863023451, .ofNat 1), (45669863956747, .ofNat 2), (53458049296979, .negSucc 0), (55057215374929, .negSucc 0), (58636460733911, .ofNat 1), (60741899180371, .negSucc 0), (62426249937539, .ofNat 1), (63057881471477, .ofNat 1), (63268425316123, .negSucc 0), (63900056850061, .ofNat 1), (64531688383999, .negSucc 0), (88533100107173, .ofNat 4), (123383957528857, .ofNat 1), (124680461460859, .negSucc 0), (129120724388087, .ofNat 1), (129434309211533, .ofNat 1), (129866477188867, .negSucc 0), (152070047173741, .negSucc 3), (157015136239373, .negSucc 1), (158665032592151, .ofNat 2), (164714652552337, .negSucc 1), (165264618003263, .ofNat 2), (179948809594483, .ofNat 2), (181839690255721, .negSucc 1), (188772919346927, .ofNat 2), (189403212900673, .negSucc 1), (222717965255537, .negSucc 1), (224919460793483, .ofNat 2), (271611146509069, .ofNat 2), (274295935436671, .negSucc 1), (332986937794547, .negSucc 1), (344792060874617, .negSucc 0), (348200219631203, .ofNat 1), (353724347651599, .negSucc 0), (357186576176737, .ofNat 1), (378846904782779, .ofNat 2), (406087420218439, .ofNat 2), (462015006474223, .negSucc 1), (774548239689233, .negSucc 1), (782129462263679, .ofNat 2), (820539879727577, .ofNat 4), (908116502701711, .ofNat 2), (918753299219447, .ofNat 2), (944584489029421, .ofNat 2), (953830014207523, .negSucc 1), (1001639545892617, .ofNat 2), (1068779124888481, .negSucc 0), (1081297767639737, .negSucc 0), (1354572116614511, .negSucc 0), (1369547747831507, .negSucc 0), (1370438261465047, .negSucc 0), (1374861214967561, .negSucc 0), (1385589302710939, .negSucc 0), (1416986697254591, .negSucc 0), (1433583906007207, .negSucc 0), (1525067279292341, .ofNat 2), (1738929463168969, .negSucc 0), (1742362146023039, .negSucc 0), (1772616417132817, .negSucc 0), (1792213786240429, .negSucc 0), (1822644916746959, .negSucc 0), (1854293213040577, .negSucc 0), (1908626577508403, .ofNat 1), (1927308077451389, .negSucc 0), (2009390522572267, .ofNat 2), (2280085132972033, .negSucc 0), (2385144550372273, .negSucc 0), (2419768345793459, .negSucc 1), (2448111166827643, .negSucc 1), (2800382620690103, .ofNat 2), (2829808707772661, .negSucc 1), (2937704360408707, .ofNat 2), (2947513056102893, .negSucc 1), (3028641011945881, .negSucc 0), (3064115577239537, .negSucc 0), (3112505208207491, .negSucc 1), (3451456135480739, .negSucc 1), (3880940767189307, .negSucc 0), (3895997745856961, .negSucc 0), (3926398345721539, .negSucc 0), (3942836199841993, .ofNat 1), (4084206156901757, .ofNat 1), (4127122508813159, .negSucc 0), (4272795375183817, .ofNat 1), (4284482465821633, .ofNat 1), (4298787916458767, .negSucc 0), (4927672113341569, .negSucc 0), (5078665973897029, .negSucc 0), (5685918394832629, .negSucc 1), (6164619367893251, .ofNat 4), (6225554649948209, .negSucc 3), (8028300724969121, .negSucc 1), (8036265041859367, .ofNat 4), (8106881156208623, .ofNat 2), (8115700940131453, .negSucc 3), (10486118459329217, .negSucc 0), (13669818389501389, .negSucc 0), (14670627919524131, .negSucc 3), (17060331038032123, .ofNat 2), (17260159220029571, .ofNat 2), (19124790559792327, .negSucc 3), (21165988816810961, .negSucc 0), (21413906694606697, .negSucc 0), (21438751356575459, .ofNat 2), (21648592316019917, .negSucc 1), (21861334494940481, .ofNat 1), (22117396978043737, .ofNat 1), (22325443222114181, .ofNat 2), (22711755779978171, .negSucc 1), (23345783678377367, .negSucc 0), (23972091539405579, .negSucc 1), (24391360957400363, .negSucc 1), (24630101847684869, .ofNat 2), (26411280702287443, .ofNat 1), (26720636845213211, .ofNat 1), (27947790088269703, .ofNat 2), (28221341051613289, .negSucc 1), (28279308078101891, .ofNat 2), (28608119088569407, .ofNat 2), (31083925236679453, .negSucc 1), (31353984177487207, .negSucc 1), (31448012208704981, .negSucc 1), (31721234358189839, .negSucc 1), (31796844166279471, .negSucc 1), (32108069394660673, .ofNat 2), (34562257111410221, .ofNat 1), (35545612134954091, .negSucc 0), (35767771670105539, .ofNat 1), (37111450959347939, .negSucc 0), (37437077685041729, .ofNat 1), (38142742637917283, .ofNat 4), (38564434211473271, .ofNat 2), (38589509755198891, .ofNat 4), (39016140615121567, .ofNat 2), (39133052140563767, .ofNat 1), (39467593233305351, .negSucc 1), (40177411231065029, .negSucc 1), (40330075075217143, .negSucc 1), (40648010484137533, .negSucc 1), (40676960279662691, .negSucc 1), (43779498888514331, .ofNat 1), (44890899984878093, .negSucc 0), (45416708476648261, .negSucc 0), (45728085253413133, .negSucc 1), (46263699721974341, .negSucc 1), (49062334963682867, .ofNat 4), (49608701779289551, .ofNat 2), (51679493173954421, .negSucc 1), (52576852773317563, .negSucc 1), (52828950517235369, .negSucc 1), (53346036492934247, .ofNat 2), (57742370358282557, .negSucc 0), (58819226956179517, .negSucc 1), (67628675436056587, .negSucc 1), (69366758779889773, .ofNat 1), (84594814164213401, .negSucc 0), (86864277371924837, .negSucc 0), (87150511923273731, .ofNat 4), (101045359913653873, .negSucc 0), (101635198768428727, .negSucc 1), (102107132522203651, .ofNat 1), (102825654976550879, .negSucc 1), (106000298753552837, .negSucc 0), (106354222956402763, .ofNat 1), (107450848158606923, .negSucc 1), (113237219359568929, .negSucc 0), (125969228573433499, .ofNat 1), (127209090813360293, .negSucc 0), (128699094805317661, .negSucc 0), (130731557859191623, .negSucc 3), (157744519184632931, .negSucc 1), (163626802696310357, .negSucc 0), (168157689731405527, .negSucc 1), (182395000202672393, .ofNat 2), (184197916184906387, .negSucc 1), (196567284684243973, .ofNat 1), (211154204878394299, .negSucc 0), (222436097895062341, .negSucc 1), (224634807264700519, .ofNat 2), (239719618029038801, .negSucc 0), (246150684267064637, .negSucc 0), (289682749155771511, .ofNat 1), (292518143111619193, .negSucc 0), (320884716631125529, .negSucc 0), (434065596375888233, .negSucc 7), (480393629929205119, .negSucc 1), (486020495287087463, .negSucc 1), (494719583402657447, .negSucc 1), (496175535384381199, .ofNat 2), (501987254686101623, .ofNat 2), (529355834211792421, .ofNat 8), (529867319777194393, .negSucc 1), (615582769742807693, .negSucc 3), (622793109651947461, .negSucc 3), (649303856925853553, .ofNat 4), (716568649689076319, .ofNat 2), (721676720210689409, .negSucc 0), (724961840315009863, .ofNat 2), (728740440147498767, .ofNat 1), (805562221727561971, .negSucc 3), (806760590745648389, .negSucc 1), (811802832165998381, .ofNat 2), (849690217580325391, .ofNat 2), (864977735394376189, .ofNat 4), (875277252452359609, .ofNat 1), (880106107113677533, .ofNat 1), (885529401822226193, .ofNat 1), (888182882959999993, .ofNat 2), (888720522517726579, .negSucc 0), (889014638226257533, .negSucc 1), (899427694018073141, .negSucc 1), (911886167449926091, .negSucc 1), (921709575246187631, .ofNat 2), (922567118166762707, .negSucc 1), (937714084663260193, .ofNat 2), (1009663459501945187, .negSucc 1), (1019545972971784781, .ofNat 2), (1020393728253008581, .negSucc 3), (1045076508217185461, .ofNat 2), (1057317521490593197, .ofNat 2), (1109327580291800279, .ofNat 1), (1121591881717709723, .ofNat 1), (1122321168347926783, .ofNat 1), (1125943348552661729, .ofNat 1), (1131336336875446337, .ofNat 2), (1134729121913524771, .ofNat 1), (1143523799070355117, .negSucc 1), (1144587714174133849, .ofNat 2), (1172943042425650459, .negSucc 1), (1193309954598801077, .negSucc 1), (1206165035342205457, .ofNat 2), (1231314454175216119, .ofNat 2), (1243366471671221497, .negSucc 1), (1296579628866820927, .negSucc 1), (1311766505925290279, .negSucc 1), (1316931192856046171, .negSucc 1), (1332356448409264867, .negSucc 1), (1344263421106399589, .ofNat 2), (1367605129991627467, .ofNat 2), (1424097240755713441, .ofNat 1), (1426908438267981671, .ofNat 1), (1451685190241574313, .ofNat 1), (1455217912442174513, .ofNat 2), (1467734466456241381, .ofNat 1), (1534933480368636773, .negSucc 1), (1563070785924470267, .negSucc 0), (1578370010582784821, .ofNat 1), (1602072874586085799, .ofNat 2), (1619784779517745963, .ofNat 2), (1620838003424575823, .ofNat 2), (1638757368443283251, .ofNat 2), (1667767435142809423, .negSucc 1), (1693945291804894379, .negSucc 3), (1759126280526009883, .ofNat 2), (1867276974326637337, .ofNat 1), (1920005259440365879, .negSucc 1), (1920672713199875849, .negSucc 1), (1943169611743944673, .negSucc 1), (2031266643937717981, .negSucc 1), (2060717991763812151, .ofNat 4), (2083500501685848187, .ofNat 2), (2085760349716414297, .negSucc 1), (2178891856456792571, .negSucc 1), (2470527326919124601, .negSucc 3), (2502939796573328843, .negSucc 1), (2570087290607814191, .negSucc 1), (2650665090797587399, .ofNat 2), (3134297472722715667, .ofNat 2), (3177795587508297449, .negSucc 1), (3228987875514031777, .negSucc 0), (3486707259252199777, .negSucc 1), (4447853289847754627, .negSucc 1), (4667248680186446633, .negSucc 3), (5424288652123669399, .ofNat 2), (5569808488600938763, .ofNat 2), (5844545587114858177, .ofNat 2), (6035453135726873039, .ofNat 1), (7260863092361872271, .ofNat 2), (7360413624539329843, .negSucc 0), (7582779413646412033, .ofNat 2), (9349068197249950489, .negSucc 1), (10960312820887326857, .ofNat 2), (12014518807608452459, .ofNat 4), (13725012811649977633, .negSucc 1), (13971567491510057347, .negSucc 1), (14135216891117788619, .negSucc 1), (15662257752880878703, .ofNat 4), (17102898500611223639, .ofNat 1), (17333898188691444329, .ofNat 1), (17536930671135853633, .ofNat 1), (17903351914428587609, .negSucc 0), (18113054425871382193, .negSucc 0), (18283434011936006909, .negSucc 1), (19119042390062979263, .ofNat 1), (19631957557495059731, .ofNat 2), (20177510855458242707, .negSucc 3), (20413850660500213339, .negSucc 3), (20857490616212262043, .negSucc 0), (23159354912024081099, .negSucc 1), (23428634869983702823, .negSucc 1), (25855730061926523529, .negSucc 3), (25953975195788236643, .negSucc 3), (26158579023120392033, .negSucc 3), (27946514823617510201, .ofNat 4), (28220053304762216663, .negSucc 3), (29110098617865686899, .ofNat 1), (29292036291427324171, .negSucc 0), (29427805135609067633, .negSucc 0), (29772493921970520841, .negSucc 0), (30659115370940597081, .negSucc 0), (32048034584546688863, .negSucc 0), (33257768091583420921, .negSucc 3), (33835253968813667063, .negSucc 3), (36431381520250092517, .ofNat 4), (36763427245061124677, .ofNat 1), (36787969267593486571, .negSucc 3), (37194038398736804029, .ofNat 1), (37340425425947269049, .negSucc 0), (37709179856317968451, .negSucc 0), (37777794977056461073, .negSucc 0), (37852465055147250017, .negSucc 0), (38150868639408076427, .negSucc 0), (43521688504617182087, .negSucc 3), (46102620807411803699, .negSucc 3), (47288145979233693173, .ofNat 1), (47518430296094358061, .ofNat 2), (48030328529995791401, .negSucc 1), (48075015131187703397, .ofNat 2), (48504650829100846099, .negSucc 0), (49346882657666599997, .negSucc 0), (54458985104114965331, .negSucc 1), (55096864871073852187, .negSucc 1), (56807945273746508197, .negSucc 0), (61122116106507056989, .ofNat 4), (61780561747330570649, .negSucc 0), (63474022026859423853, .negSucc 0), (66637721915346320971, .negSucc 1), (69278969610392213489, .ofNat 1), (70049628951018653219, .negSucc 3), (71137547753181680093, .ofNat 1), (75259860446779446527, .ofNat 4), (78620296463041880461, .ofNat 2), (81266672984431614527, .ofNat 2), (83446850648670820499, .ofNat 4), (90103598272980255731, .negSucc 1), (92735683106395277881, .ofNat 1), (103162569058225880611, .negSucc 0), (108782224611273899383, .ofNat 4), (111700574380670584171, .ofNat 2), (123112307104114535321, .ofNat 2), (129184960789490175659, .ofNat 2), (136222154501302472927, .negSucc 1), (140067705946585978097, .negSucc 1), (160490546254368911557, .ofNat 2), (164796098474186680609, .ofNat 2), (167055546021287787197, .negSucc 1), (172924852278536031811, .ofNat 1), (176736160825284314783, .negSucc 0), (182593789107966540349, .negSucc 1), (187492314986074713913, .negSucc 1), (200973716670943271933, .negSucc 1), (217775431769829105049, .negSucc 1), (228652424049304230581, .ofNat 2), (303370932004915857611, .negSucc 3), (386998189877185676161, .negSucc 1), (406087312965456114019, .negSucc 3), (471955739757565710557, .ofNat 2), (586834289974362347591, .negSucc 1), (593707898056053268207, .negSucc 1), (728059027180007446837, .ofNat 2), (736586804950783522349, .ofNat 2), (754834563843762303959, .negSucc 1), (767941465637792811577, .negSucc 1), (826864445754044771243, .ofNat 2), (834957735598293170309, .negSucc 1), (847496550656039387671, .negSucc 1), (857423303811600610367, .negSucc 1), (936489444503906199013, .ofNat 2), (953633347541526610051, .ofNat 1), (987789519418791151273, .negSucc 1), (1008385649811240629791, .negSucc 1), (1018255656171546410833, .ofNat 2), (1090119817643056627879, .negSucc 3), (1236027750125592264349, .negSucc 0), (1250505381166594809173, .negSucc 0), (1402201833031923734071, .negSucc 1), (1589880624913038161101, .negSucc 1), (1663506935812807785109, .ofNat 2), (1708134586146922810033, .ofNat 2), (1844468140144413682033, .ofNat 4), (2045035316737049085949, .negSucc 0), (2404468784020241564861, .ofNat 4), (2468974551818630268857, .ofNat 8), (3010987496907823513909, .negSucc 7), (3091764615583759975633, .negSucc 3), (4011290309818951965457, .negSucc 1), (4030458072931224316061, .negSucc 3), (4144237905031641180371, .negSucc 0), (4942737666676643631671, .negSucc 0), (5054020709557475452327, .ofNat 1), (5189607201054309019099, .ofNat 1), (5798005482249395907353, .negSucc 3), (6027814788085343730427, .ofNat 1), (6765228547284504535583, .ofNat 1), (7070839187547196291861, .ofNat 4), (7260531777362838167857, .ofNat 4), (8975954215877504075873, .negSucc 1), (9464908411315298982269, .ofNat 4), (10711738201807309284403, .ofNat 2), (11240106794664344615737, .ofNat 2), (12186991145886941477371, .negSucc 1), (13963938746497516672151, .ofNat 2), (15887094574114959081407, .negSucc 1), (26395655138903160286873, .negSucc 1), (30579961950169640684561, .ofNat 1), (30938145984725068393897, .ofNat 1), (39334463979641665055489, .ofNat 2), (50595225039419795806961, .ofNat 1), (54572999031801490843219, .ofNat 2), (66553386559809230814503, .negSucc 1), (68338844257640302923611, .negSucc 3), (89087262705796386051487, .negSucc 3), (91477246855345560828019, .negSucc 1), (111559208388807023932103, .ofNat 2), (144738176161771745342087, .ofNat 1), (160483223030600488676219, .ofNat 8), (209207679838712059298623, .ofNat 8), (214820188558726284316051, .ofNat 8), (261979574215239253360487, .negSucc 7), (360581265422664622701553, .negSucc 0), (439739518986585295397261, .ofNat 1), (504472040849467576716979, .negSucc 1), (615218575832814699759623, .ofNat 2), (780978554731958787835339, .negSucc 0), (4748279780199199656136817, .ofNat 4), (5790667643564383899964429, .negSucc 3), (5946016494377438301724873, .negSucc 3), (7751291951771325243737141, .negSucc 3), (13963301568479771791755817, .ofNat 4), (18202712214178862416813589, .ofNat 4), (413137655453206198764894331, .ofNat 2), (503833591219127445535804847, .negSucc 1)] 0)) (.nil)) (.nil)) (.nil))))

def dynTable_84 : JTree := .node (.node (.node (.nil) (.node (.node (.node (.leaf (.trans [(96497029, .ofNat 1), (160133591, .ofNat 1), (174535729, .ofNat 1), (184248397, .ofNat 1), (4749657149, .ofNat 1), (4948807051, .ofNat 1), (5943605467, .negSucc 0)] 0)) (.nil)) (.nil)) (.nil))) (.node (.node (.node (.node (.leaf (.trans [(439, .ofNat 1)] 0)) (.nil)) (.nil)) (.nil)) (.node (.node (.node (.leaf (.trans [(832333, .negSucc 0), (953649391, .ofNat 1), (1243187747, .ofNat 1)] 0)) (.nil)) (.nil)) (.nil)))) (.node (.node (.node (.node (.node (.leaf (.trans [] 0)) (.nil)) (.nil)) (.nil)) (.node (.node (.node (.leaf (.trans [(503, .ofNat 1), (7703063, .negSucc 0), (68638877, .negSucc 0), (142281367, .ofNat 1), (3520114163, .negSucc 0)] 0)) (.nil)) (.nil)) (.nil))) (.node (.nil) (.node (.node (.node (.nil) (.leaf (.trans [(743, .ofNat 1)] 0))) (.nil)) (.nil))))

def dynTable_85 : JTree := .node (.node (.node (.node (.node (.node (.leaf (.trans [(31049, .ofNat 1)] 0)) (.nil)) (.nil)) (.nil)) (.nil)) (.node (.node (.node (.node (.leaf (.trans [(5515157, .ofNat 1)] 0)) (.nil)) (.nil)) (.nil)) (.node (.node (.node (.leaf (.trans [(569, .ofNat 1)] 0)) (.nil)) (.nil)) (.nil)))) (.node (.node (.node (.node (.node (.leaf (.trans [(21457, .negSucc 0)] 0)) (.nil)) (.nil)) (.nil)) (.node (.node (.node (.leaf (.atom 431)) (.nil)) (.nil)) (.nil))) (.node (.node (.node (.node (.leaf (.trans [(360011, .ofNat 1)] 0)) (.nil)) (.nil)) (.nil)) (.node (.node (.node (.leaf (.trans [(3543697088026, .negSucc 0), (3564759180674, .negSucc 0), (3596352319646, .negSucc 0), (3638476504942, .negSucc 0), (3691131736562, .negSucc 0), (8006138325777, .negSucc 1), (8053723100373, .negSucc 1), (8125100262267, .negSucc 1), (8220269811459, .negSucc 1), (8339231747949, .negSucc 1), (8608199691814, .ofNat 2), (8709027799478, .ofNat 2), (10041912388426, .negSucc 0), (10101596860274, .negSucc 0), (10191123568046, .negSucc 0), (10310492511742, .negSucc 0), (10459703691362, .negSucc 0), (10679807912498, .negSucc 1), (10804900830946, .negSucc 1), (10929923467538, .ofNat 2), (11264838474458, .ofNat 2), (12636888784197, .negSucc 0), (12774058892493, .negSucc 0), (12784905051069, .negSucc 0), (12923681837061, .negSucc 0), (13738342507138, .negSucc 1), (16193076914559, .negSucc 0), (16255901582157, .negSucc 0), (16368848510871, .negSucc 0), (16382746922343, .negSucc 0), (16432355123733, .negSucc 0), (16560577336767, .negSucc 0), (20560523421453, .negSucc 0), (20783702502357, .negSucc 0), (21190539529473, .negSucc 0), (21420557269737, .negSucc 0), (57406586331818, .ofNat 1), (58078991442586, .ofNat 1), (71221781195326, .negSucc 0), (72056004108302, .negSucc 0), (72889758323806, .ofNat 1), (75123248245846, .ofNat 1), (85538628546142, .ofNat 2), (86540545132334, .ofNat 2), (91618616369006, .negSucc 0), (96797714183998, .negSucc 0), (97931508786446, .negSucc 0), (101257859689438, .negSucc 0), (102443896113326, .negSucc 0), (105503533050962, .negSucc 1), (106739299177474, .negSucc 1), (109610333276474, .ofNat 2), (110035591106702, .ofNat 2), (110894202480298, .ofNat 2), (124509187031902, .negSucc 0), (129696489165561, .ofNat 2), (130246193278462, .negSucc 0), (131215628130897, .ofNat 2), (135707327801138, .negSucc 1), (139173415679758, .ofNat 2), (143437971201478, .ofNat 2), (160908626751627, .negSucc 1), (162675278429018, .ofNat 1), (162793354444179, .negSucc 1), (164441075844842, .ofNat 1), (164580698966986, .ofNat 1), (164677023226587, .ofNat 2), (166367179222234, .ofNat 1), (169723060972167, .ofNat 2), (195936036293721, .negSucc 0), (198231041111217, .negSucc 0), (201823933915726, .negSucc 0), (204014679703294, .negSucc 0), (204187903859102, .negSucc 0), (206404309919438, .negSucc 0), (206550545636206, .ofNat 1), (206990410761987, .negSucc 1), (208792597552414, .ofNat 1), (212879672974246, .ofNat 1), (215190425905174, .ofNat 1), (215568740208334, .ofNat 1), (225478821058742, .negSucc 1), (228119861422534, .negSucc 1), (233608770314446, .ofNat 1), (236678384957038, .ofNat 2), (238360068166749, .negSucc 1), (241151986973973, .negSucc 1), (241400485746291, .negSucc 1), (244228017058107, .negSucc 1), (252029056624329, .negSucc 0), (259623239761406, .negSucc 0), (262441381831214, .negSucc 0), (273175004326179, .ofNat 2), (274299450853198, .negSucc 0), (276374711551083, .ofNat 2), (277512328754846, .negSucc 0), (290029417942358, .negSucc 1), (306598338178701, .negSucc 1), (309333784577577, .negSucc 1), (310533914256171, .negSucc 1), (312957020707329, .negSucc 1), (351380174550771, .ofNat 2), (352826530222702, .negSucc 0), (392764423735659, .negSucc 1), (404799521701719, .negSucc 1), (428757324000063, .ofNat 2), (433779371718951, .ofNat 2), (448573683461194, .negSucc 1), (453827840807738, .negSucc 1), (530775065980641, .negSucc 0), (531714979905202, .ofNat 2), (534718358149251, .ofNat 2), (536536489897929, .negSucc 0), (536992050648057, .negSucc 0), (542820958300833, .negSucc 0), (551502959499087, .ofNat 2), (576992392046506, .negSucc 1), (608361385756107, .negSucc 1), (610865530851934, .ofNat 1), (682726575923409, .negSucc 0), (690137393566521, .negSucc 0), (693149446906634, .ofNat 2), (711744879531458, .ofNat 2), (820169477124801, .ofNat 1), (829072201356969, .ofNat 1), (867993933626746, .negSucc 1), (1000220937534237, .negSucc 0), (1011078073073253, .negSucc 0), (1027054315439769, .negSucc 0), (1038202720247361, .negSucc 0), (1338879207083973, .negSucc 0), (1353412389180237, .negSucc 0), (2871077531639722, .negSucc 1), (2904706551043994, .negSucc 1), (2991459864747878, .negSucc 0), (3026498926121206, .negSucc 0), (3129297275299718, .negSucc 0), (3165950830500886, .negSucc 0), (3545914708144574, .ofNat 1), (3592796612030726, .ofNat 2), (3634879149214102, .ofNat 2), (3693016228570378, .negSucc 1), (3847861893622022, .negSucc 0), (4025159715942182, .negSucc 0), (4307286220414426, .negSucc 1), (4357737596349002, .negSucc 1), (4621350711697574, .ofNat 2), (4622493086741158, .ofNat 1), (4746502792204846, .ofNat 1), (5540386052898874, .negSucc 1), (5551696580284486, .negSucc 1), (5788500554142902, .negSucc 0), (6758490039712431, .negSucc 1), (6770458195913582, .ofNat 2), (6837652441348887, .negSucc 1), (6952092329480534, .ofNat 2), (8011148509486923, .ofNat 2), (8102532417610881, .ofNat 2), (8197437628944537, .ofNat 2), (8477016271169078, .negSucc 0), (8569032056050982, .negSucc 0), (8576307823393606, .negSucc 0), (8669401391993014, .negSucc 0), (8693326154461119, .negSucc 1), (9062823383088478, .ofNat 2), (10048196544884174, .ofNat 1), (10139312052028023, .negSucc 1), (10157267078919806, .ofNat 1), (10258074125843871, .negSucc 1), (10422144083885169, .ofNat 2), (10443420569846991, .ofNat 2), (10723590920477667, .ofNat 2), (10903836038660822, .negSucc 0), (11022194314642118, .negSucc 0), (13042017689189127, .negSucc 1), (13077736325685879, .negSucc 1), (13098938605674358, .ofNat 1), (13241124143411302, .ofNat 1), (13450349735533246, .ofNat 1), (13596349748776174, .ofNat 1), (15667567670596503, .ofNat 2), (16403099356733702, .negSucc 0), (16581150691486838, .negSucc 0), (19107062212680411, .negSucc 1), (19619655982494207, .negSucc 1), (25576397518815219, .negSucc 1), (27290130097342467, .ofNat 1), (31176411946339678, .ofNat 2), (33281120881363479, .negSucc 0), (38020556550382886, .negSucc 1), (45476176395606351, .negSucc 1), (46263381758470886, .ofNat 2), (59283239531192067, .negSucc 1), (60309449027807662, .ofNat 2), (71361189849560043, .ofNat 1), (72135796820228067, .ofNat 1), (87027081847895391, .negSucc 0), (87971737961090679, .negSucc 0), (304521044809699594, .ofNat 2), (308522445343023082, .ofNat 1), (334341375290938858, .ofNat 1), (396976955245658498, .ofNat 2), (402193224621818594, .ofNat 1), (435851063293788386, .ofNat 1), (483041230748642498, .negSucc 1), (589083069002799226, .ofNat 2), (595558061497262834, .ofNat 2), (697032876305790489, .ofNat 2), (726300672289249258, .negSucc 1), (859395683406068337, .negSucc 1), (874272063621385882, .ofNat 1), (883762057218313258, .ofNat 1), (908659659679398213, .ofNat 2), (1120317585810858429, .negSucc 1), (1139710597307466194, .ofNat 1), (1152081856462193186, .ofNat 1), (1363201511645790429, .ofNat 2), (1662464566233747273, .negSucc 1)] 0)) (.nil)) (.nil)) (.nil))))

def dynTable_86 : JTree := .node (.node (.node (.nil) (.node (.node (.node (.leaf (.trans [(13236071, .ofNat 1), (211280093, .negSucc 0), (262125751, .ofNat 1), (360800057, .ofNat 1), (462333979, .ofNat 1)] 0)) (.nil)) (.nil)) (.nil))) (.node (.node (.node (.node (.leaf (.trans [(11702423, .negSucc 0), (14271451, .ofNat 1), (17140267, .negSucc 0), (22344239, .negSucc 0)] 0)) (.nil)) (.nil)) (.nil)) (.node (.node (.node (.leaf (.trans [(30515753, .ofNat 1), (576677911, .ofNat 1), (26806555591, .negSucc 0), (32691387467, .ofNat 1), (741979712293, .ofNat 1), (967252845281, .ofNat 1)] 0)) (.nil)) (.nil)) (.nil)))) (.node (.node (.node (.node (.node (.leaf (.trans [(46789, .negSucc 0)] 0)) (.nil)) (.nil)) (.nil)) (.node (.node (.node (.leaf (.trans [(68245531, .ofNat 1), (87783019, .ofNat 1), (141466001, .negSucc 0), (185124847, .negSucc 0), (3499941589, .ofNat 1), (4580083883, .ofNat 1)] 0)) (.nil)) (.nil)) (.nil))) (.node (.nil) (.node (.node (.node (.nil) (.leaf (.atom 673))) (.nil)) (.nil))))

def dynTable_87 : JTree := .node (.node (.node (.node (.node (.node (.leaf (.trans [(1, .ofNat 1)] 0)) (.nil)) (.nil)) (.nil)) (.node (.node (.node (.leaf (.trans [] 0)) (.nil)) (.nil)) (.nil))) (.node (.node (.node (.node (.leaf (.trans [(13677887, .ofNat 1), (194942779, .negSucc 0), (237151751, .ofNat 1), (258480769, .ofNat 1), (387824453, .negSucc 0), (7034061389, .ofNat 1), (7328994811, .ofNat 1), (8802253387, .negSucc 0)] 0)) (.nil)) (.nil)) (.nil)) (.node (.node (.node (.leaf (.trans [(4403715677, .ofNat 1), (83220150499, .negSucc 0), (158897942107, .negSucc 0)] 0)) (.nil)) (.nil)) (.nil)))) (.node (.node (.node (.node (.node (.leaf (.trans [(719, .ofNat 1), (690713, .negSucc 0), (900421, .negSucc 0)] 0)) (.nil)) (.nil)) (.nil)) (.nil)) (.node (.nil) (.node (.node (.node (.nil) (.leaf (.atom 463))) (.nil)) (.nil))))

def dynTable_88 : JTree := .node (.node (.node (.node (.node (.node (.leaf (.trans [(94001, .negSucc 0), (114637, .ofNat 1)] 0)) (.nil)) (.nil)) (.nil)) (.node (.node (.node (.leaf (.trans [(5365897, .ofNat 1)] 0)) (.nil)) (.nil)) (.nil))) (.node (.node (.node (.node (.leaf (.trans [(3683516861, .ofNat 2), (126829502677, .negSucc 0), (132911225851, .negSucc 1), (2511718064837, .negSucc 0)] 0)) (.nil)) (.nil)) (.nil)) (.node (.node (.node (.leaf (.trans [(594389, .negSucc 0)] 0)) (.nil)) (.nil)) (.node (.node (.nil) (.leaf (.atom 787))) (.nil))))) (.node (.node (.node (.node (.node (.leaf (.trans [(251, .ofNat 1)] 0)) (.nil)) (.nil)) (.nil)) (.node (.node (.node (.leaf (.trans [(5280731, .ofNat 1), (6963857, .ofNat 1), (158055103, .ofNat 1), (190543021, .negSucc 0)] 0)) (.nil)) (.nil)) (.nil))) (.nil))

def dynTable_89 : JTree := .node (.node (.node (.node (.node (.node (.leaf (.atom 59)) (.nil)) (.nil)) (.nil)) (.nil)) (.node (.node (.node (.node (.leaf (.trans [(171649, .ofNat 1), (409393, .negSucc 0)] 0)) (.nil)) (.nil)) (.nil)) (.node (.node (.node (.leaf (.trans [(176222941, .ofNat 1), (265199461, .negSucc 0), (6019096619, .negSucc 0), (6358599131, .negSucc 0)] 0)) (.nil)) (.nil)) (.nil)))) (.node (.node (.node (.node (.node (.leaf (.trans [(491, .ofNat 1)] 0)) (.nil)) (.nil)) (.nil)) (.nil)) (.node (.node (.node (.node (.leaf (.trans [(15887251739, .negSucc 0), (243510727021, .ofNat 1), (300232707493, .negSucc 0), (12427924568557, .negSucc 0), (15156221622809, .ofNat 1), (20709849601121, .ofNat 1), (26997585810157, .ofNat 1), (343993015606711, .ofNat 1), (391368772879327, .negSucc 0), (448433046874187, .ofNat 1), (510192600754259, .negSucc 0), (612750406272803, .ofNat 1), (747267245283511, .negSucc 0)] 0)) (.nil)) (.nil)) (.nil)) (.node (.node (.node (.leaf (.trans [(673, .ofNat 1), (677, .ofNat 1), (683, .ofNat 1), (691, .ofNat 1), (701, .ofNat 1)] 0)) (.nil)) (.nil)) (.nil))))

def dynTable_90 : JTree := .node (.node (.node (.node (.node (.node (.leaf (.trans [(989, .negSucc 0)] 0)) (.nil)) (.nil)) (.nil)) (.node (.node (.node (.leaf (.trans [(9634193, .negSucc 0)] 0)) (.nil)) (.nil)) (.nil))) (.node (.node (.node (.node (.leaf (.trans [(17871547, .negSucc 0), (352597337, .ofNat 1), (506731993, .negSucc 0), (724928011, .ofNat 1), (1127703853, .ofNat 1), (6663282919, .negSucc 0), (10331967287, .negSucc 0), (11501037047, .negSucc 0), (12569042803, .ofNat 1), (12722663167, .negSucc 0), (13699480757, .ofNat 1), (14612146169, .ofNat 1), (20554696009, .negSucc 0), (21311022611, .ofNat 1), (372805253617, .ofNat 1), (388436724983, .ofNat 1), (466519429511, .negSucc 0), (527245654879, .negSucc 0)] 0)) (.nil)) (.nil)) (.nil)) (.node (.node (.node (.leaf (.trans [(28153, .ofNat 1)] 0)) (.nil)) (.nil)) (.nil)))) (.node (.node (.node (.node (.node (.leaf (.trans [] 0)) (.nil)) (.nil)) (.nil)) (.node (.node (.node (.leaf (.trans [(493511, .negSucc 0), (645817, .negSucc 0), (7222027, .ofNat 1), (9450869, .ofNat 1), (130998977, .ofNat 1), (171427519, .ofNat 1), (3564887437, .ofNat 1), (4665073139, .ofNat 1)] 0)) (.nil)) (.nil)) (.nil))) (.node (.nil) (.node (.node (.node (.nil) (.leaf (.atom 619))) (.nil)) (.nil))))

def dynTable_91 : JTree := .node (.node (.node (.node (.node (.node (.leaf (.trans [(23, .ofNat 1)] 0)) (.nil)) (.nil)) (.nil)) (.node (.node (.node (.leaf (.trans [(16682, .negSucc 0), (37689, .negSucc 0)] 0)) (.nil)) (.nil)) (.nil))) (.node (.node (.node (.node (.leaf (.trans [(305983, .negSucc 0), (366833, .ofNat 1), (9075637, .negSucc 0), (10401227, .ofNat 1), (12492059, .negSucc 0)] 0)) (.nil)) (.nil)) (.nil)) (.node (.node (.node (.leaf (.trans [(23657, .ofNat 1)] 0)) (.nil)) (.nil)) (.nil)))) (.node (.node (.node (.node (.node (.leaf (.trans [] 0)) (.nil)) (.nil)) (.nil)) (.nil)) (.nil))

def dynTable_92 : JTree := .node (.node (.node (.node (.node (.node (.leaf (.trans [(1357, .ofNat 1), (1769, .ofNat 1)] 0)) (.nil)) (.nil)) (.nil)) (.node (.node (.node (.leaf (.trans [(1478, .negSucc 0)] 0)) (.nil)) (.nil)) (.nil))) (.node (.node (.node (.node (.leaf (.trans [(3535215637, .ofNat 1)] 0)) (.nil)) (.nil)) (.nil)) (.node (.node (.node (.leaf (.trans [(118908857, .negSucc 0), (128859833, .negSucc 0), (336956657, .ofNat 1), (340614233, .ofNat 1), (6436829671, .ofNat 2), (14633629447, .negSucc 0), (14922926899, .ofNat 1), (62902785353, .ofNat 1), (97380473873, .negSucc 0), (167975418587, .negSucc 1), (218974587679, .negSucc 1), (224295920033, .ofNat 1), (228730106261, .negSucc 0), (276542114489, .negSucc 0), (282009174413, .ofNat 1), (413921731217, .ofNat 1), (1512598433273, .negSucc 0), (1529017291937, .negSucc 0), (2269702196623, .negSucc 1), (4969954295441, .negSucc 1), (5227792822783, .negSucc 0), (5331142928011, .ofNat 1), (6061006271917, .ofNat 2), (11447268912161, .negSucc 0), (11673574063637, .ofNat 1), (12246863876531, .ofNat 2), (13960283042557, .ofNat 1), (14236268868769, .negSucc 0), (19075688479333, .negSucc 0), (19452802584361, .ofNat 1), (24867275548961, .negSucc 0), (25358885609237, .ofNat 1), (28208135486051, .ofNat 1), (28765792200767, .negSucc 0), (28894928393119, .negSucc 1), (51514270678817, .negSucc 0), (118652541697457, .negSucc 1), (120998226212069, .ofNat 2), (218964595813793, .negSucc 1), (282370603449617, .ofNat 1), (285444635220781, .negSucc 1), (316849408912403, .ofNat 1), (323113318149551, .negSucc 0), (338981429551913, .negSucc 0), (360486866673371, .negSucc 0), (367613460413207, .ofNat 1), (413048345148151, .ofNat 1), (421214045546467, .negSucc 0), (437140947215897, .ofNat 2), (469934611013407, .negSucc 0), (479224916338219, .ofNat 1), (564399843107119, .negSucc 0), (575557665376123, .ofNat 1), (688302303318803, .ofNat 1), (701909597618351, .negSucc 0), (780774097634873, .negSucc 1), (796209499894541, .ofNat 2), (1343164857701839, .ofNat 2), (1638029274075443, .negSucc 1), (1858094651433113, .ofNat 1), (4281303808954087, .ofNat 1), (4365942434501779, .negSucc 0), (6478590990684899, .negSucc 3), (7900833346444663, .ofNat 4), (10188693160640647, .negSucc 1), (10665865675729553, .negSucc 0), (10876722987276101, .ofNat 1), (13007338682233261, .ofNat 1), (13264485410712337, .negSucc 0), (14922103672120979, .negSucc 1), (15217104074205743, .ofNat 2), (18197946816107623, .ofNat 2), (18557708532406291, .negSucc 1), (23101068078599339, .negSucc 0), (23557761351981863, .ofNat 1), (25382742620446193, .ofNat 2), (30955005433772941, .negSucc 1), (37177513213009597, .negSucc 1), (48465011697725849, .negSucc 1), (54976171941747659, .ofNat 2), (179321176232961977, .ofNat 2), (231247561077209513, .negSucc 0), (233765041087774309, .ofNat 2), (413029497648847817, .ofNat 4), (421194825444212189, .negSucc 3), (538429757804577589, .ofNat 4), (549074168173037113, .negSucc 3), (702569936775057539, .negSucc 1), (915877832096593063, .negSucc 1), (982932070608116777, .negSucc 1), (1281360967506085909, .negSucc 1), (1521687637258537457, .negSucc 0), (12220465013579050331, .ofNat 2), (12462055755198405527, .negSucc 1), (14903218558969176847, .negSucc 1), (15197845614500692699, .ofNat 2), (29082394957184511611, .negSucc 3), (35466840892190092207, .ofNat 4), (804972760109766314753, .ofNat 2), (1049371269443018873101, .ofNat 2)] 0)) (.nil)) (.nil)) (.nil)))) (.node (.node (.node (.node (.node (.leaf (.trans [(14587, .ofNat 1), (29479, .ofNat 1), (470557, .negSucc 0), (583799, .ofNat 1)] 0)) (.nil)) (.nil)) (.nil)) (.node (.node (.node (.leaf (.trans [(765238, .negSucc 0), (1111647, .negSucc 0), (57716614, .ofNat 1), (70387118, .negSucc 0), (89394951, .negSucc 0), (109019787, .ofNat 1), (291100729, .ofNat 1), (1095210274, .negSucc 0), (1427728058, .negSucc 0), (1590991581, .negSucc 0), (2074033977, .negSucc 0), (299097097283, .negSucc 0), (364757757271, .ofNat 1), (374543278027, .ofNat 1), (445599238367, .negSucc 0), (488258702159, .ofNat 1), (543421451779, .ofNat 1)] 0)) (.nil)) (.nil)) (.nil))) (.nil))

def dynTable_93 : JTree := .node (.node (.node (.node (.node (.node (.leaf (.trans [(697, .ofNat 1), (23693, .negSucc 0)] 0)) (.nil)) (.nil)) (.nil)) (.node (.node (.node (.leaf (.atom 313)) (.nil)) (.nil)) (.nil))) (.node (.node (.node (.node (.leaf (.trans [(5369603, .negSucc 0), (7098191, .ofNat 1), (7498559, .ofNat 1), (8080763, .ofNat 1), (9005903, .negSucc 0), (13553063, .ofNat 1)] 0)) (.nil)) (.nil)) (.nil)) (.node (.node (.node (.leaf (.trans [(78066762863, .negSucc 0), (78898735469, .ofNat 1), (117483361223, .ofNat 1), (118735404149, .negSucc 0), (130933645163, .negSucc 0), (132329030369, .ofNat 1), (197043199523, .ofNat 1), (199143127049, .negSucc 0), (2474346314581, .negSucc 0), (2500715902303, .ofNat 1), (2666459802217, .ofNat 1), (2694876780571, .negSucc 0), (2816859415033, .ofNat 1), (2846879231179, .negSucc 0), (3723665631901, .ofNat 1), (3763349457463, .negSucc 0), (4472188787917, .ofNat 1), (4519849769671, .negSucc 0), (4724439154333, .ofNat 1), (4774788417079, .negSucc 0), (84514135627379, .ofNat 1), (85414819133177, .negSucc 0), (89281090398371, .ofNat 1), (90232576264073, .negSucc 0)] 0)) (.nil)) (.nil)) (.nil)))) (.node (.node (.node (.node (.node (.leaf (.trans [(391837, .ofNat 1), (10663097, .ofNat 1)] 0)) (.nil)) (.nil)) (.nil)) (.nil)) (.node (.nil) (.node (.node (.node (.leaf (.trans [(1881176021, .ofNat 1), (2002949353, .ofNat 1), (2900039707, .ofNat 1), (2999849869, .ofNat 1), (3088570013, .negSucc 0), (3155110121, .ofNat 1), (3166200139, .ofNat 1), (3199470193, .ofNat 1), (3288190337, .negSucc 0), (3332550409, .ofNat 1), (3365820463, .negSucc 0), (3399090517, .ofNat 1), (3432360571, .ofNat 1), (49184516497, .negSucc 0), (49701341539, .ofNat 1), (51079541651, .negSucc 0), (51596366693, .negSucc 1), (51768641707, .ofNat 1), (54804115109, .negSucc 1), (56690298803, .ofNat 2), (58995634429, .negSucc 1), (59624362327, .ofNat 2), (59833938293, .ofNat 2), (60462666191, .negSucc 1), (62768001817, .ofNat 2), (62977577783, .negSucc 1), (64235033579, .negSucc 1), (64863761477, .ofNat 2), (84579738767, .ofNat 2), (86799739391, .ofNat 2), (88126109833, .ofNat 1), (92186694073, .ofNat 1), (93911371321, .ofNat 1), (94898180827, .negSucc 0), (97529672843, .negSucc 0), (98845418851, .negSucc 0), (138105733033, .ofNat 1), (149407759937, .negSucc 1), (151370974961, .negSucc 0), (164038567409, .negSucc 0), (165570441383, .negSucc 0), (188340340603, .negSucc 1), (334025174803, .ofNat 2), (337535071561, .negSucc 1), (350404693007, .ofNat 2), (351574658593, .negSucc 1), (984814114643, .negSucc 1), (994453404509, .ofNat 2), (1059560207737, .negSucc 1), (1277350740859, .ofNat 1), (1360390750781, .negSucc 0), (1409237815441, .ofNat 1), (1448315467169, .negSucc 0), (1462969586567, .negSucc 0), (1467854293033, .ofNat 1), (1482508412431, .negSucc 0), (1497162531829, .ofNat 1), (1534121005003, .negSucc 1), (1633853536877, .ofNat 2), (1692519732097, .negSucc 1), (1739452688273, .ofNat 2), (1757052546839, .ofNat 2), (1762919166361, .negSucc 1), (1774710046727, .ofNat 2), (1780519024927, .ofNat 2), (1793358488549, .negSucc 1), (1798118883493, .negSucc 1), (1861736108563, .ofNat 2), (1867952255837, .negSucc 1), (2023090988641, .negSucc 3), (2398184085173, .ofNat 1), (2508685144613, .ofNat 1), (2613872610787, .ofNat 2), (3246240437777, .negSucc 0), (3278328481643, .ofNat 1), (3310416525509, .negSucc 0), (3819029849951, .ofNat 2), (3958886235949, .ofNat 1), (3998018554591, .negSucc 0), (4037150873233, .ofNat 1), (4096297835587, .ofNat 1), (4694604207677, .negSucc 0), (4754692925533, .negSucc 0), (4801691537647, .negSucc 0), (4848690149761, .ofNat 1), (5638303321709, .ofNat 1), (6198269554361, .negSucc 0), (6259537457699, .negSucc 0), (6320805361037, .ofNat 1), (6380830030709, .ofNat 2), (6447879032783, .negSucc 1), (6559806995767, .negSucc 1), (6693725373721, .ofNat 2), (6716075041079, .negSucc 1), (6869594522837, .negSucc 0), (7999322003507, .ofNat 1), (8078392731713, .negSucc 0), (9470989978657, .ofNat 2), (9570510013459, .negSucc 1), (9935416807733, .ofNat 2), (9968590152667, .negSucc 1), (11716421031703, .ofNat 2), (11832234089677, .negSucc 1), (18812748114229, .negSucc 1), (18996885942427, .ofNat 2), (19939310778041, .ofNat 2), (24316579288117, .negSucc 1), (28991376892661, .ofNat 2), (30876093554899, .negSucc 1), (31984750415039, .ofNat 2), (32871675903151, .negSucc 1), (33204272961193, .negSucc 1), (33315138647207, .ofNat 2), (33647735705249, .negSucc 1), (33980332763291, .ofNat 2), (38231790809567, .ofNat 4), (44742681807743, .negSucc 1), (45917062137839, .negSucc 3), (46618712101657, .negSucc 1), (54430358434267, .ofNat 4), (55355224659773, .ofNat 2), (58953843471307, .negSucc 1), (59325730658573, .ofNat 2), (61070678066327, .ofNat 2), (62764145742343, .negSucc 1), (63399196120849, .negSucc 1), (63610879580351, .ofNat 2), (64245929958857, .negSucc 1), (64880980337363, .ofNat 2), (75856747648103, .ofNat 1), (76653841318661, .negSucc 0), (79036705006673, .ofNat 2), (79576518110707, .ofNat 1), (79842216000893, .negSucc 0), (80075245754369, .ofNat 2), (82679172231457, .ofNat 2), (83547955127059, .negSucc 1), (86733492410933, .ofNat 2), (87023086709467, .negSucc 1), (89012304979201, .negSucc 3), (90740983687889, .negSucc 1), (91629149923007, .ofNat 2), (96533275518067, .negSucc 3), (97547635681129, .ofNat 4), (100580850270533, .negSucc 3), (101266956279023, .negSucc 3), (101605076333377, .ofNat 4), (101637741867071, .ofNat 4), (105513011054377, .negSucc 3), (105865308253223, .ofNat 4), (118290935994013, .negSucc 1), (119448759184819, .ofNat 2), (129819618701419, .negSucc 1), (152893159743017, .ofNat 4), (157865015190601, .negSucc 1), (159523841970187, .ofNat 2), (165606206828669, .negSucc 1), (166159149088531, .ofNat 2), (194760697971443, .negSucc 0), (211059391610867, .negSucc 0), (213832707861251, .negSucc 1), (217291533784007, .negSucc 0), (219574807343909, .ofNat 1), (221413550075561, .negSucc 1), (223602151888499, .ofNat 2), (227946810396883, .negSucc 0), (228707901583517, .ofNat 1), (253892170015831, .negSucc 0), (275139324804439, .negSucc 0), (278754650115367, .negSucc 1), (284611279131827, .ofNat 4), (287397033903101, .negSucc 3), (288351065736131, .ofNat 4), (291173425270253, .negSucc 3), (346658323721029, .ofNat 2), (350084929886311, .negSucc 1), (520088412340697, .ofNat 2), (526922363839241, .ofNat 2), (557891711616467, .ofNat 1), (612752910628753, .negSucc 0), (619930104311081, .negSucc 0), (727273719859639, .ofNat 1), (801859019319791, .negSucc 0), (824981232256549, .negSucc 3), (861001397445569, .ofNat 1), (943026832844147, .ofNat 2), (954072535132219, .ofNat 2), (1015702936642601, .negSucc 0), (1234061166026509, .ofNat 4), (1283755839863177, .negSucc 1), (1296321149878151, .ofNat 2), (1542905280725593, .ofNat 2), (1614436667819113, .ofNat 2), (1614913710251123, .ofNat 2), (1673518114014709, .negSucc 1), (1682128902036287, .ofNat 4), (1688072529523829, .ofNat 2), (1689898389192667, .ofNat 2), (2020266790624079, .negSucc 3), (2249956061790317, .ofNat 2), (2273598332141879, .negSucc 1), (2344295193048283, .ofNat 1), (2360286656764273, .ofNat 2), (2368167413548127, .negSucc 1), (2368928767756321, .negSucc 0), (2406741329127007, .negSucc 1), (2434931564314439, .negSucc 1), (2459251875019127, .ofNat 1), (2467463066588473, .negSucc 0), (2737116103831873, .negSucc 3), (2765877393889651, .ofNat 4), (2815540307405611, .negSucc 1), (2845125669655057, .ofNat 2), (2851857544316743, .negSucc 1), (2871335457434837, .negSucc 3), (2880922554120763, .ofNat 4), (2889330896301079, .negSucc 3), (2953605331236359, .negSucc 1), (2963467118652841, .ofNat 2), (2983287588548087, .negSucc 3), (3014635619250869, .ofNat 4), (3045034197396197, .ofNat 2), (3080700776575069, .ofNat 2), (3095748787167343, .negSucc 1), (3129578398494403, .negSucc 3), (3140027742061997, .ofNat 4), (3445839089658293, .negSucc 1), (3470137900760743, .ofNat 4), (3486200308863661, .negSucc 1), (3901947212478559, .ofNat 2), (3917085690354157, .ofNat 2), (3947650840150343, .ofNat 2), (4106312820809209, .negSucc 1), (4149461466912283, .ofNat 2), (4231641339855203, .negSucc 1), (4273469755076177, .ofNat 2), (4307673169290221, .negSucc 1), (4322056051324579, .ofNat 2), (4432321850912357, .negSucc 1), (4954344222209453, .ofNat 2), (5106155370237473, .ofNat 2), (5160611783672311, .ofNat 2), (5211622773296749, .negSucc 1), (5655307797821417, .negSucc 1), (5762460814853849, .negSucc 3), (6197986725770887, .negSucc 3), (6259251833439133, .ofNat 4), (6326751818096393, .negSucc 1), (6633597267884077, .negSucc 1), (6698526441794851, .ofNat 2), (6720762605380381, .negSucc 0), (6786544947358003, .ofNat 1), (7027491414265813, .ofNat 4), (7673891865941069, .ofNat 2), (7715660984150341, .ofNat 2), (8071755668000077, .ofNat 2), (8079763093506779, .negSucc 3), (8150761433102851, .negSucc 1), (8159628956045561, .ofNat 4), (10542876881301229, .ofNat 2), (13403840733167411, .negSucc 0), (13535036564160893, .ofNat 1), (13743809287414793, .ofNat 2), (14716416554095427, .negSucc 1), (14860459783009901, .ofNat 2), (15388058923532171, .ofNat 2), (15590257714823963, .ofNat 4), (16346380252636807, .ofNat 1), (16506377449236841, .negSucc 0), (17254213551332509, .ofNat 2), (17456312685169493, .ofNat 2), (17947105291558999, .ofNat 2), (18107902806148501, .negSucc 1), (18122770269942937, .negSucc 1), (18320001228475277, .negSucc 1), (19031151371959723, .ofNat 2), (20306803372881139, .negSucc 0), (20544657585155003, .negSucc 0), (21554793312497383, .ofNat 2), (21765770082277129, .negSucc 1), (22834688152264927, .ofNat 4), (23291874981268549, .negSucc 3), (24701167039452091, .negSucc 1), (24990492568464707, .negSucc 1), (25736870215675709, .negSucc 0), (26021407208798633, .negSucc 0), (26038326967835893, .negSucc 0), (26122363084383659, .negSucc 0), (26326196751507841, .negSucc 0), (26554237566711191, .negSucc 1), (26865268167785407, .negSucc 1), (26922747247837229, .negSucc 0), (27238094214136933, .negSucc 0), (28099063647610811, .ofNat 2), (28374095265695093, .negSucc 1), (28420960290887897, .negSucc 1), (28753855872625969, .negSucc 1), (28976278306554479, .ofNat 2), (29959926665766901, .negSucc 1), (31772674104424459, .negSucc 1), (32094633294560443, .negSucc 1), (32324372899323077, .negSucc 1), (33039659800210411, .negSucc 0), (33104880774437741, .negSucc 0), (33679711925523523, .negSucc 0), (34052061938568151, .negSucc 0), (34630253418192221, .negSucc 0), (34749332927980777, .negSucc 1), (35231571047770963, .negSucc 0), (35793578061641369, .ofNat 2), (36143923034512247, .negSucc 1), (36263904972659657, .ofNat 1), (36457285222813199, .ofNat 2), (36557378346330953, .negSucc 3), (36618853471576391, .negSucc 0), (36673970424731851, .ofNat 2), (36998998227609829, .ofNat 2), (37312324848167143, .ofNat 2), (37432368631447133, .ofNat 2), (37974081636243763, .ofNat 2), (38395280602032659, .ofNat 1), (38771090852623517, .negSucc 0), (41578268918214773, .negSucc 1), (43321617526468627, .negSucc 0), (44016465052998847, .negSucc 1), (45317746457073187, .negSucc 0), (45975598570075721, .negSucc 1), (46514112169725217, .negSucc 1), (46824180406327783, .negSucc 0), (47023108926592697, .negSucc 1), (47282492123192329, .ofNat 1), (51066102749057443, .ofNat 2), (51602699275317241, .negSucc 1), (53114898828560053, .ofNat 2), (53207269793111957, .ofNat 2), (53570219871603167, .ofNat 2), (53634783645805339, .negSucc 1), (53749085380356433, .negSucc 1), (53766365447680559, .negSucc 1), (55004026748272919, .ofNat 2), (55648290604768063, .ofNat 2), (55816382847765433, .ofNat 2), (56002748065954967, .negSucc 1), (58168806176782291, .ofNat 1), (58850139192030107, .ofNat 1), (59137598955942329, .negSucc 1), (68241033098253733, .negSucc 1), (69040342417120541, .negSucc 1), (70750706374021031, .ofNat 2), (71979217367980393, .ofNat 2), (73942287593806939, .ofNat 2), (74538279835669577, .ofNat 1), (74827467781772171, .ofNat 1), (74913887796997867, .ofNat 1), (75411348999191329, .ofNat 1), (81183112128492523, .ofNat 1), (87777233428568917, .negSucc 1), (92585593711895257, .ofNat 2), (94642053294899659, .ofNat 1), (97542077620625719, .ofNat 1), (101088037536835571, .negSucc 1), (101592290143227101, .ofNat 2), (102205628215126727, .negSucc 1), (102272084828628667, .negSucc 1), (102659809829495687, .negSucc 1), (103402765880896879, .negSucc 1), (106574048679147169, .ofNat 2), (106929888574570031, .negSucc 1), (108032449501819951, .negSucc 1), (117127767989971769, .ofNat 4), (118285538349015971, .negSucc 3), (127897637989616641, .ofNat 2), (129395706955820057, .ofNat 2), (130027754048374979, .negSucc 3), (131465291163393623, .negSucc 1), (150559366660736483, .negSucc 1), (152033030934740429, .ofNat 2), (152537713774413299, .negSucc 1), (152689035795327973, .ofNat 4), (154030741967963837, .ofNat 2), (154198317862497607, .negSucc 3), (164512468746087409, .ofNat 2), (167252399342541971, .negSucc 1), (183382253248424341, .negSucc 3), (185194927909858519, .ofNat 4), (197631248336120801, .negSucc 1), (223640082186781217, .ofNat 4), (225850692554360603, .negSucc 3), (241017153173986237, .ofNat 2), (247483028972163769, .ofNat 2), (275126770128228713, .negSucc 3), (278741930470958489, .negSucc 3), (291250720734422507, .negSucc 1), (294101461883535941, .ofNat 2), (322621575719791973, .ofNat 2), (324146289722610337, .ofNat 2), (327943025180561849, .ofNat 2), (358658258184846421, .negSucc 3), (363371020636054213, .negSucc 3), (371005437720458153, .ofNat 4), (374636812314785639, .negSucc 3), (402153787519408259, .negSucc 0), (406864227197527243, .negSucc 0), (407336275774933721, .ofNat 4), (411323254004378423, .negSucc 3), (415365355403869139, .ofNat 1), (420230542582831003, .ofNat 1), (424183421220169439, .ofNat 2), (436415071863714421, .ofNat 8), (443569889889169973, .negSucc 0), (455469739248706001, .negSucc 1), (482993866085790803, .ofNat 2), (483646734950250901, .ofNat 4), (488380634476680763, .negSucc 3), (488651188089723931, .ofNat 2), (492056220907892131, .negSucc 1), (498861194574553763, .negSucc 1), (504704371084943851, .negSucc 1), (531008011677124357, .ofNat 4), (532221089065442177, .negSucc 7), (532735343158938341, .ofNat 2), (536205479980652491, .negSucc 3), (537091121728609639, .negSucc 1), (537306853483935929, .ofNat 2), (543382086551199503, .negSucc 1), (543554262682818733, .ofNat 2), (546568293139944707, .negSucc 0), (552970264362667339, .negSucc 0), (571752504736411667, .negSucc 0), (578449459403895259, .negSucc 0), (590594579496909607, .negSucc 3), (595725699372256933, .negSucc 1), (597512231965394639, .negSucc 3), (602703452805606941, .negSucc 1), (618914746845610441, .ofNat 4), (626164114305002657, .ofNat 4), (652818356828023261, .negSucc 3), (675366630564127729, .negSucc 0), (679587661732005241, .ofNat 1), (690850806676760311, .negSucc 3), (695548244117705023, .ofNat 2), (700379860978317529, .negSucc 0), (703041124575634643, .negSucc 0), (703695222086872871, .ofNat 2), (708583431824330033, .negSucc 0), (711304476015792851, .ofNat 1), (724712110120428377, .ofNat 4), (725582954149583533, .ofNat 2), (732651243782928649, .negSucc 0), (732684908023804579, .negSucc 1), (732724250017992149, .ofNat 4), (733200685348778929, .ofNat 4), (735435130346835683, .negSucc 0), (741232810327970273, .negSucc 0), (741306671687309773, .ofNat 4), (743527990670711573, .ofNat 1), (749884271432801669, .negSucc 3), (763370813390235551, .negSucc 1), (766271426429125717, .negSucc 1), (772312199198613127, .negSucc 1), (772862245313591129, .negSucc 3), (809922504389145527, .ofNat 4), (811127359843053793, .ofNat 2), (816196893503838697, .negSucc 1), (852927099712683767, .negSucc 0), (854289352722844067, .negSucc 1), (862917461056316959, .negSucc 0), (869659617588662393, .negSucc 3), (880014883047500933, .negSucc 1), (884869874946498521, .negSucc 1), (888629168826767239, .negSucc 1), (890322524430194941, .negSucc 1), (892227397269507527, .ofNat 1), (892990368118105541, .negSucc 1), (893530917768160823, .ofNat 2), (894671399491362127, .ofNat 2), (900886222769326921, .negSucc 0), (902678084206778479, .ofNat 1), (916529156751185063, .negSucc 0), (932184364309974473, .ofNat 4), (942396331466311801, .negSucc 0), (942565333806501469, .ofNat 4), (958760044469443703, .negSucc 0), (981910370305133999, .negSucc 1), (990731862657889787, .negSucc 1), (995847496911246677, .ofNat 4), (998960202693033697, .negSucc 1), (1000429075016694581, .ofNat 2), (1003750059827472011, .negSucc 1), (1007511889261598029, .ofNat 4), (1013574693365750693, .ofNat 2), (1025916833683336097, .ofNat 4), (1085412297075319363, .ofNat 2), (1097105036807368583, .negSucc 0), (1098125764683815051, .ofNat 2), (1115332059752107723, .negSucc 1), (1127662744406303551, .negSucc 1), (1128395978460770771, .negSucc 1), (1132037764512351373, .negSucc 1), (1140871092803449127, .negSucc 1), (1147656314181652823, .ofNat 1), (1178915237411564087, .negSucc 0), (1233236081057117447, .negSucc 0), (1280941014913671173, .ofNat 4), (1284944833285075153, .negSucc 1), (1317968416817905687, .ofNat 1), (1396146632619744787, .ofNat 2), (1431805480218531917, .negSucc 1), (1434631893955494427, .negSucc 1), (1459542755547347381, .negSucc 1), (1475678901998629697, .negSucc 1), (1565644012119142883, .ofNat 1), (1571531250259650079, .ofNat 2), (1583982448571490091, .ofNat 1), (1586913285335600977, .negSucc 1), (1607301469120054619, .negSucc 0), (1634383953570389513, .ofNat 2), (1650421270066571903, .negSucc 0), (1655859726542200889, .ofNat 4), (1877384021548973669, .negSucc 1), (1931068776600145813, .negSucc 1), (1952417934388286881, .negSucc 1), (1953687444554466701, .negSucc 1), (1975286665684196537, .negSucc 1), (2006237005169230201, .ofNat 1), (2013860190538937267, .ofNat 1), (2029736120895956177, .ofNat 1), (2151507167831809651, .negSucc 0), (2217754749256968941, .negSucc 3), (2393415342895236481, .ofNat 1), (2399135183837692799, .negSucc 1), (2434929163558972637, .negSucc 1), (2443208329498536023, .ofNat 1), (2471825703782559871, .ofNat 1), (2483899599324640837, .negSucc 3), (2511360643239009169, .negSucc 1), (2580587161718671849, .ofNat 1), (2625396321393802247, .ofNat 1), (2866262373900787649, .negSucc 1), (2899834993214413273, .negSucc 1), (2997145864508025689, .negSucc 1), (3127538791605658483, .negSucc 1), (3142655644504081127, .ofNat 1), (3194996104896705013, .negSucc 1), (3246465482418031949, .ofNat 2), (3377000834874334103, .ofNat 1), (3505579828991047949, .ofNat 2), (3686822576369402801, .negSucc 3), (3775318447579184503, .negSucc 0), (4011929892689491681, .negSucc 0), (4604112518751236411, .ofNat 1), (4692511189957415221, .ofNat 4), (4727629120433066207, .ofNat 1), (4742294645946329249, .negSucc 1), (5876180475272448749, .negSucc 1), (6162988882863739219, .ofNat 1), (7371984523504525163, .negSucc 1), (8140283170548518459, .negSucc 3), (8247246331141876427, .negSucc 7), (9127478968654897261, .negSucc 1), (9234389410454661797, .negSucc 1), (9399672084650491493, .negSucc 1), (9427335172303242781, .ofNat 2), (9537757839035930837, .ofNat 2), (9610199426735081071, .negSucc 1), (9868016578214458627, .negSucc 1), (9927316111766582383, .ofNat 4), (10057760850024055999, .ofNat 8), (10067479075766693467, .negSucc 1), (10840447304718651479, .ofNat 2), (11696072625113346167, .negSucc 3), (11833069083387001759, .negSucc 3), (12034338107858117399, .ofNat 2), (12079550032548146383, .negSucc 7), (12336773281591217507, .ofNat 4), (13066917363870156139, .ofNat 2), (13219970568717830003, .ofNat 2), (13614804344092450061, .ofNat 2), (13774274965985187397, .ofNat 2), (14047191672790220039, .ofNat 4), (14131725336807144043, .ofNat 2), (14211726860758480303, .ofNat 4), (15305682212823677449, .negSucc 3), (15328451224167319391, .negSucc 1), (15424253811153969239, .ofNat 2), (15747033166969543811, .negSucc 7), (15896163730250873591, .negSucc 3), (16082355984777970207, .negSucc 3), (16144114134026182429, .ofNat 2), (16211539282403690273, .negSucc 1), (16401425540469912121, .negSucc 1), (16434576972493147591, .ofNat 4), (16807744601240538811, .ofNat 2), (16875474776239999867, .ofNat 2), (16891278126298893127, .negSucc 1), (17089126186343389679, .negSucc 1), (17099593263741907733, .ofNat 2), (17195471699531988043, .negSucc 1), (17325837181548595729, .negSucc 1), (17427721724218867573, .negSucc 1), (17512481929677564989, .ofNat 2), (17528775245168491433, .negSucc 1), (17631853164619674221, .negSucc 1), (17816567608601943667, .ofNat 2), (18000257743464736933, .ofNat 2), (18211095315862566941, .ofNat 2), (18382397118901831033, .ofNat 4), (18934802794608284201, .negSucc 3), (19120135285256978663, .ofNat 4), (19183605730536958553, .negSucc 1), (19222528411118800531, .negSucc 1), (19371373486463910839, .ofNat 2), (19387480836807163039, .negSucc 3), (19721658565395328837, .ofNat 4), (19738219844680418647, .negSucc 3), (19952658958547836349, .ofNat 4), (20286726069831494359, .ofNat 4), (20446954142092077959, .negSucc 3), (20524345116037426943, .ofNat 4), (20801993819346333577, .negSucc 3), (20852616134622639377, .negSucc 1), (20970386370562531391, .ofNat 2), (21495390400633480403, .ofNat 2), (21726952182336747223, .negSucc 1), (21747166569308543131, .ofNat 2), (21994904257735614917, .ofNat 2), (22285917806087358721, .negSucc 1), (22672889137377220463, .negSucc 1), (22917135671501903683, .ofNat 2), (22956981485590793671, .negSucc 0), (23091552089504472037, .ofNat 4), (23225877315583072367, .negSucc 0), (23284710013036390063, .ofNat 4), (23317570543887876331, .negSucc 3), (23394974629329106261, .ofNat 2), (23555447507980908251, .ofNat 4), (23623962961753208443, .negSucc 1), (25021692664264877249, .negSucc 1), (25314772519776032473, .negSucc 1), (25367620460856417013, .ofNat 4), (25995679886348317973, .ofNat 4), (26094456793600351591, .ofNat 4), (26300168084138635021, .ofNat 4), (26757236582737729273, .negSucc 3), (27649140336401315747, .ofNat 2), (28097781480308268037, .negSucc 3), (28372800548631024331, .ofNat 4), (29163736127004098687, .negSucc 1), (29214442848145480019, .ofNat 4), (29267663427705284663, .negSucc 1), (29450585878931666927, .ofNat 2), (29529159087827521879, .negSucc 1), (29537426554171624103, .ofNat 2), (29556632515473684763, .ofNat 4), (29587089601836992221, .ofNat 2), (29883399339579198031, .ofNat 2), (29933644092048845717, .ofNat 2), (30439384617135630181, .ofNat 4), (30775910810837173297, .ofNat 4), (30795922065066940637, .ofNat 4), (30825064574572210597, .ofNat 2), (31136390000422381769, .ofNat 4), (32184960544292993201, .negSucc 3), (32221501618833815731, .ofNat 2), (33437783074487796677, .ofNat 4), (34018394721012929131, .ofNat 4), (36480099929366951701, .negSucc 3), (36628574383688523329, .negSucc 3), (36962417378999209249, .negSucc 1), (36987092240625115727, .ofNat 4), (37395359310231996473, .negSucc 1), (37578020919980368931, .ofNat 8), (37913289084227673287, .ofNat 2), (37982834850545540071, .negSucc 0), (37993469146220757047, .ofNat 2), (38057349845702850829, .ofNat 2), (38093518156237082263, .negSucc 1), (38357368604979973999, .ofNat 2), (38594066234816641639, .negSucc 1), (39115470137123870731, .negSucc 1), (39153641843512430869, .ofNat 8), (39586509532031115553, .ofNat 4), (39629446644611871643, .negSucc 1), (41398945272679058849, .negSucc 1), (43757259213708479419, .ofNat 4), (45338165701568027713, .negSucc 1), (46352161380117686263, .ofNat 4), (47544103467619261201, .negSucc 1), (47555856134893248017, .negSucc 3), (47775634248982554857, .ofNat 2), (48335231721884253889, .ofNat 2), (48335943409994629619, .ofNat 4), (48767192917485695063, .ofNat 2), (48831658521548469629, .negSucc 3), (49613983511023388089, .ofNat 2), (50362636725154160581, .ofNat 4), (57115430769138911489, .ofNat 2), (59103327285242329421, .negSucc 1), (59551651981731597673, .ofNat 4), (61452953000182331993, .ofNat 4), (63817589128493304361, .ofNat 2), (65760237193346402599, .ofNat 1), (66247437925791795763, .negSucc 1), (66530488873502729423, .ofNat 1), (69653957267282022493, .negSucc 1), (71522595372955329241, .negSucc 1), (75667220990469727699, .negSucc 3), (76971728869378467209, .negSucc 0), (79045846105602323657, .ofNat 2), (83413165159172189321, .negSucc 0), (84509212507107337913, .negSucc 1), (84586229550884935351, .ofNat 2), (88677724923542486027, .negSucc 3), (93237635383019880197, .negSucc 1), (93869300139348936133, .ofNat 1), (96387574162462693921, .ofNat 1), (101724822229040353477, .ofNat 1), (103061484390349718581, .ofNat 2), (103720959147850919207, .ofNat 2), (104453839883853711649, .ofNat 1), (105826361283417836497, .ofNat 2), (108801770416347024199, .ofNat 1), (111046366155182305363, .ofNat 2), (114673609578810587741, .ofNat 1), (124270155753265147229, .negSucc 0), (125651892920704867757, .ofNat 1), (129884202796469824783, .negSucc 3), (136167164889121013933, .ofNat 1), (137956398754875573149, .ofNat 2), (139847858866247267017, .negSucc 0), (142204247842380825859, .ofNat 4), (144072808859281828627, .ofNat 4), (151551130786768828873, .ofNat 1), (173860846066241233607, .negSucc 1), (205545085223833971611, .ofNat 2), (207083348580126120337, .ofNat 2), (208245943596859210283, .ofNat 2), (220485395730675502121, .ofNat 1), (257393103114041954659, .negSucc 1), (260775243421349575027, .negSucc 1), (268888461935271407077, .negSucc 0), (269956111745204942429, .ofNat 2), (276102053895597094849, .negSucc 0), (305012993883156268207, .ofNat 4), (328482373453711874429, .negSucc 0), (359929648740833648333, .negSucc 0), (367945021138265957167, .negSucc 1), (372254772483955748759, .negSucc 1), (383372706253706611433, .negSucc 3), (387863162549504053441, .negSucc 3), (400593970762153255273, .ofNat 1), (408285349842129760103, .ofNat 4), (471489630823682517149, .negSucc 1), (473281170330930565183, .negSucc 1), (477012203366273234773, .negSucc 1), (491258871176603947051, .negSucc 3), (493125528719976496217, .negSucc 3), (497013001439287448627, .negSucc 3), (524097155346023697323, .ofNat 4), (529226980683831433349, .negSucc 3), (530983781648732693819, .ofNat 4), (536181012790482116597, .negSucc 3), (590010659608864985467, .ofNat 4), (596921472605747737859, .ofNat 4), (606468769667838148301, .negSucc 1), (616999456769267903203, .negSucc 1), (631897593740084997499, .negSucc 3), (641420586625628498809, .negSucc 1), (642869825407459674197, .negSucc 3), (680917667252568848269, .negSucc 1), (683218767728162063791, .ofNat 4), (688893276825073315013, .negSucc 1), (689906063986512752833, .negSucc 3), (692196248884751757823, .ofNat 4), (698971416084276244849, .negSucc 3), (709468083092998111931, .negSucc 0), (717778104564072760387, .negSucc 0), (731999806758789625169, .negSucc 3), (740573743001937966313, .negSucc 3), (758920271902456551883, .ofNat 4), (772098117684546764549, .ofNat 4), (793635484154505632947, .negSucc 1), (826912081587726459653, .negSucc 3), (828349826057327630561, .ofNat 4), (831340031387354891791, .negSucc 3), (836162872321839951653, .negSucc 1), (838052313038965435897, .ofNat 4), (839477127942532916833, .ofNat 4), (852083812093961116427, .ofNat 2), (862064295983787893779, .ofNat 2), (864589111438736052377, .negSucc 1), (875852347340779413181, .negSucc 3), (875949795340824270281, .negSucc 3), (902850175625792803159, .ofNat 4), (912576242069920036619, .negSucc 1), (913425287492566364543, .ofNat 4), (941558399548582281281, .negSucc 3), (993136147399407070901, .ofNat 4), (1013843758876524746867, .ofNat 4), (1023767188816588610621, .negSucc 3), (1065491724570757409489, .ofNat 8), (1096020330864399288923, .ofNat 4), (1126593377195793797869, .negSucc 1), (1161320206023634082791, .ofNat 8), (1173830673199280842331, .negSucc 0), (1242718022115446620313, .ofNat 2), (1257274016517970153201, .ofNat 2), (1266116716391580098449, .negSucc 1), (1370523152678489152961, .ofNat 4), (1409791558785817773227, .ofNat 2), (1411391689476867233021, .ofNat 2), (1429937348488809484013, .ofNat 4), (1493785632797795728759, .ofNat 4), (1544066786704200676013, .ofNat 2), (1585490162324745589481, .ofNat 4), (1598486203397005891337, .ofNat 4), (1672511032894338544433, .negSucc 3), (1717380240199138901021, .negSucc 3), (1854451729536264365021, .negSucc 3), (2056104520075273979513, .ofNat 2), (2066862267614204088277, .ofNat 4), (2122310913232741099249, .ofNat 2), (2130503527292807772107, .ofNat 4), (2339133834978176171099, .ofNat 2), (2417483500036589286457, .negSucc 3), (2482338419487472651909, .negSucc 7), (2588220935524746985613, .negSucc 1), (2777347634326438429519, .ofNat 4), (2851856791103978543203, .ofNat 4), (3027285128826133790033, .ofNat 8), (3049320378833009319583, .ofNat 2), (3108499471419125388221, .ofNat 4), (3131125871009546931571, .ofNat 2), (3132889271063690277431, .negSucc 1), (3174055374404467956743, .negSucc 3), (3314435439263795014109, .negSucc 1), (3357987055680401980877, .negSucc 0), (3477923713170995928311, .negSucc 3), (3818500616747922166727, .negSucc 1), (4033002300670475386109, .ofNat 2), (4052273813515425800857, .ofNat 4), (4084068622337264628427, .negSucc 1), (4137733203626752995931, .negSucc 3), (4166669503976332066327, .ofNat 2), (4969491321164744544427, .ofNat 2), (5081376707985391422299, .negSucc 1), (5217697091181801896063, .negSucc 1), (5689290542378525894753, .negSucc 1), (5764047708093401294609, .negSucc 3), (6060441661092571571999, .negSucc 1), (6697145297520951232387, .negSucc 0), (6801846834414596576371, .negSucc 1), (7352965607666527847059, .negSucc 1), (7615590240520607453737, .negSucc 1), (7715658946343666166361, .negSucc 3), (8167366788352350362519, .ofNat 1), (8967159055393748500583, .ofNat 2), (9024538541809182041101, .ofNat 4), (10769717840247402974711, .ofNat 2), (11300946344297169214469, .negSucc 3), (14039521635517800930187, .ofNat 2), (15454440266668958930051, .negSucc 1), (15635458600685579239627, .negSucc 1), (16102434462464748365749, .negSucc 1), (16291042772420411596973, .negSucc 1), (17884037700015589588873, .ofNat 2), (18119033603289005590969, .ofNat 1), (19183962123230699336803, .ofNat 1), (19878773066669615164499, .negSucc 3), (20712276535218075929701, .negSucc 3), (23395409260761031051511, .negSucc 0), (25569714063887159068451, .negSucc 1), (26538527426529158448101, .ofNat 2), (26641834827606550947349, .negSucc 1), (30745482718506147535357, .negSucc 1), (31105605502910319102389, .negSucc 1), (35044894662743859958627, .ofNat 4), (39547370415255422376493, .negSucc 3), (45684906896384589732359, .ofNat 4), (46910516484553975108283, .ofNat 8), (50869082820418008504157, .negSucc 1), (54868387389213136260503, .negSucc 3), (57208762441248646764271, .negSucc 7), (58743527696091439537027, .negSucc 3), (66913621399104544648411, .ofNat 4), (68708743279332537310207, .ofNat 8), (75226047108619456879411, .negSucc 1), (76214515886560087343683, .negSucc 1), (76578703385693262005159, .negSucc 3), (89569467104745216287219, .ofNat 8), (91972387569041612578103, .ofNat 4), (108733350083408170982219, .negSucc 3), (110162104162738522239707, .negSucc 3), (112163047135160512559611, .negSucc 3), (132603536701861283357503, .ofNat 4), (134345944563396729545359, .ofNat 4), (136160951547328194014611, .ofNat 4), (137950103769893925189283, .ofNat 4), (145521603366977546399419, .negSucc 1), (161351873764189665881503, .negSucc 7), (177500901464424152698487, .ofNat 4), (179833259814990680663111, .ofNat 4), (185370549534806636155801, .ofNat 4), (203523025834338876403657, .ofNat 4), (210340062408881001432851, .negSucc 7), (215982950066486643094487, .negSucc 7), (241651070101011746027717, .ofNat 4), (263397596267825122120219, .ofNat 8), (265314836183452816770869, .ofNat 4), (362532990810608680199261, .ofNat 2), (442119705828190628525257, .negSucc 1), (495012986739327654815179, .negSucc 1), (501517447639160045450587, .negSucc 1), (785205772890183192640943, .ofNat 2), (3009634696918240198324337, .ofNat 4), (3049181237581409284848161, .ofNat 8), (3923392615216187848810429, .ofNat 4), (3974945916935529126673837, .ofNat 8), (4028647237235401343026873, .ofNat 4), (4081583582615799402004969, .ofNat 8), (4773980888617057299742429, .negSucc 7), (4913054471068974838146101, .negSucc 3), (4977611910089545813849253, .negSucc 7), (5822010905505192473171273, .ofNat 8), (5978200616133202514454101, .ofNat 8), (7793247523905405488628817, .ofNat 8), (9460655943308246892513817, .negSucc 3), (9584968776139883957622601, .negSucc 1), (11537549764077270444113429, .ofNat 4), (11689152940823479295432837, .ofNat 2), (14038881008633924819045429, .negSucc 3), (18301238396664268979286193, .negSucc 3), (261861869985104329397229691, .ofNat 4), (265302729801115664043360523, .ofNat 4), (341365989685813971041782847, .ofNat 4), (345851532069398385919458191, .ofNat 4), (415373853858906908907058847, .negSucc 3), (506560701320448839016377539, .ofNat 4)] 0)) (.nil)) (.nil)) (.nil))))

def dynTable_94 : JTree := .node (.node (.node (.node (.node (.node (.leaf (.trans [(53, .negSucc 0)] 0)) (.nil)) (.nil)) (.nil)) (.node (.node (.node (.leaf (.trans [(153909449, .ofNat 1), (184516999, .negSucc 0), (4565045411, .ofNat 1), (5231817181, .negSucc 0), (6283505677, .ofNat 1)] 0)) (.nil)) (.nil)) (.nil))) (.node (.node (.node (.node (.leaf (.trans [(30619, .negSucc 0)] 0)) (.nil)) (.nil)) (.nil)) (.node (.node (.node (.leaf (.trans [(14716067, .ofNat 1), (17946679, .negSucc 0)] 0)) (.nil)) (.nil)) (.nil)))) (.node (.node (.node (.node (.node (.leaf (.trans [(719, .ofNat 1)] 0)) (.nil)) (.nil)) (.nil)) (.node (.node (.node (.leaf (.trans [(817, .ofNat 1), (20213, .negSucc 0)] 0)) (.nil)) (.nil)) (.nil))) (.node (.nil) (.node (.node (.node (.nil) (.leaf (.atom 727))) (.nil)) (.nil))))

def dynTable_95 : JTree := .node (.node (.node (.node (.node (.node (.leaf (.trans [(14467, .negSucc 0), (15283, .negSucc 0)] 0)) (.nil)) (.nil)) (.nil)) (.node (.node (.node (.leaf (.trans [(2217, .negSucc 0)] 0)) (.nil)) (.nil)) (.nil))) (.node (.node (.node (.node (.leaf (.trans [] 0)) (.nil)) (.nil)) (.nil)) (.node (.node (.node (.leaf (.trans [(4403715677, .negSucc 0), (7892140799, .negSucc 0), (8110986991, .ofNat 1), (83220150499, .negSucc 0), (112481983483, .ofNat 1), (115601067947, .negSucc 0), (136836560327, .negSucc 0), (140630988343, .ofNat 1), (149143403713, .negSucc 0), (153279096017, .ofNat 1), (158897942107, .ofNat 1), (223774709381, .negSucc 0), (229979900629, .ofNat 1), (565170246601, .ofNat 1), (571305021169, .ofNat 1), (3002807543909, .ofNat 1), (3189327687577, .ofNat 1), (3277766583593, .negSucc 0), (4058653421453, .negSucc 0), (4171198403677, .ofNat 1), (4228830005947, .negSucc 0), (4346093922923, .ofNat 1), (5078900204299, .negSucc 0), (5219736258491, .ofNat 1), (7402646053037, .ofNat 2), (10796357741903, .ofNat 2), (72386540412983, .ofNat 2), (74393792833447, .negSucc 1), (95979593228213, .negSucc 0), (98641072416517, .ofNat 1), (105505506335329, .negSucc 0), (139893072988819, .ofNat 2), (163334201267689, .negSucc 1), (267107440681867, .negSucc 1), (2611901664755953, .negSucc 0), (2684328747314177, .ofNat 1), (3806923304608439, .ofNat 2), (5047719481311029, .negSucc 1), (86403792470607481, .ofNat 1)] 0)) (.nil)) (.nil)) (.nil)))) (.node (.node (.node (.node (.node (.leaf (.trans [(48173, .ofNat 1), (46277771, .negSucc 0), (60328207, .negSucc 0)] 0)) (.nil)) (.nil)) (.nil)) (.nil)) (.node (.nil) (.node (.node (.node (.nil) (.leaf (.atom 521))) (.nil)) (.nil))))

def dynTable_96 : JTree := .node (.node (.node (.node (.node (.node (.leaf (.trans [(87, .ofNat 1), (874, .negSucc 0)] 0)) (.nil)) (.nil)) (.nil)) (.nil)) (.node (.node (.node (.node (.leaf (.trans [(3773541713, .ofNat 1), (4853839937, .ofNat 1), (6825265613, .negSucc 0), (8931660211, .negSucc 0), (71311304431, .negSucc 0), (91726469119, .negSucc 0), (97276446721, .ofNat 1), (118338723749, .negSucc 0), (127297634687, .ofNat 1), (128981903731, .negSucc 0), (136159565383, .negSucc 0), (154860093403, .negSucc 0), (168787942157, .negSucc 0), (175139639767, .negSucc 0), (193524402047, .ofNat 1), (253249367809, .ofNat 1), (3509996633111, .negSucc 0), (3657168410689, .negSucc 0), (4392324440113, .ofNat 1), (4593242087017, .negSucc 0), (4785833611583, .negSucc 0), (5747871461711, .ofNat 1)] 0)) (.nil)) (.nil)) (.nil)) (.node (.node (.node (.leaf (.trans [(569, .ofNat 1)] 0)) (.nil)) (.nil)) (.node (.node (.nil) (.leaf (.atom 829))) (.nil))))) (.node (.node (.node (.node (.node (.leaf (.trans [(200203, .ofNat 1), (5448143, .ofNat 1)] 0)) (.nil)) (.nil)) (.nil)) (.node (.node (.node (.leaf (.trans [(5174145751, .negSucc 0), (97779516137, .ofNat 1), (117434941529, .negSucc 0)] 0)) (.nil)) (.nil)) (.nil))) (.nil))

def dynTable_97 : JTree := .node (.node (.node (.node (.node (.node (.leaf (.atom 17)) (.nil)) (.nil)) (.nil)) (.nil)) (.node (.node (.node (.node (.leaf (.trans [(98141, .ofNat 1), (196673, .ofNat 1), (209969, .negSucc 0), (407683, .negSucc 0), (5194741, .ofNat 1), (7871221, .ofNat 1), (10086287, .ofNat 1), (13510729, .ofNat 1)] 0)) (.nil)) (.nil)) (.nil)) (.node (.node (.node (.leaf (.trans [(15863, .ofNat 1)] 0)) (.nil)) (.nil)) (.nil)))) (.node (.node (.node (.node (.node (.leaf (.trans [] 0)) (.nil)) (.nil)) (.nil)) (.nil)) (.node (.node (.node (.node (.leaf (.trans [(232931802479, .negSucc 0), (284067223123, .ofNat 1), (4401878113873, .ofNat 1), (5368220565101, .negSucc 0), (6447328572317, .ofNat 1), (8404807844089, .ofNat 1)] 0)) (.nil)) (.nil)) (.nil)) (.node (.node (.node (.leaf (.trans [(679539922, .ofNat 1), (687499394, .ofNat 1), (718360959, .ofNat 1), (726775143, .ofNat 1), (874080178, .ofNat 1), (924014991, .ofNat 1), (24419119371, .negSucc 0), (24705141267, .negSucc 0), (31409881179, .negSucc 0)] 0)) (.nil)) (.nil)) (.node (.node (.nil) (.leaf (.atom 877))) (.nil)))))

def dynTable_98 : JTree := .node (.node (.node (.node (.node (.node (.leaf (.trans [(17917, .ofNat 1)] 0)) (.nil)) (.nil)) (.nil)) (.node (.node (.node (.leaf (.trans [(191843, .negSucc 0), (366299, .negSucc 0)] 0)) (.nil)) (.nil)) (.nil))) (.node (.node (.node (.node (.leaf (.trans [(21103, .ofNat 1), (598357, .ofNat 1), (1693297, .ofNat 1), (13580603, .ofNat 1), (21940781, .ofNat 1), (31999439, .ofNat 1), (791682571, .negSucc 0)] 0)) (.nil)) (.nil)) (.nil)) (.node (.node (.node (.leaf (.trans [(920663, .negSucc 0), (26548279, .ofNat 1)] 0)) (.nil)) (.nil)) (.nil)))) (.node (.node (.node (.node (.node (.leaf (.trans [] 0)) (.nil)) (.nil)) (.nil)) (.node (.node (.node (.leaf (.trans [(10778, .ofNat 1), (15657, .ofNat 1), (86968957, .negSucc 0), (109998653, .negSucc 0)] 0)) (.nil)) (.nil)) (.nil))) (.node (.node (.node (.node (.leaf (.atom 269)) (.nil)) (.nil)) (.nil)) (.node (.node (.node (.nil) (.leaf (.atom 569))) (.nil)) (.nil))))

def dynTable_99 : JTree := .node (.node (.node (.nil) (.node (.node (.node (.leaf (.atom 353)) (.nil)) (.nil)) (.nil))) (.node (.node (.node (.node (.leaf (.trans [(138662101, .ofNat 1), (208673821, .negSucc 0), (232564201, .ofNat 1), (349987921, .negSucc 0), (4394931287, .negSucc 0), (4736163059, .negSucc 0), (5003302691, .negSucc 0), (6613970927, .ofNat 1), (7943496959, .negSucc 0), (8391543791, .negSucc 0)] 0)) (.nil)) (.nil)) (.nil)) (.node (.node (.node (.leaf (.trans [(24553, .ofNat 1)] 0)) (.nil)) (.nil)) (.nil)))) (.node (.node (.node (.node (.node (.leaf (.trans [(499, .ofNat 1), (653, .ofNat 1)] 0)) (.nil)) (.nil)) (.nil)) (.node (.node (.node (.leaf (.trans [(135677, .ofNat 1)] 0)) (.nil)) (.nil)) (.nil))) (.node (.nil) (.node (.node (.node (.leaf (.trans [(24641, .ofNat 1)] 0)) (.nil)) (.nil)) (.nil))))

def dynTable_100 : JTree := .node (.node (.node (.node (.node (.node (.leaf (.trans [] 0)) (.nil)) (.nil)) (.nil)) (.node (.node (.node (.leaf (.trans [(152685517, .ofNat 1), (183049667, .negSucc 0), (3534178229, .ofNat 1), (4050381259, .negSucc 0), (4528742863, .ofNat 1), (5060040871, .negSucc 0), (5190212273, .negSucc 0), (6066317321, .ofNat 1), (6233537441, .ofNat 1), (7733670787, .negSucc 0), (12068496247, .ofNat 1)] 0)) (.nil)) (.nil)) (.nil))) (.node (.node (.node (.node (.leaf (.trans [(3965397883, .ofNat 1)] 0)) (.nil)) (.nil)) (.nil)) (.node (.node (.node (.leaf (.trans [(41071, .ofNat 1)] 0)) (.nil)) (.nil)) (.nil)))) (.node (.node (.nil) (.node (.node (.node (.leaf (.trans [(68245531, .ofNat 1), (141466001, .negSucc 0), (3499941589, .ofNat 1)] 0)) (.nil)) (.nil)) (.nil))) (.node (.nil) (.node (.node (.node (.nil) (.leaf (.trans [(439, .ofNat 1)] 0))) (.nil)) (.nil))))

def dynTable_101 : JTree := .node (.node (.node (.node (.node (.node (.leaf (.trans [(4189, .ofNat 1)] 0)) (.nil)) (.nil)) (.nil)) (.nil)) (.node (.node (.node (.node (.leaf (.trans [] 0)) (.nil)) (.nil)) (.nil)) (.node (.node (.node (.leaf (.trans [(93176458901, .negSucc 0), (98432005349, .negSucc 0), (156275641001, .negSucc 0), (165090248249, .negSucc 0), (2234060915371, .negSucc 0), (2953252052887, .ofNat 1), (3119827961863, .ofNat 1), (3362058011491, .ofNat 1), (3746968984471, .negSucc 0), (5638846732591, .ofNat 1)] 0)) (.nil)) (.nil)) (.nil)))) (.node (.node (.node (.node (.node (.leaf (.trans [(719, .ofNat 1), (14239, .ofNat 1)] 0)) (.nil)) (.nil)) (.nil)) (.nil)) (.node (.node (.node (.node (.leaf (.trans [(352717, .ofNat 1)] 0)) (.nil)) (.nil)) (.nil)) (.node (.node (.node (.leaf (.trans [(23516373, .ofNat 1), (23791821, .ofNat 1), (29175711, .negSucc 0), (29517447, .negSucc 0), (29858991, .ofNat 1), (30773931, .ofNat 1), (37531191, .negSucc 0), (293098522, .ofNat 1), (296531594, .ofNat 1), (375580334, .ofNat 1), (377037482, .ofNat 1), (379979518, .ofNat 1), (476878378, .ofNat 1), (491490898, .ofNat 1), (1225439283, .negSucc 0), (1239792891, .negSucc 0), (1452569439, .ofNat 1), (1576260867, .negSucc 0), (1893585363, .ofNat 1), (1944385431, .ofNat 1), (2371235547, .negSucc 0), (12310734866, .ofNat 1), (12454930882, .ofNat 1), (15835080434, .ofNat 1), (19022915026, .negSucc 0), (23199007562, .ofNat 1), (23821377794, .ofNat 1), (31053807898, .ofNat 1), (126384956277, .ofNat 1), (164756807409, .ofNat 1), (1655143099718, .negSucc 0), (2018495968366, .ofNat 1)] 0)) (.nil)) (.nil)) (.nil))))

def dynTable_102 : JTree := .node (.node (.node (.node (.node (.node (.leaf (.trans [(1, .ofNat 1)] 0)) (.nil)) (.nil)) (.nil)) (.node (.node (.node (.leaf (.trans [(212973721, .ofNat 1), (466040063, .negSucc 0)] 0)) (.nil)) (.nil)) (.nil))) (.node (.node (.node (.node (.leaf (.trans [] 0)) (.nil)) (.nil)) (.nil)) (.node (.node (.node (.leaf (.trans [(277399, .ofNat 1), (32548601, .negSucc 0), (361603861, .ofNat 1), (471390737, .ofNat 1), (615094087, .negSucc 0), (10698914623, .ofNat 1), (13047642851, .negSucc 0), (25461392863, .negSucc 0), (31050921731, .ofNat 1), (704746899949, .ofNat 1), (918715745033, .ofNat 1)] 0)) (.nil)) (.nil)) (.nil)))) (.node (.node (.node (.node (.node (.leaf (.trans [(9671, .ofNat 1), (841453, .ofNat 1), (18537977, .negSucc 0), (24166309, .negSucc 0), (1082651239, .ofNat 1), (1411355963, .ofNat 1)] 0)) (.nil)) (.nil)) (.nil)) (.node (.node (.node (.leaf (.trans [(17806, .negSucc 0), (27579, .ofNat 1), (277058, .negSucc 0), (402477, .negSucc 0), (3237163, .ofNat 1), (137470643, .ofNat 1)] 0)) (.nil)) (.nil)) (.nil))) (.node (.nil) (.node (.node (.node (.nil) (.leaf (.atom 659))) (.nil)) (.nil))))

def dynTable_103 : JTree := .node (.node (.node (.node (.node (.node (.leaf (.trans [(19, .ofNat 1)] 0)) (.nil)) (.nil)) (.nil)) (.node (.node (.node (.leaf (.trans [] 0)) (.nil)) (.nil)) (.nil))) (.node (.node (.node (.node (.leaf (.trans [] 0)) (.nil)) (.nil)) (.nil)) (.node (.node (.node (.leaf (.trans [(587, .ofNat 1)] 0)) (.nil)) (.nil)) (.nil)))) (.node (.node (.node (.node (.node (.leaf (.trans [(314203, .negSucc 0), (570589, .ofNat 1)] 0)) (.nil)) (.nil)) (.nil)) (.nil)) (.node (.nil) (.node (.node (.node (.nil) (.leaf (.atom 457))) (.nil)) (.nil))))

def dynTable_104 : JTree := .node (.node (.node (.node (.node (.node (.leaf (.trans [(1349, .negSucc 0), (1545623, .ofNat 1), (2014891, .ofNat 1)] 0)) (.nil)) (.nil)) (.nil)) (.node (.node (.node (.leaf (.trans [(82382969, .negSucc 3), (85837231, .negSucc 3), (165094157, .negSucc 3), (172016443, .negSucc 3), (192233297, .ofNat 2), (2335896611, .negSucc 3), (2545983109, .negSucc 3), (3504389963, .negSucc 3), (4681099583, .negSucc 3), (5102109577, .negSucc 3), (6534553093, .negSucc 1), (7022741639, .negSucc 3)] 1)) (.nil)) (.nil)) (.nil))) (.node (.node (.node (.node (.leaf (.trans [(3683516861, .ofNat 1), (69610040707, .negSucc 0), (132911225851, .negSucc 0)] 0)) (.nil)) (.nil)) (.nil)) (.node (.node (.node (.leaf (.trans [] 0)) (.nil)) (.nil)) (.node (.node (.nil) (.leaf (.atom 769))) (.nil))))) (.node (.node (.node (.node (.node (.leaf (.trans [(98141, .ofNat 1), (209969, .negSucc 0), (5194741, .ofNat 1)] 0)) (.nil)) (.nil)) (.nil)) (.node (.node (.node (.leaf (.trans [(467, .ofNat 1), (139432453591, .ofNat 1), (141065630207, .ofNat 1), (179349497959, .ofNat 1), (3794388425771, .ofNat 1), (3838832214067, .ofNat 1), (4880654694779, .ofNat 1), (24525119098897, .negSucc 0), (24812382572969, .negSucc 0), (31426812935459, .negSucc 0), (31548740292857, .negSucc 0), (31794916161643, .negSucc 0), (39902961421753, .negSucc 0), (41125669031773, .negSucc 0), (1030104951479741, .negSucc 0), (1042170602448757, .negSucc 0), (1325005772579309, .negSucc 0), (1591748922639901, .ofNat 1), (1941184894252937, .negSucc 0), (1993261936331669, .negSucc 0), (2598437999536273, .negSucc 0), (138494665102069343, .ofNat 1), (168898340691119491, .negSucc 0)] 0)) (.nil)) (.nil)) (.nil))) (.nil))

def dynTable_105 : JTree := .node (.node (.node (.node (.node (.node (.leaf (.atom 47)) (.nil)) (.nil)) (.nil)) (.nil)) (.node (.node (.node (.node (.leaf (.trans [(12731, .ofNat 1), (288949, .ofNat 1)] 0)) (.nil)) (.nil)) (.nil)) (.node (.node (.node (.leaf (.trans [(3923583133, .negSucc 0), (4058620411, .ofNat 1), (5174145751, .negSucc 0), (74146743971, .negSucc 0), (76698639557, .ofNat 1), (97779516137, .negSucc 0), (117434941529, .negSucc 0), (141573464603, .ofNat 1), (146445973901, .negSucc 0), (2219251701223, .negSucc 0), (2675414557861, .ofNat 1), (2767493835187, .negSucc 0)] 0)) (.nil)) (.nil)) (.nil)))) (.node (.node (.node (.node (.node (.leaf (.trans [(719, .ofNat 1), (14789, .negSucc 0), (18589, .ofNat 1)] 0)) (.nil)) (.nil)) (.nil)) (.node (.node (.node (.leaf (.atom 419)) (.nil)) (.nil)) (.nil))) (.node (.node (.node (.node (.leaf (.trans [(6572364263, .negSucc 0), (18624364463, .negSucc 0), (18826527047, .negSucc 0), (355778285689, .negSucc 1), (3476780695127, .ofNat 1), (5382441329807, .ofNat 1), (9004894690067, .ofNat 1), (12598318430681, .ofNat 1), (16423305308677, .ofNat 1), (16538157976009, .ofNat 2), (20168772841733, .negSucc 1), (22878399999503, .ofNat 1), (35700345368081, .ofNat 1), (46539359584477, .ofNat 1), (125451627247057, .negSucc 1), (372751366399883, .ofNat 2), (454581317113471, .negSucc 1), (457760328634507, .negSucc 1), (596741356930319, .negSucc 1), (676912153616429, .ofNat 2), (2847311463467903, .negSucc 0), (8650622845702709, .negSucc 0), (10317399811375409, .negSucc 0), (11277046288907953, .negSucc 0), (12102673599737087, .negSucc 1), (13449874919913853, .negSucc 0), (15777177301352179, .negSucc 1), (18736278269058167, .negSucc 0), (358086529263090941, .negSucc 3), (436697114447005417, .ofNat 4), (9911491204331770343, .ofNat 2), (12920728032765587131, .ofNat 2)] 0)) (.nil)) (.nil)) (.nil)) (.node (.node (.node (.leaf (.trans [(1055536358, .negSucc 0), (138470337879, .ofNat 1), (168868672923, .negSucc 0), (1696450806146, .ofNat 1), (2211511773082, .ofNat 1)] 0)) (.nil)) (.nil)) (.nil))))

def dynTable_106 : JTree := .node (.node (.node (.node (.node (.node (.leaf (.trans [] 0)) (.nil)) (.nil)) (.nil)) (.node (.node (.node (.leaf (.trans [(9711421, .ofNat 1)] 0)) (.nil)) (.nil)) (.nil))) (.node (.node (.node (.node (.leaf (.trans [(39803, .negSucc 0)] 0)) (.nil)) (.nil)) (.nil)) (.node (.node (.node (.leaf (.trans [(11007823, .ofNat 1), (25937299, .ofNat 1), (641702111, .negSucc 0)] 0)) (.nil)) (.nil)) (.nil)))) (.node (.node (.node (.node (.node (.leaf (.trans [(65644967, .negSucc 0), (80055979, .ofNat 1)] 0)) (.nil)) (.nil)) (.nil)) (.node (.node (.node (.leaf (.trans [(719, .ofNat 1), (10642, .negSucc 0), (14239, .ofNat 1), (14943, .negSucc 0), (64697597, .ofNat 1)] 0)) (.nil)) (.nil)) (.nil))) (.node (.nil) (.node (.node (.node (.nil) (.leaf (.atom 613))) (.nil)) (.nil))))

def dynTable_107 : JTree := .node (.node (.node (.node (.node (.node (.leaf (.trans [(1, .ofNat 1)] 0)) (.nil)) (.nil)) (.nil)) (.node (.node (.node (.leaf (.trans [(22389, .ofNat 1), (28082, .ofNat 1)] 0)) (.nil)) (.nil)) (.nil))) (.node (.node (.node (.node (.leaf (.trans [(18409, .ofNat 1)] 0)) (.nil)) (.nil)) (.nil)) (.node (.node (.node (.leaf (.trans [(479579, .ofNat 1), (11865031, .negSucc 0)] 0)) (.nil)) (.nil)) (.nil)))) (.node (.node (.node (.node (.node (.leaf (.trans [(12140159, .negSucc 0), (14805283, .ofNat 1)] 0)) (.nil)) (.nil)) (.nil)) (.nil)) (.nil))

def dynTable_108 : JTree := .node (.node (.node (.node (.node (.node (.leaf (.trans [(1273, .ofNat 1), (1637899, .ofNat 1), (2135183, .ofNat 1)] 0)) (.nil)) (.nil)) (.nil)) (.node (.node (.node (.leaf (.trans [(106275157, .ofNat 4), (212973721, .ofNat 4), (232556771, .negSucc 3), (272767189, .ofNat 2), (466040063, .negSucc 3)] 1)) (.nil)) (.nil)) (.nil))) (.node (.node (.node (.node (.leaf (.trans [(3187027177, .ofNat 1), (9031202977, .ofNat 1), (114996538607, .negSucc 1), (2610017660353, .negSucc 0)] 0)) (.nil)) (.nil)) (.nil)) (.node (.node (.node (.leaf (.trans [(58186619, .negSucc 0), (70960303, .ofNat 1)] 0)) (.nil)) (.nil)) (.nil)))) (.node (.node (.node (.node (.node (.leaf (.trans [(196673, .ofNat 1), (407683, .negSucc 0), (7871221, .ofNat 1), (10086287, .ofNat 1), (13510729, .ofNat 1)] 0)) (.nil)) (.nil)) (.nil)) (.node (.node (.node (.leaf (.trans [(833198, .negSucc 0), (1086166, .negSucc 0), (1290507, .ofNat 1), (1682319, .ofNat 1), (3355837, .negSucc 0), (16900538, .negSucc 0), (20610706, .ofNat 1), (24551097, .negSucc 0), (29940789, .ofNat 1), (291984191, .negSucc 0), (6432678019, .ofNat 1), (8385709223, .ofNat 1), (375679979933, .negSucc 0), (489740519161, .negSucc 0)] 0)) (.nil)) (.nil)) (.nil))) (.nil))

def dynTable_109 : JTree := .node (.node (.node (.node (.node (.node (.leaf (.trans [(731, .ofNat 1), (22591, .ofNat 1)] 0)) (.nil)) (.nil)) (.nil)) (.node (.node (.node (.leaf (.atom 307)) (.nil)) (.nil)) (.nil))) (.node (.node (.node (.node (.leaf (.trans [(373589, .ofNat 1), (394661, .ofNat 1), (8957419, .ofNat 1), (13480099, .negSucc 0)] 0)) (.nil)) (.nil)) (.nil)) (.node (.node (.node (.leaf (.trans [] 0)) (.nil)) (.nil)) (.nil)))) (.node (.node (.node (.node (.node (.leaf (.trans [(20623, .ofNat 1)] 0)) (.nil)) (.nil)) (.nil)) (.nil)) (.node (.nil) (.node (.node (.node (.leaf (.trans [(468179, .ofNat 1), (12740599, .ofNat 1)] 0)) (.nil)) (.nil)) (.nil))))

def dynTable_110 : JTree := .node (.node (.node (.node (.node (.node (.leaf (.trans [(2021, .ofNat 1)] 0)) (.nil)) (.nil)) (.nil)) (.node (.node (.node (.leaf (.trans [(155611013, .ofNat 1), (233452829, .ofNat 1)] 0)) (.nil)) (.nil)) (.nil))) (.node (.node (.node (.node (.leaf (.trans [(24108121, .negSucc 0), (369515519, .ofNat 1), (455588327, .negSucc 0), (18858762623, .negSucc 0), (22998818851, .ofNat 1), (31426175419, .ofNat 1), (40967505023, .ofNat 1), (521992436429, .ofNat 1), (593882811653, .negSucc 0), (680475033193, .ofNat 1), (774192110401, .negSucc 0), (929818522417, .ofNat 1), (1133941191629, .negSucc 0)] 0)) (.nil)) (.nil)) (.nil)) (.node (.node (.node (.leaf (.trans [(617, .ofNat 1)] 0)) (.nil)) (.nil)) (.nil)))) (.node (.node (.node (.node (.node (.leaf (.trans [(38, .ofNat 1)] 0)) (.nil)) (.nil)) (.nil)) (.node (.node (.node (.leaf (.trans [(7344781, .ofNat 1), (9611507, .ofNat 1), (135663629, .negSucc 0), (177531763, .negSucc 0), (3691827049, .negSucc 0), (4831188503, .negSucc 0)] 0)) (.nil)) (.nil)) (.nil))) (.node (.nil) (.node (.node (.node (.nil) (.leaf (.atom 719))) (.nil)) (.nil))))

def dynTable_111 : JTree := .node (.node (.node (.node (.node (.node (.leaf (.trans [(12121, .ofNat 1), (18241, .negSucc 0)] 0)) (.nil)) (.nil)) (.nil)) (.node (.node (.node (.leaf (.trans [(888122, .negSucc 0), (938859, .negSucc 0), (1075989, .ofNat 1), (1080418, .negSucc 0), (1766854, .negSucc 0), (2090631, .negSucc 0), (26620521, .negSucc 0), (31914471, .ofNat 1), (33389498, .negSucc 0), (39936993, .negSucc 0)] 0)) (.nil)) (.nil)) (.nil))) (.node (.node (.node (.node (.leaf (.trans [(7037609, .ofNat 1), (8437159, .negSucc 0), (16785113, .negSucc 0)] 0)) (.nil)) (.nil)) (.nil)) (.node (.node (.node (.leaf (.trans [(113127227, .ofNat 1), (118339787, .ofNat 1), (320573027, .negSucc 0), (324052763, .negSucc 0), (3355420553, .ofNat 2), (6123855781, .negSucc 1), (8191052671, .ofNat 1), (8506644893, .negSucc 0), (59844303083, .negSucc 0), (76156265287, .ofNat 2), (92645604803, .ofNat 1), (106135009283, .ofNat 1), (110224274089, .negSucc 0), (129115340527, .negSucc 0), (134090012141, .ofNat 1), (154792154177, .ofNat 1), (160756125091, .negSucc 0), (232250092549, .ofNat 1), (241198432367, .negSucc 0), (538883258387, .ofNat 1), (544732694603, .ofNat 1), (2159343905053, .ofNat 2), (3009364817777, .ofNat 1), (3125312323891, .negSucc 0), (3829637469253, .negSucc 0), (3977189175599, .ofNat 1), (4388995355963, .ofNat 1), (4558098504529, .negSucc 0), (5271261644171, .ofNat 1), (5474357539393, .negSucc 0), (7763750738551, .negSucc 1), (10294201567861, .ofNat 2), (49009524940787, .ofNat 1), (68302015138783, .ofNat 2), (70933616422589, .negSucc 1), (99614784314677, .ofNat 1), (100598273482523, .negSucc 0), (103452832046591, .negSucc 0), (146717125329737, .negSucc 1), (155737261673843, .negSucc 1), (280137071934641, .ofNat 2), (2464520973503753, .negSucc 0), (2559476247439099, .ofNat 1), (3629857104394093, .ofNat 2), (5293949699911567, .ofNat 2), (82385011425462947, .ofNat 1)] 0)) (.nil)) (.nil)) (.nil)))) (.node (.node (.node (.node (.node (.leaf (.trans [(3417, .negSucc 0), (199226, .negSucc 0), (242962, .ofNat 1), (5491779, .ofNat 1), (7159143, .ofNat 1)] 0)) (.nil)) (.nil)) (.nil)) (.nil)) (.node (.nil) (.node (.node (.node (.nil) (.leaf (.atom 503))) (.nil)) (.nil))))

def dynTable_112 : JTree := .node (.node (.node (.node (.node (.node (.leaf (.trans [(69, .ofNat 1), (1102, .ofNat 1)] 0)) (.nil)) (.nil)) (.nil)) (.nil)) (.node (.node (.node (.node (.leaf (.trans [(96938663, .negSucc 0), (101405303, .negSucc 0), (2875258157, .negSucc 1), (65258264803, .negSucc 1), (79387971407, .negSucc 0), (202964616781, .ofNat 2), (461768788703, .negSucc 0), (466781167607, .negSucc 0), (2629900252313, .ofNat 1), (4606584168899, .ofNat 2), (6652754040019, .ofNat 2), (8821096062409, .negSucc 1), (59689501846327, .ofNat 2), (86202609134087, .ofNat 1), (87053900828413, .ofNat 1), (125721829711853, .ofNat 2), (133451179935167, .ofNat 2), (240049313770229, .negSucc 1), (2153758258806257, .negSucc 0), (3110422697632417, .negSucc 1), (4536382792258123, .negSucc 1), (70595674185703343, .negSucc 0)] 0)) (.nil)) (.nil)) (.nil)) (.node (.node (.node (.leaf (.trans [(569, .ofNat 1)] 0)) (.nil)) (.nil)) (.node (.node (.nil) (.leaf (.atom 823))) (.nil))))) (.node (.node (.node (.node (.node (.leaf (.trans [(10537, .ofNat 1)] 0)) (.nil)) (.nil)) (.nil)) (.node (.node (.node (.leaf (.trans [(12581, .ofNat 1)] 0)) (.nil)) (.nil)) (.nil))) (.nil))

def dynTable_113 : JTree := .node (.node (.node (.node (.node (.node (.leaf (.atom 31)) (.nil)) (.nil)) (.nil)) (.nil)) (.node (.node (.node (.node (.leaf (.trans [(248239, .ofNat 1), (497467, .ofNat 1)] 0)) (.nil)) (.nil)) (.nil)) (.node (.node (.node (.leaf (.trans [(16153, .ofNat 1)] 0)) (.nil)) (.nil)) (.nil)))) (.node (.node (.node (.node (.node (.leaf (.trans [(643, .ofNat 1)] 0)) (.nil)) (.nil)) (.nil)) (.nil)) (.node (.node (.node (.node (.leaf (.trans [(126829502677, .negSucc 0), (232931802479, .negSucc 1), (284067223123, .ofNat 2), (6447328572317, .ofNat 2), (8404807844089, .ofNat 2), (121839758390179, .ofNat 1), (158831637871943, .ofNat 1)] 0)) (.nil)) (.nil)) (.nil)) (.node (.node (.node (.leaf (.trans [(43807, .negSucc 0), (21680197829, .ofNat 1)] 0)) (.nil)) (.nil)) (.nil))))

def dynTable_114 : JTree := .node (.node (.node (.node (.node (.node (.leaf (.trans [(18791, .ofNat 1)] 0)) (.nil)) (.nil)) (.nil)) (.node (.node (.node (.leaf (.trans [(271547, .ofNat 1)] 0)) (.nil)) (.nil)) (.nil))) (.node (.node (.node (.node (.leaf (.trans [(35297, .negSucc 0)] 0)) (.nil)) (.nil)) (.nil)) (.node (.node (.node (.leaf (.trans [(594389, .negSucc 0)] 0)) (.nil)) (.nil)) (.nil)))) (.node (.node (.node (.node (.node (.leaf (.trans [(896977, .negSucc 0), (1169309, .negSucc 0), (61946659, .negSucc 0), (75545783, .ofNat 1)] 0)) (.nil)) (.nil)) (.nil)) (.node (.node (.node (.leaf (.trans [(18038, .negSucc 0), (28797, .ofNat 1), (230119, .negSucc 0), (289294, .negSucc 0), (407721, .negSucc 0), (4250471, .ofNat 1), (138262981, .ofNat 1)] 0)) (.nil)) (.nil)) (.nil))) (.node (.node (.node (.node (.leaf (.atom 283)) (.nil)) (.nil)) (.nil)) (.node (.node (.node (.nil) (.leaf (.atom 593))) (.nil)) (.nil))))

def dynTable_115 : JTree := .node (.node (.node (.node (.node (.node (.leaf (.atom 251)) (.nil)) (.nil)) (.nil)) (.node (.node (.node (.leaf (.atom 379)) (.nil)) (.nil)) (.nil))) (.node (.node (.node (.node (.leaf (.trans [(533861, .ofNat 1), (734827, .ofNat 1)] 0)) (.nil)) (.nil)) (.nil)) (.node (.node (.node (.leaf (.trans [(7810073477, .ofNat 1), (111312326809, .negSucc 0), (135413649821, .ofNat 1), (147592519099, .ofNat 1), (221447762663, .negSucc 0), (4016449053119, .ofNat 1), (4184856037081, .ofNat 1), (5026086683977, .negSucc 0)] 0)) (.nil)) (.nil)) (.nil)))) (.node (.node (.node (.node (.node (.leaf (.trans [(20623, .ofNat 1), (26527, .ofNat 1)] 0)) (.nil)) (.nil)) (.nil)) (.nil)) (.node (.nil) (.node (.node (.node (.leaf (.trans [(594389, .negSucc 0)] 0)) (.nil)) (.nil)) (.nil))))

def dynTable_116 : JTree := .node (.node (.node (.nil) (.node (.node (.node (.leaf (.trans [(48152593, .negSucc 3), (82473613, .negSucc 3), (89891147, .negSucc 3), (91941049, .negSucc 3), (107838191, .ofNat 2), (221853899, .negSucc 1), (2446216207, .negSucc 3), (2548784393, .negSucc 3), (3061135481, .ofNat 4), (5488779511, .ofNat 2)] 1)) (.nil)) (.nil)) (.nil))) (.node (.node (.node (.node (.leaf (.trans [(3965397883, .negSucc 1)] 0)) (.nil)) (.nil)) (.nil)) (.node (.node (.node (.leaf (.trans [(57998617, .negSucc 0), (70731029, .ofNat 1)] 0)) (.nil)) (.nil)) (.nil)))) (.node (.node (.node (.node (.node (.leaf (.trans [(30917, .ofNat 1), (493511, .negSucc 0), (612277, .ofNat 1)] 0)) (.nil)) (.nil)) (.nil)) (.node (.node (.node (.leaf (.trans [(7403657, .negSucc 0), (136751113, .ofNat 1), (3721420853, .ofNat 1)] 0)) (.nil)) (.nil)) (.nil))) (.node (.nil) (.node (.node (.node (.nil) (.leaf (.trans [(449, .ofNat 1)] 0))) (.nil)) (.nil))))

def dynTable_117 : JTree := .node (.node (.node (.node (.node (.node (.leaf (.trans [(943, .ofNat 1)] 0)) (.nil)) (.nil)) (.nil)) (.nil)) (.node (.node (.node (.node (.leaf (.trans [(17089, .ofNat 1)] 0)) (.nil)) (.nil)) (.nil)) (.node (.node (.node (.leaf (.trans [(569, .ofNat 1)] 0)) (.nil)) (.nil)) (.nil)))) (.node (.node (.node (.node (.node (.leaf (.trans [(14587, .ofNat 1), (470557, .negSucc 0)] 0)) (.nil)) (.nil)) (.nil)) (.node (.node (.node (.leaf (.trans [(279497, .ofNat 4), (298979, .negSucc 3), (406433, .ofNat 4), (416369, .negSucc 3), (9239719, .negSucc 3), (9500893, .negSucc 3), (76801733, .ofNat 4), (84184357, .negSucc 3), (90916663, .negSucc 3), (92075083, .negSucc 3), (94728737, .negSucc 3), (96480347, .ofNat 4), (118977367, .negSucc 3), (120340531, .negSucc 3), (153909449, .ofNat 4), (184516999, .negSucc 3), (214848979, .ofNat 2), (239408717, .negSucc 3), (260352401, .ofNat 4), (2277984887, .ofNat 4), (2386973383, .negSucc 3), (2577861997, .negSucc 3), (2610707977, .negSucc 3), (2809710443, .negSucc 3), (2861664233, .ofNat 4), (3135506809, .ofNat 4), (3581017039, .negSucc 3), (3867394501, .negSucc 3), (4565045411, .ofNat 4), (5231817181, .negSucc 3), (5846705399, .ofNat 2), (6283505677, .ofNat 4)] 1)) (.nil)) (.nil)) (.nil))) (.node (.node (.node (.node (.leaf (.trans [(222559, .negSucc 0), (273223, .negSucc 0)] 0)) (.nil)) (.nil)) (.nil)) (.node (.node (.node (.leaf (.trans [(541, .ofNat 1), (569, .ofNat 1), (571, .ofNat 1), (599, .ofNat 1), (619, .ofNat 1), (151147, .ofNat 1), (156349, .negSucc 0), (162707, .ofNat 1), (164441, .negSucc 0), (165019, .negSucc 0), (166753, .ofNat 1), (173111, .negSucc 0), (173689, .ofNat 1), (177157, .ofNat 1), (178891, .negSucc 0), (959851, .negSucc 0), (969937, .ofNat 1), (1006919, .negSucc 0), (1010281, .ofNat 1), (2751757, .ofNat 1), (2778691, .negSucc 0), (79956763, .negSucc 0), (85154717, .ofNat 1), (88212337, .negSucc 0), (90658433, .ofNat 1), (91575719, .ofNat 1), (91881481, .negSucc 0), (92798767, .ofNat 1), (93716053, .negSucc 0), (105441361, .negSucc 1), (164658323, .ofNat 1), (166586971, .ofNat 1), (170067683, .ofNat 1), (172059691, .ofNat 1), (181615781, .ofNat 1), (187515389, .ofNat 2), (222553501, .ofNat 2), (276522913, .ofNat 1), (277396939, .ofNat 2), (278251177, .ofNat 1), (280311793, .negSucc 1), (290999591, .ofNat 2), (291237347, .ofNat 1), (291971209, .negSucc 1), (304430981, .ofNat 1), (347914753, .ofNat 1), (349982597, .ofNat 1), (353084363, .ofNat 1), (357220051, .ofNat 1), (362389661, .ofNat 1), (610647463, .ofNat 1), (616683517, .negSucc 0), (795257773, .negSucc 1), (803041699, .ofNat 2), (4639227121, .negSucc 1), (5636090729, .negSucc 1), (5702106433, .negSucc 1), (6915984919, .ofNat 2), (6992445403, .ofNat 2), (6996992063, .ofNat 2), (7074348131, .ofNat 2), (7156204843, .negSucc 1), (7375485463, .negSucc 1), (7968629657, .ofNat 2), (8895909031, .ofNat 2), (8994975443, .ofNat 2), (9429505991, .negSucc 1), (9528590117, .ofNat 2), (9891898579, .negSucc 1), (9924926621, .ofNat 2), (15802000183, .ofNat 2), (19851974383, .negSucc 1), (24210069971, .ofNat 2), (42997148629, .negSucc 1), (47586255347, .negSucc 0), (48143634619, .negSucc 0), (49940687483, .ofNat 1), (50525644291, .ofNat 1), (52486960709, .negSucc 0), (64237822667, .ofNat 2), (79915121857, .negSucc 0), (82627974683, .ofNat 1), (88515388469, .ofNat 1), (100547363617, .negSucc 0), (101144970533, .negSucc 0), (102041380907, .negSucc 0), (103236594739, .negSucc 0), (104730612029, .negSucc 0), (146742980731, .negSucc 0), (148284938497, .ofNat 1), (153938783639, .negSucc 0), (154452769561, .ofNat 1), (290485452107, .ofNat 1), (293696948159, .ofNat 2), (293887917139, .ofNat 1), (297137029543, .ofNat 2), (323032507927, .negSucc 1), (326225580493, .ofNat 2), (348132475547, .negSucc 1), (373646297243, .ofNat 2), (377777187791, .ofNat 2), (420691361917, .ofNat 1), (421108700459, .negSucc 1), (424809058771, .negSucc 0), (425271224681, .ofNat 2), (453829291999, .negSucc 1), (466004374963, .negSucc 1), (480614620907, .ofNat 1), (568306119431, .ofNat 2), (1278132846751, .ofNat 2), (1290643119313, .negSucc 1), (1374898196669, .ofNat 1), (1628830220681, .ofNat 2), (1647908759137, .ofNat 2), (1666187918867, .ofNat 2), (1682496446621, .negSucc 1), (1998719641591, .negSucc 1), (2020816721467, .negSucc 1), (2022130706207, .negSucc 1), (2044486609859, .negSucc 1), (2068143199627, .ofNat 2), (2131515298807, .ofNat 2), (2570917709959, .negSucc 1), (2599547903027, .negSucc 1), (2768292307813, .ofNat 1), (2795388154219, .negSucc 0), (3430745931859, .ofNat 2), (3470930364443, .ofNat 2), (4412907789091, .ofNat 2), (4566778052887, .negSucc 1), (7640279367547, .negSucc 1), (22745491624741, .ofNat 4), (25173129078563, .ofNat 1), (25467982713451, .ofNat 1), (26000117444723, .negSucc 0), (26304657619771, .negSucc 0), (27738799836017, .negSucc 3), (27765602215061, .ofNat 1), (30290261187721, .negSucc 1), (32257181519161, .ofNat 2), (32635010878097, .ofNat 2), (34024201786381, .negSucc 1), (39486714842357, .negSucc 1), (42212303671367, .ofNat 2), (42275099462353, .ofNat 1), (42539318190937, .negSucc 0), (44524656846707, .negSucc 0), (45325738782953, .negSucc 1), (46541712806261, .negSucc 0), (53469699496337, .ofNat 2), (54763103004097, .negSucc 1), (55404544913369, .negSucc 1), (67942129796579, .ofNat 2), (68737938051883, .ofNat 2), (70440810424753, .negSucc 1), (71663940404159, .negSucc 1), (83950295658923, .negSucc 1), (84878418017951, .negSucc 1), (84933608053171, .negSucc 1), (85872601537927, .negSucc 1), (87392759400371, .ofNat 2), (92180058531791, .negSucc 1), (100610285433083, .ofNat 2), (107983779903227, .negSucc 3), (109177607271599, .negSucc 1), (131156665387711, .ofNat 2), (134675264364307, .ofNat 2), (138897625442123, .negSucc 1), (164240468515559, .negSucc 1), (182707110228029, .ofNat 1), (244568716461541, .ofNat 2), (306260306764829, .negSucc 0), (397345578837341, .negSucc 1), (1057322690401639, .ofNat 2), (1069707143583503, .ofNat 2), (1354867320712133, .ofNat 2), (1360015468568311, .ofNat 2), (1370736923297341, .ofNat 2), (1464426630833077, .negSucc 1), (1478760333581851, .ofNat 2), (1742741861830517, .ofNat 2), (1773002726302651, .ofNat 2), (1909042527593009, .negSucc 1), (1927728098825567, .ofNat 2), (2280582035621899, .ofNat 2), (2415825589977223, .ofNat 2), (2853707826466087, .ofNat 2), (2887133393979599, .ofNat 2), (3670673884142263, .ofNat 4), (3943695468527779, .negSucc 1), (4721522868866887, .ofNat 2), (7339694412790669, .ofNat 2), (8753885483251369, .ofNat 2), (9568105686239273, .ofNat 2), (9824793569970101, .ofNat 2), (11411660589441173, .ofNat 2), (11981626370790337, .negSucc 1), (15896954402099647, .ofNat 2), (21279400286703863, .ofNat 2), (44409706403570267, .ofNat 1), (44929878660127459, .ofNat 1), (57123419568807083, .ofNat 2), (73476843858883067, .ofNat 1), (96652061310627341, .negSucc 1), (125996681251657897, .negSucc 1), (129376851008155189, .negSucc 3), (157778896703459393, .ofNat 4), (162011702278594541, .ofNat 2), (210195811204953389, .ofNat 1), (211200222056620297, .ofNat 2), (638611093240197167, .ofNat 2), (832500386103101539, .ofNat 2), (1383159959932784021, .ofNat 1), (8409488878710713263, .negSucc 3), (10962701419630988771, .negSucc 3), (11256802751666343527, .negSucc 3), (13728003925945198699, .ofNat 4), (731691618804442747109, .negSucc 1), (953841174403138702753, .negSucc 1)] 0)) (.nil)) (.nil)) (.nil))))

def dynTable_118 : JTree := .node (.node (.node (.nil) (.node (.node (.node (.leaf (.trans [(8595767, .ofNat 1), (221586439, .ofNat 1), (440830073, .ofNat 1)] 0)) (.nil)) (.nil)) (.nil))) (.node (.node (.node (.node (.leaf (.trans [] 0)) (.nil)) (.nil)) (.nil)) (.node (.node (.node (.leaf (.trans [(823699, .ofNat 1), (1073783, .ofNat 1)] 0)) (.nil)) (.nil)) (.nil)))) (.node (.node (.node (.node (.node (.leaf (.trans [(51049, .negSucc 0), (49040623, .ofNat 1), (63929891, .ofNat 1), (65644967, .ofNat 1), (80055979, .negSucc 0)] 0)) (.nil)) (.nil)) (.nil)) (.node (.node (.node (.leaf (.trans [(503, .ofNat 1), (647, .ofNat 1), (7703063, .negSucc 0), (10080361, .negSucc 0), (68638877, .negSucc 0), (88288973, .negSucc 0), (142281367, .ofNat 1), (186191849, .ofNat 1), (3520114163, .negSucc 0), (4606482061, .negSucc 0)] 0)) (.nil)) (.nil)) (.nil))) (.node (.nil) (.node (.node (.node (.nil) (.leaf (.atom 683))) (.nil)) (.nil))))

def dynTable_119 : JTree := .node (.node (.node (.node (.node (.node (.leaf (.trans [(851, .ofNat 1), (899, .ofNat 1)] 0)) (.nil)) (.nil)) (.nil)) (.node (.node (.node (.leaf (.trans [] 0)) (.nil)) (.nil)) (.nil))) (.node (.node (.node (.node (.leaf (.trans [(19307, .negSucc 0)] 0)) (.nil)) (.nil)) (.nil)) (.node (.node (.node (.leaf (.trans [] 0)) (.nil)) (.nil)) (.nil)))) (.node (.node (.node (.node (.node (.leaf (.trans [(4071, .ofNat 1), (5307, .ofNat 1), (53314, .negSucc 0), (65018, .ofNat 1)] 0)) (.nil)) (.nil)) (.nil)) (.nil)) (.node (.nil) (.node (.node (.node (.nil) (.leaf (.atom 479))) (.nil)) (.nil))))

def dynTable_120 : JTree := .node (.node (.node (.node (.node (.node (.leaf (.trans [(719, .ofNat 1)] 0)) (.nil)) (.nil)) (.nil)) (.nil)) (.node (.node (.node (.node (.leaf (.trans [(3773541713, .ofNat 1), (6825265613, .negSucc 0), (71311304431, .negSucc 0), (97276446721, .ofNat 1), (118338723749, .negSucc 0), (128981903731, .negSucc 0), (136159565383, .negSucc 0), (193524402047, .ofNat 1), (3509996633111, .negSucc 0), (3657168410689, .negSucc 0), (4392324440113, .ofNat 1)] 0)) (.nil)) (.nil)) (.nil)) (.node (.node (.node (.leaf (.trans [(24678237, .negSucc 0), (24824913, .negSucc 0), (25044927, .negSucc 0), (25338279, .negSucc 0), (25704969, .negSucc 0), (399778341, .ofNat 1), (404460957, .ofNat 1), (495987087, .negSucc 0), (501796599, .negSucc 0), (507602847, .ofNat 1), (523156827, .ofNat 1), (638030247, .negSucc 0), (842038599, .ofNat 1), (851901423, .ofNat 1), (1083099351, .ofNat 1), (1875221967, .negSucc 0), (20832467811, .negSucc 0), (21076479147, .negSucc 0), (24693680463, .ofNat 1), (26796434739, .negSucc 0), (32190951171, .ofNat 1), (33054552327, .ofNat 1), (40311004299, .negSucc 0), (2148544256709, .ofNat 1), (2800865725953, .ofNat 1)] 0)) (.nil)) (.nil)) (.node (.node (.nil) (.leaf (.atom 809))) (.nil))))) (.node (.node (.node (.node (.node (.leaf (.trans [(10291, .ofNat 1)] 0)) (.nil)) (.nil)) (.nil)) (.node (.node (.node (.leaf (.trans [(401963, .ofNat 1), (7596181, .ofNat 1)] 0)) (.nil)) (.nil)) (.nil))) (.nil))

def dynTable_121 : JTree := .node (.node (.node (.node (.node (.node (.leaf (.atom 71)) (.nil)) (.nil)) (.nil)) (.nil)) (.node (.node (.node (.node (.leaf (.trans [(241889, .negSucc 0), (290513, .ofNat 1)] 0)) (.nil)) (.nil)) (.nil)) (.node (.node (.node (.leaf (.trans [(210330607, .ofNat 1), (222194143, .ofNat 1), (5043026897, .ofNat 1), (7589295737, .negSucc 0)] 0)) (.nil)) (.nil)) (.nil)))) (.node (.node (.node (.node (.node (.leaf (.trans [] 0)) (.nil)) (.nil)) (.nil)) (.nil)) (.node (.node (.node (.node (.leaf (.trans [(359893739, .negSucc 0), (363800291, .negSucc 0), (2807214913, .ofNat 2), (6874993117, .negSucc 1), (15935467981, .negSucc 1), (65429357663, .negSucc 0), (67184660531, .negSucc 0), (194408657797, .ofNat 1), (237087108689, .negSucc 0), (244249758059, .ofNat 2), (301143884147, .negSucc 1), (353043865411, .ofNat 1), (442097926859, .negSucc 0), (550903381597, .ofNat 1), (671842969289, .negSucc 0), (1485016688977, .negSucc 1), (2424203804821, .ofNat 2), (5381044927231, .negSucc 1), (5692868296309, .negSucc 0), (7014788855027, .negSucc 1), (9771915112153, .negSucc 1), (12465642093803, .negSucc 1), (13080523978337, .negSucc 1), (15202219260511, .ofNat 2), (30717590702273, .ofNat 1), (53583408462407, .ofNat 1), (55020914712059, .ofNat 1), (129208122013211, .negSucc 1), (159211077281533, .negSucc 0), (186760204802419, .negSucc 1), (194162618124521, .ofNat 1), (227759594024903, .ofNat 2), (233869803308411, .ofNat 2), (289125467850379, .negSucc 0), (304875226273087, .ofNat 2), (345037000479569, .ofNat 2), (362056340477651, .ofNat 1), (392556538502633, .negSucc 1), (449793996940573, .ofNat 2), (511740984975061, .negSucc 1), (850233407803379, .negSucc 1), (4662177623918701, .ofNat 1), (5169343094328937, .ofNat 4), (6738812036748629, .ofNat 4), (6919597184540273, .ofNat 4), (8438653444581901, .negSucc 3), (11614723577689019, .negSucc 0), (14164498960389103, .ofNat 1), (16249605481502417, .negSucc 1), (19816874539451629, .ofNat 2), (25156187808820697, .negSucc 0), (152947372492850491, .ofNat 2), (186523844857638767, .negSucc 1), (191527804112677379, .negSucc 1), (249677734322274343, .negSucc 1), (449773472727987491, .ofNat 4), (586329604462645447, .ofNat 4), (13307623350866148713, .ofNat 2), (16229040308860998181, .negSucc 1)] 0)) (.nil)) (.nil)) (.nil)) (.node (.node (.node (.leaf (.trans [(15677582, .ofNat 1), (15861214, .ofNat 1), (19450474, .negSucc 0), (19678298, .negSucc 0), (19905994, .ofNat 1), (20515954, .ofNat 1), (25020794, .negSucc 0), (439647783, .negSucc 0), (444797391, .negSucc 0), (563370501, .negSucc 0), (565556223, .negSucc 0), (569969277, .negSucc 0), (715317567, .negSucc 0), (737236347, .negSucc 0), (816959522, .negSucc 0), (826528594, .negSucc 0), (968379626, .ofNat 1), (1050840578, .negSucc 0), (1262390242, .ofNat 1), (1296256954, .ofNat 1), (1580823698, .negSucc 0), (18466102299, .negSucc 0), (18682396323, .negSucc 0), (23752620651, .negSucc 0), (28534372539, .ofNat 1), (34798511343, .negSucc 0), (35732066691, .negSucc 0), (46580711847, .negSucc 0), (84256637518, .ofNat 1), (109837871606, .ofNat 1), (2482714649577, .ofNat 1), (3027743952549, .negSucc 0)] 0)) (.nil)) (.nil)) (.nil))))

def dynTable_122 : JTree := .node (.node (.node (.node (.node (.node (.leaf (.trans [(1, .ofNat 1)] 0)) (.nil)) (.nil)) (.nil)) (.node (.node (.node (.leaf (.trans [(9186091, .negSucc 0)] 0)) (.nil)) (.nil)) (.nil))) (.node (.node (.node (.node (.leaf (.trans [(49781, .ofNat 1), (940747, .ofNat 1), (43730107, .negSucc 0), (53330159, .ofNat 1), (1210407361, .ofNat 1), (1577900237, .ofNat 1)] 0)) (.nil)) (.nil)) (.nil)) (.node (.node (.node (.leaf (.trans [(10705056653, .negSucc 0), (211205804863, .ofNat 1), (303532463807, .negSucc 0), (434231878589, .ofNat 1), (675494607947, .ofNat 1), (3991306468481, .negSucc 0), (6188848404913, .negSucc 0), (6889121191153, .negSucc 0), (7528856638997, .ofNat 1), (7620875237033, .negSucc 0), (8205988973443, .ofNat 1), (8752675555231, .ofNat 1), (12312262909391, .negSucc 0), (12765302543989, .ofNat 1), (223310346916583, .ofNat 1), (232673598264817, .ofNat 1), (279445138277089, .negSucc 0), (315820147272521, .negSucc 0)] 0)) (.nil)) (.nil)) (.nil)))) (.node (.node (.node (.node (.node (.leaf (.trans [(65844193, .negSucc 0), (80298941, .ofNat 1)] 0)) (.nil)) (.nil)) (.nil)) (.node (.node (.node (.leaf (.trans [(497467, .ofNat 1), (639883, .ofNat 1), (7279919, .negSucc 0), (9364031, .negSucc 0), (132049069, .negSucc 0), (169852381, .negSucc 0), (3593463689, .negSucc 0), (4622208761, .negSucc 0)] 0)) (.nil)) (.nil)) (.nil))) (.node (.nil) (.node (.node (.node (.nil) (.leaf (.atom 641))) (.nil)) (.nil))))

def dynTable_123 : JTree := .node (.node (.node (.node (.node (.node (.leaf (.trans [(1, .ofNat 1)] 0)) (.nil)) (.nil)) (.nil)) (.node (.node (.node (.leaf (.trans [(2217, .negSucc 0)] 0)) (.nil)) (.nil)) (.nil))) (.node (.node (.node (.node (.leaf (.trans [(559903, .negSucc 0), (700649, .ofNat 1)] 0)) (.nil)) (.nil)) (.nil)) (.node (.node (.node (.leaf (.trans [(449483, .ofNat 1), (12231823, .ofNat 1)] 0)) (.nil)) (.nil)) (.nil)))) (.node (.node (.node (.node (.node (.leaf (.trans [(589931, .ofNat 1)] 0)) (.nil)) (.nil)) (.nil)) (.nil)) (.node (.nil) (.node (.node (.node (.nil) (.leaf (.atom 433))) (.nil)) (.nil))))

def dynTable_124 : JTree := .node (.node (.node (.node (.node (.node (.leaf (.trans [] 0)) (.nil)) (.nil)) (.nil)) (.node (.node (.node (.leaf (.trans [(43083899, .ofNat 4), (80428921, .ofNat 4), (92176391, .negSucc 3), (102757643, .negSucc 3), (120525037, .ofNat 2), (198500857, .ofNat 2), (2280491299, .ofNat 4), (2734006349, .negSucc 3), (3421269067, .ofNat 4), (6134518277, .ofNat 2)] 1)) (.nil)) (.nil)) (.nil))) (.node (.node (.node (.node (.leaf (.trans [(123534161, .negSucc 0), (350063561, .negSucc 0), (353863409, .negSucc 0), (4018425571, .negSucc 0), (6687208783, .negSucc 1), (11387168971, .negSucc 0), (65349571169, .ofNat 1), (82654375201, .ofNat 1), (91204151309, .negSucc 1), (101168369129, .ofNat 1), (1875964108079, .ofNat 2), (2357988829879, .negSucc 1), (3290891832619, .ofNat 1), (53518067269241, .negSucc 0), (67689846053689, .negSucc 0)] 0)) (.nil)) (.nil)) (.nil)) (.node (.node (.node (.leaf (.trans [(14036698789, .ofNat 1), (241602482699, .ofNat 1), (265261490843, .ofNat 1), (280524940903, .negSucc 0), (283270698889, .ofNat 1), (342108463211, .ofNat 1), (345456996293, .negSucc 0), (1592511226961, .ofNat 1), (1608098612543, .negSucc 0), (1609797518009, .ofNat 1), (1625554100567, .negSucc 0), (5301279535961, .negSucc 0), (5353168079543, .ofNat 1), (5631166740949, .negSucc 0), (6465067203157, .ofNat 1), (6528346816891, .negSucc 0), (7764660932869, .ofNat 1), (7840660876747, .negSucc 0), (10122096676673, .ofNat 1), (10221171032399, .negSucc 0), (12330534540683, .negSucc 0), (15037451603071, .ofNat 1), (18297558671071, .ofNat 1), (23852897044307, .ofNat 1), (30384661320353, .ofNat 1), (30421489838983, .ofNat 2), (30719253197929, .negSucc 1), (127807713347771, .negSucc 1), (146734325919803, .ofNat 1), (148170550969589, .negSucc 0), (191284467613951, .ofNat 1), (193156746252913, .negSucc 0), (297288656569769, .negSucc 0), (300198496601447, .ofNat 1), (341297353173809, .ofNat 1), (345781993674977, .ofNat 1), (444918951926653, .ofNat 1), (450765178195309, .ofNat 1), (460235744591729, .negSucc 1), (464740499024927, .ofNat 2), (541377012650653, .ofNat 1), (660225280573961, .negSucc 0), (841018242275219, .negSucc 1), (1259276459713567, .ofNat 2), (1271602167312721, .negSucc 1), (1535724891354179, .negSucc 1), (1550756456359277, .ofNat 2), (1956260517049841, .negSucc 0), (1975408254573983, .ofNat 1), (4611647101203661, .ofNat 1), (10230786856834211, .ofNat 1), (10726976763602479, .ofNat 2), (10831971642202177, .negSucc 1), (12476747193188407, .negSucc 0), (16073485838466737, .negSucc 1), (19602091425243469, .ofNat 2), (23797443836928929, .ofNat 2), (24030371509068527, .negSucc 1), (24883535108293817, .negSucc 0), (29021686674971773, .negSucc 1), (29305748861023699, .ofNat 2), (34855562927648941, .negSucc 1), (35196726675717283, .ofNat 2), (45438091981585097, .negSucc 1), (45882836764439111, .ofNat 2), (57880643736439763, .negSucc 1), (58447175322767069, .ofNat 2), (243464708889024641, .ofNat 1), (245847723984186383, .negSucc 0), (444898650163590851, .ofNat 4), (579974732600878567, .ofNat 4), (658690389053995667, .negSucc 1), (665137603302485021, .ofNat 2), (858675975119026039, .negSucc 1), (867080633929326457, .ofNat 2), (1034861813519365889, .ofNat 2), (1044990966669637007, .negSucc 1), (1349057146732320013, .ofNat 2), (1362261621251722819, .negSucc 1), (1602080626923808649, .ofNat 1), (1617761677105770887, .negSucc 0), (13163390072287429193, .ofNat 2), (16053143559289943941, .negSucc 1), (30618860536576634627, .ofNat 4), (30918555745743779501, .negSucc 3), (37340606114100229399, .negSucc 3), (37706093286505778137, .ofNat 4), (847500651642694775321, .negSucc 1), (855795927188952799223, .ofNat 2), (1104811092672016991557, .negSucc 1), (1115624904345805086091, .ofNat 2)] 0)) (.nil)) (.nil)) (.nil)))) (.node (.node (.node (.node (.node (.leaf (.trans [(1394, .ofNat 1), (2967, .negSucc 0), (47386, .negSucc 0)] 0)) (.nil)) (.nil)) (.nil)) (.node (.node (.node (.leaf (.trans [(754018, .ofNat 1), (1062687, .ofNat 1), (16797251, .negSucc 0), (61959286, .ofNat 1), (75561182, .negSucc 0), (98915709, .negSucc 0), (120630633, .ofNat 1), (310257859, .ofNat 1), (1211852566, .negSucc 0), (1579784222, .negSucc 0), (1707943269, .negSucc 0), (2226493473, .negSucc 0), (5502163339, .ofNat 1), (6710050943, .negSucc 0), (283873337897, .ofNat 1), (346191932389, .negSucc 0), (355479379393, .negSucc 0), (463406795981, .negSucc 0), (474923804357, .negSucc 0), (579183627409, .ofNat 1)] 0)) (.nil)) (.nil)) (.nil))) (.nil))

def dynTable_125 : JTree := .node (.node (.node (.node (.node (.node (.leaf (.trans [(437, .ofNat 1)] 0)) (.nil)) (.nil)) (.nil)) (.node (.node (.node (.leaf (.atom 331)) (.nil)) (.nil)) (.nil))) (.node (.node (.node (.node (.leaf (.trans [(165499927, .negSucc 0), (174834823, .negSucc 0), (277576627, .negSucc 0), (293233123, .negSucc 0), (3968136617, .negSucc 0), (5245563149, .ofNat 1), (5541435101, .ofNat 1), (5971683857, .ofNat 1), (6655362317, .negSucc 0), (10015713557, .ofNat 1)] 0)) (.nil)) (.nil)) (.nil)) (.node (.node (.node (.leaf (.trans [(93176458901, .ofNat 1), (94169458463, .negSucc 0), (98432005349, .ofNat 1), (99481014287, .negSucc 0), (156275641001, .ofNat 1), (157941100763, .negSucc 0), (165090248249, .ofNat 1), (166849646987, .negSucc 0), (2234060915371, .ofNat 1), (2257869735073, .negSucc 0), (2953252052887, .ofNat 1), (2984725431781, .negSucc 0), (3119827961863, .ofNat 1), (3153076572469, .negSucc 0), (3362058011491, .negSucc 0), (3397888114633, .ofNat 1), (3746968984471, .ofNat 1), (3786901158373, .negSucc 0), (5638846732591, .negSucc 0), (5698941013933, .ofNat 1), (70809140660777, .ofNat 1), (71563767381851, .negSucc 0), (106561301443217, .negSucc 0), (107696945863571, .ofNat 1)] 0)) (.nil)) (.nil)) (.nil)))) (.node (.node (.node (.node (.node (.leaf (.trans [(196673, .ofNat 1), (252977, .ofNat 1), (407683, .negSucc 0), (533501, .negSucc 0), (10086287, .ofNat 1), (13199089, .ofNat 1)] 0)) (.nil)) (.nil)) (.nil)) (.nil)) (.node (.nil) (.node (.node (.node (.leaf (.trans [(10279, .ofNat 1), (10811, .ofNat 1), (10849, .ofNat 1), (11381, .ofNat 1), (11761, .ofNat 1), (9869231, .ofNat 1), (18237169, .negSucc 0), (18428803, .ofNat 1), (19131461, .negSucc 0), (19195339, .ofNat 1), (52283383, .ofNat 1), (52795129, .negSucc 0), (496289789, .negSucc 0), (501504743, .ofNat 1), (520626241, .negSucc 0), (522364559, .ofNat 1), (1044840757, .negSucc 0), (1274214209, .ofNat 1), (3128508137, .ofNat 1), (3165152449, .ofNat 1), (3231285977, .ofNat 1), (3269134129, .ofNat 1), (3450699839, .ofNat 1), (4228516519, .ofNat 2), (5253935347, .ofNat 1), (5286772363, .ofNat 1), (5533509593, .ofNat 1), (5784188639, .ofNat 1), (67270149829, .ofNat 1), (67928585227, .negSucc 0), (87694100993, .ofNat 1), (88552444559, .negSucc 0), (107085723851, .negSucc 0), (108340022227, .negSucc 0), (131403713461, .ofNat 2), (132856462657, .ofNat 1), (132942849197, .ofNat 2), (134412614489, .ofNat 1), (135967892017, .negSucc 0), (140134223797, .negSucc 0), (169022271589, .ofNat 2), (170904533417, .ofNat 1), (300238003477, .ofNat 2), (2882268579163, .negSucc 0), (2916028679651, .negSucc 0), (3575901568241, .ofNat 1), (3617786213257, .ofNat 1), (3707411074987, .negSucc 0), (3771786337061, .negSucc 0), (4599618915809, .ofNat 1), (4851582027989, .negSucc 0), (5519223590033, .ofNat 1), (5580242015021, .ofNat 1), (5583870425641, .ofNat 1), (5645603561317, .ofNat 1), (6614517035393, .negSucc 0), (7099279647617, .ofNat 2), (7177766568029, .ofNat 1), (8622756547981, .negSucc 0), (8854083124297, .negSucc 0), (9131677797233, .ofNat 1), (10797816269189, .ofNat 1), (26123065736711, .ofNat 1), (150195148761373, .ofNat 1), (151954389156821, .ofNat 1), (193193362323277, .ofNat 2), (248501203624573, .ofNat 1), (386299705936351, .ofNat 1), (503584509802067, .ofNat 1), (517094398419479, .ofNat 1), (575514962566699, .negSucc 0), (630611914252123, .negSucc 0), (750247582004783, .negSucc 0), (33611110170536693, .ofNat 1), (43815809794900081, .ofNat 1)] 0)) (.nil)) (.nil)) (.nil))))

def dynTable_126 : JTree := .node (.node (.node (.node (.node (.node (.leaf (.trans [(2279, .ofNat 1)] 0)) (.nil)) (.nil)) (.nil)) (.node (.node (.node (.leaf (.trans [(3664333, .negSucc 3), (76801733, .negSucc 3), (92075083, .ofNat 4), (153909449, .negSucc 3), (155611013, .negSucc 3), (184516999, .ofNat 4), (214848979, .negSucc 1), (233452829, .negSucc 3), (2277984887, .negSucc 3), (2610707977, .ofNat 4), (3135506809, .negSucc 3), (4565045411, .negSucc 3), (5231817181, .ofNat 4), (5846705399, .negSucc 1), (6283505677, .negSucc 3)] 1)) (.nil)) (.nil)) (.nil))) (.node (.node (.node (.node (.leaf (.trans [(22749917, .negSucc 0), (391576147, .negSucc 0), (429921379, .negSucc 0), (19984658899, .ofNat 1), (24371882663, .negSucc 0), (29655686663, .ofNat 1), (38659476571, .ofNat 1), (553156163977, .negSucc 0), (560424625081, .negSucc 0), (721100408309, .negSucc 0), (730575653477, .negSucc 0), (877434380309, .ofNat 1), (1070057180833, .negSucc 0)] 0)) (.nil)) (.nil)) (.nil)) (.node (.node (.node (.leaf (.trans [(282355446227, .ofNat 1), (344340818599, .negSucc 0), (5335871898349, .negSucc 0), (6507253612313, .ofNat 1), (7815327562121, .negSucc 0), (10188146247157, .negSucc 0)] 0)) (.nil)) (.nil)) (.nil)))) (.node (.node (.node (.node (.node (.leaf (.trans [] 0)) (.nil)) (.nil)) (.nil)) (.node (.node (.node (.leaf (.trans [(493511, .negSucc 0), (7222027, .ofNat 1), (130998977, .ofNat 1), (3564887437, .ofNat 1)] 0)) (.nil)) (.nil)) (.nil))) (.node (.nil) (.node (.node (.node (.nil) (.leaf (.atom 733))) (.nil)) (.nil))))

def dynTable_127 : JTree := .node (.node (.node (.node (.node (.node (.leaf (.trans [(851, .ofNat 1), (899, .ofNat 1)] 0)) (.nil)) (.nil)) (.nil)) (.node (.node (.node (.leaf (.trans [(33994, .ofNat 1), (64641, .negSucc 0), (432854, .ofNat 1), (649382, .ofNat 1), (1221567, .negSucc 0)] 0)) (.nil)) (.nil)) (.nil))) (.node (.node (.node (.node (.leaf (.trans [(17089, .ofNat 1)] 0)) (.nil)) (.nil)) (.nil)) (.node (.node (.node (.leaf (.trans [(451351, .ofNat 1), (18308263, .ofNat 1), (260936771, .negSucc 0), (345984281, .ofNat 1), (9415302661, .ofNat 1)] 0)) (.nil)) (.nil)) (.nil)))) (.node (.node (.node (.node (.node (.leaf (.trans [(813390653, .negSucc 0), (991953961, .ofNat 1), (1360813193, .ofNat 1), (1659551941, .negSucc 0)] 0)) (.nil)) (.nil)) (.nil)) (.node (.node (.node (.leaf (.trans [(13478, .ofNat 1), (21597, .negSucc 0), (226979, .ofNat 1), (344926, .negSucc 0), (484329, .negSucc 0), (4117129, .ofNat 1), (105886411, .negSucc 0)] 0)) (.nil)) (.nil)) (.nil))) (.node (.nil) (.node (.node (.node (.nil) (.leaf (.atom 541))) (.nil)) (.nil))))

def dynTable_128 : JTree := .node (.node (.node (.node (.node (.node (.leaf (.trans [(396169, .ofNat 1)] 0)) (.nil)) (.nil)) (.nil)) (.node (.node (.node (.leaf (.atom 401)) (.nil)) (.nil)) (.nil))) (.node (.node (.node (.node (.leaf (.trans [(7215585803, .negSucc 0), (9281280347, .negSucc 0), (93495463519, .negSucc 0), (113739082811, .ofNat 1), (120261560431, .negSucc 0), (136358062261, .negSucc 0), (146300569739, .ofNat 1), (175394962789, .negSucc 0), (204591587657, .ofNat 1), (263162539193, .ofNat 1), (3373568558729, .ofNat 1), (3866312896759, .negSucc 0), (4339361545721, .ofNat 1), (4643510695303, .ofNat 1), (4973169869191, .negSucc 0), (5972865645847, .ofNat 1)] 0)) (.nil)) (.nil)) (.nil)) (.node (.node (.node (.leaf (.trans [(25241, .ofNat 1), (7371530893, .negSucc 0), (7457873861, .negSucc 0), (9481869757, .negSucc 0), (9646512371, .negSucc 0), (12408138179, .negSucc 0)] 0)) (.nil)) (.nil)) (.node (.node (.nil) (.leaf (.atom 853))) (.nil))))) (.node (.node (.node (.node (.node (.leaf (.trans [(10537, .ofNat 1), (20459, .ofNat 1)] 0)) (.nil)) (.nil)) (.nil)) (.node (.node (.node (.leaf (.trans [(541, .ofNat 1)] 0)) (.nil)) (.nil)) (.nil))) (.nil))

/-- Cells as polynomials in sines and cosines. -/
def dynTable : JTree := .node (.node (.node (.node (.node (.node (.node (dynTable_1) (dynTable_2)) (.node (dynTable_3) (dynTable_4))) (.node (.node (dynTable_5) (dynTable_6)) (.node (dynTable_7) (dynTable_8)))) (.node (.node (.node (dynTable_9) (dynTable_10)) (.node (dynTable_11) (dynTable_12))) (.node (.node (dynTable_13) (dynTable_14)) (.node (dynTable_15) (dynTable_16))))) (.node (.node (.node (.node (dynTable_17) (dynTable_18)) (.node (dynTable_19) (dynTable_20))) (.node (.node (dynTable_21) (dynTable_22)) (.node (dynTable_23) (dynTable_24)))) (.node (.node (.node (dynTable_25) (dynTable_26)) (.node (dynTable_27) (dynTable_28))) (.node (.node (dynTable_29) (dynTable_30)) (.node (dynTable_31) (dynTable_32)))))) (.node (.node (.node (.node (.node (dynTable_33) (dynTable_34)) (.node (dynTable_35) (dynTable_36))) (.node (.node (dynTable_37) (dynTable_38)) (.node (dynTable_39) (dynTable_40)))) (.node (.node (.node (dynTable_41) (dynTable_42)) (.node (dynTable_43) (dynTable_44))) (.node (.node (dynTable_45) (dynTable_46)) (.node (dynTable_47) (dynTable_48))))) (.node (.node (.node (.node (dynTable_49) (dynTable_50)) (.node (dynTable_51) (dynTable_52))) (.node (.node (dynTable_53) (dynTable_54)) (.node (dynTable_55) (dynTable_56)))) (.node (.node (.node (dynTable_57) (dynTable_58)) (.node (dynTable_59) (dynTable_60))) (.node (.node (dynTable_61) (dynTable_62)) (.node (dynTable_63) (dynTable_64))))))) (.node (.node (.node (.node (.node (.node (dynTable_65) (dynTable_66)) (.node (dynTable_67) (dynTable_68))) (.node (.node (dynTable_69) (dynTable_70)) (.node (dynTable_71) (dynTable_72)))) (.node (.node (.node (dynTable_73) (dynTable_74)) (.node (dynTable_75) (dynTable_76))) (.node (.node (dynTable_77) (dynTable_78)) (.node (dynTable_79) (dynTable_80))))) (.node (.node (.node (.node (dynTable_81) (dynTable_82)) (.node (dynTable_83) (dynTable_84))) (.node (.node (dynTable_85) (dynTable_86)) (.node (dynTable_87) (dynTable_88)))) (.node (.node (.node (dynTable_89) (dynTable_90)) (.node (dynTable_91) (dynTable_92))) (.node (.node (dynTable_93) (dynTable_94)) (.node (dynTable_95) (dynTable_96)))))) (.node (.node (.node (.node (.node (dynTable_97) (dynTable_98)) (.node (dynTable_99) (dynTable_100))) (.node (.node (dynTable_101) (dynTable_102)) (.node (dynTable_103) (dynTable_104)))) (.node (.node (.node (dynTable_105) (dynTable_106)) (.node (dynTable_107) (dynTable_108))) (.node (.node (dynTable_109) (dynTable_110)) (.node (dynTable_111) (dynTable_112))))) (.node (.node (.node (.node (dynTable_113) (dynTable_114)) (.node (dynTable_115) (dynTable_116))) (.node (.node (dynTable_117) (dynTable_118)) (.node (dynTable_119) (dynTable_120)))) (.node (.node (.node (dynTable_121) (dynTable_122)) (.node (dynTable_123) (dynTable_124))) (.node (.node (dynTable_125) (dynTable_126)) (.node (dynTable_127) (dynTable_128)))))))

/-- The primes of cells. -/
def dynPrimes : List (ℕ × ℕ) := [(17, 3), (19, 4), (23, 5), (29, 6), (31, 7), (37, 8), (41, 9), (43, 10), (47, 11), (53, 12), (59, 13), (61, 14), (71, 15), (67, 17), (251, 39), (257, 40), (263, 450), (269, 451), (271, 452), (277, 453), (281, 454), (283, 455), (293, 538), (307, 539), (311, 540), (313, 541), (317, 542), (331, 543), (337, 544), (347, 545), (349, 546), (353, 547), (359, 548), (367, 549), (373, 550), (379, 551), (383, 582), (389, 584), (397, 634), (401, 639), (409, 644), (419, 651), (421, 656), (431, 661), (433, 5039), (439, 5040), (443, 5041), (449, 5042), (457, 5043), (461, 5044), (463, 5045), (467, 5046), (479, 5047), (487, 5048), (491, 5049), (499, 5050), (503, 5051), (509, 5052), (521, 5053), (523, 5054), (541, 5055), (547, 5056), (557, 5057), (563, 5058), (569, 5059), (571, 5060), (577, 5061), (587, 5062), (593, 5063), (599, 5064), (601, 5065), (607, 5066), (613, 5067), (617, 5068), (619, 5069), (631, 5070), (641, 5071), (643, 5072), (647, 5073), (653, 5074), (659, 5075), (661, 5076), (673, 5077), (677, 5078), (683, 5079), (691, 5080), (701, 5081), (709, 5082), (719, 5083), (727, 5085), (733, 5087), (739, 5089), (743, 5092), (751, 5096), (757, 6001), (761, 6002), (769, 6003), (773, 6004), (787, 6005), (797, 6006), (809, 6007), (811, 6008), (821, 6009), (823, 6011), (827, 6012), (829, 6013), (839, 6014), (853, 6015), (857, 6016), (859, 6017), (863, 6018), (877, 6019)]

/-- A frame of the bicycle, as it moves. -/
def dynB : Fr PolyQ :=
  ⟨⟨([(1454, .ofNat 1), (2199, .ofNat 1)], 0), ([(1466, .ofNat 1), (2181, .negSucc 0)], 0), ([], 0)⟩,
    ⟨([], 0), ([], 0), ([(739, .ofNat 1)], 0)⟩,
    ⟨([(1514, .ofNat 1), (2283, .ofNat 1), (1083374, .ofNat 1), (1611759, .negSucc 0)], 0), ([(1522, .ofNat 1), (2271, .negSucc 0), (1074506, .negSucc 0), (1625061, .negSucc 0)], 0), ([], 0)⟩,
    ⟨([], 0), ([], 0), ([(769, .ofNat 1)], 0)⟩,
    ⟨([], 0), ([], 0), ([(1, .ofNat 1)], 0)⟩⟩

/-- The same frame in another motion; without accelerations. -/
def virB : Fr PolyQ :=
  ⟨⟨([(1646, .ofNat 1), (2481, .ofNat 1)], 0), ([(1654, .ofNat 1), (2469, .negSucc 0)], 0), ([], 0)⟩,
    ⟨([], 0), ([], 0), ([(829, .ofNat 1)], 0)⟩,
    ⟨([], 0), ([], 0), ([], 0)⟩,
    ⟨([], 0), ([], 0), ([], 0)⟩,
    ⟨([], 0), ([], 0), ([(1, .ofNat 1)], 0)⟩⟩

/-- A frame of the bicycle, as it moves. -/
def dynA : Fr PolyQ :=
  ⟨⟨([(1454, .ofNat 1), (2199, .ofNat 1)], 0), ([(24922, .ofNat 1), (37077, .negSucc 0)], 0), ([(27854, .negSucc 0), (41439, .ofNat 1)], 0)⟩,
    ⟨([(439, .ofNat 1)], 0), ([(14041, .ofNat 1)], 0), ([(12563, .ofNat 1)], 0)⟩,
    ⟨([(1514, .ofNat 1), (2283, .ofNat 1), (1083374, .ofNat 1), (1611759, .negSucc 0)], 0), ([(25874, .ofNat 1), (38607, .negSucc 0), (12227906, .negSucc 0), (18191721, .ofNat 1), (18266602, .negSucc 0), (27626037, .negSucc 0)], 0), ([(28918, .negSucc 0), (43149, .ofNat 1), (10940758, .negSucc 0), (16276803, .ofNat 1), (20415614, .ofNat 1), (30876159, .ofNat 1)], 0)⟩,
    ⟨([(773, .ofNat 1)], 0), ([(14611, .ofNat 1), (5515157, .ofNat 1)], 0), ([(13073, .ofNat 1), (6163999, .negSucc 0)], 0)⟩,
    ⟨([], 0), ([(19, .ofNat 1)], 0), ([(17, .ofNat 1)], 0)⟩⟩

/-- The same frame in another motion; without accelerations. -/
def virA : Fr PolyQ :=
  ⟨⟨([(1646, .ofNat 1), (2481, .ofNat 1)], 0), ([(28118, .ofNat 1), (41973, .negSucc 0)], 0), ([(31426, .negSucc 0), (46911, .ofNat 1)], 0)⟩,
    ⟨([(839, .ofNat 1)], 0), ([(15751, .ofNat 1)], 0), ([(14093, .ofNat 1)], 0)⟩,
    ⟨([], 0), ([], 0), ([], 0)⟩,
    ⟨([], 0), ([], 0), ([], 0)⟩,
    ⟨([], 0), ([(19, .ofNat 1)], 0), ([(17, .ofNat 1)], 0)⟩⟩

/-- A frame of the bicycle, as it moves. -/
def dynC : Fr PolyQ :=
  ⟨⟨([(33442, .ofNat 1), (50577, .ofNat 1), (807766, .ofNat 1), (1201731, .negSucc 0), (232196017, .negSucc 0)], 0), ([(24922, .ofNat 1), (37077, .negSucc 0), (315641, .ofNat 1)], 0), ([(42166, .ofNat 1), (63771, .ofNat 1), (640642, .negSucc 0), (953097, .ofNat 1), (292768891, .negSucc 0)], 0)⟩,
    ⟨([(10097, .ofNat 1), (364327, .negSucc 0)], 0), ([(743, .ofNat 1), (14041, .ofNat 1)], 0), ([(12731, .ofNat 1), (288949, .ofNat 1)], 0)⟩,
    ⟨([(34822, .ofNat 1), (52509, .ofNat 1), (838622, .ofNat 1), (1251321, .negSucc 0), (24917602, .ofNat 1), (31329338, .negSucc 0), (37070457, .negSucc 0), (47381853, .negSucc 0), (241622107, .negSucc 0), (317281982, .ofNat 1), (472027287, .negSucc 0), (475997006, .ofNat 1), (592052806, .negSucc 0), (708151071, .negSucc 0), (895408611, .negSucc 0), (91204151309, .negSucc 0), (217527286013, .ofNat 1)], 0), ([(25874, .ofNat 1), (38607, .negSucc 0), (555787, .ofNat 1), (12227906, .negSucc 0), (18191721, .ofNat 1), (18266602, .negSucc 0), (27626037, .negSucc 0)], 0), ([(43906, .ofNat 1), (66207, .ofNat 1), (665114, .negSucc 0), (992427, .ofNat 1), (24847406, .ofNat 1), (31417846, .ofNat 1), (37578711, .ofNat 1), (46741011, .negSucc 0), (251637434, .negSucc 0), (304653961, .negSucc 0), (374366469, .ofNat 1), (469559122, .ofNat 1), (600170138, .ofNat 1), (710151657, .ofNat 1), (892886133, .negSucc 0), (114996538607, .negSucc 0), (172521640631, .negSucc 0)], 0)⟩,
    ⟨([(17779, .ofNat 1), (379117, .negSucc 0), (9459133, .negSucc 0), (178755971, .ofNat 1), (214689107, .negSucc 0)], 0), ([(787, .ofNat 1), (14611, .ofNat 1), (5515157, .ofNat 1)], 0), ([(22417, .ofNat 1), (300679, .ofNat 1), (7502071, .ofNat 1), (141771977, .negSucc 0), (270694961, .negSucc 0)], 0)⟩,
    ⟨([(493, .negSucc 0)], 0), ([(19, .ofNat 1)], 0), ([(391, .ofNat 1)], 0)⟩⟩

/-- The same frame in another motion; without accelerations. -/
def virC : Fr PolyQ :=
  ⟨⟨([(37858, .ofNat 1), (57063, .ofNat 1), (911354, .ofNat 1), (1360419, .negSucc 0), (260474287, .negSucc 0)], 0), ([(28118, .ofNat 1), (41973, .negSucc 0), (603241, .ofNat 1)], 0), ([(47734, .ofNat 1), (71949, .ofNat 1), (722798, .negSucc 0), (1078953, .ofNat 1), (328424101, .negSucc 0)], 0)⟩,
    ⟨([(19297, .ofNat 1), (408697, .negSucc 0)], 0), ([(853, .ofNat 1), (15751, .ofNat 1)], 0), ([(24331, .ofNat 1), (324139, .ofNat 1)], 0)⟩,
    ⟨([], 0), ([], 0), ([], 0)⟩,
    ⟨([], 0), ([], 0), ([], 0)⟩,
    ⟨([(493, .negSucc 0)], 0), ([(19, .ofNat 1)], 0), ([(391, .ofNat 1)], 0)⟩⟩

/-- A frame of the bicycle, as it moves. -/
def dynD : Fr PolyQ :=
  ⟨⟨([(1036702, .ofNat 1), (1560142, .negSucc 0), (1567887, .ofNat 1), (2359527, .negSucc 0), (23703754, .ofNat 1), (25040746, .ofNat 1), (35264589, .negSucc 0), (37253661, .negSucc 0), (7198076527, .negSucc 0), (10832448967, .ofNat 1)], 0), ([(24922, .ofNat 1), (37077, .negSucc 0), (315641, .ofNat 1)], 0), ([(1237354, .ofNat 1), (1307146, .ofNat 1), (1871349, .ofNat 1), (1976901, .ofNat 1), (19859902, .negSucc 0), (29546007, .ofNat 1), (29887342, .ofNat 1), (44464047, .negSucc 0), (8591252629, .negSucc 0), (9075835621, .negSucc 0)], 0)⟩,
    ⟨([(313007, .ofNat 1), (471047, .negSucc 0), (10691113, .negSucc 0), (11294137, .negSucc 0)], 0), ([(443, .ofNat 1), (743, .ofNat 1), (14041, .ofNat 1)], 0), ([(373589, .ofNat 1), (394661, .ofNat 1), (8957419, .ofNat 1), (13480099, .negSucc 0)], 0)⟩,
    ⟨([(1079482, .ofNat 1), (1624522, .negSucc 0), (1627779, .ofNat 1), (2449659, .negSucc 0), (24609218, .ofNat 1), (25997282, .ofNat 1), (36719799, .negSucc 0), (38790951, .negSucc 0), (548147822, .negSucc 0), (579065678, .negSucc 0), (772445662, .ofNat 1), (829007607, .negSucc 0), (875767143, .negSucc 0), (919354022, .negSucc 0), (971209478, .negSucc 0), (1149184167, .negSucc 0), (1162460302, .negSucc 0), (1390412307, .negSucc 0), (1468837443, .negSucc 0), (1729417407, .ofNat 1), (7490285317, .negSucc 0), (8797936586, .ofNat 1), (9310585058, .ofNat 1), (9835741442, .ofNat 1), (11272196557, .ofNat 1), (13088881101, .negSucc 0), (13240092506, .negSucc 0), (13851559353, .negSucc 0), (14632845897, .negSucc 0), (14755907186, .ofNat 1), (17373687514, .negSucc 0), (18353636986, .negSucc 0), (19697572821, .ofNat 1), (21952683201, .negSucc 0), (22206295106, .negSucc 0), (26275611309, .negSucc 0), (27757666941, .negSucc 0), (33036786921, .ofNat 1), (2827328690579, .negSucc 0), (3805924914647, .ofNat 1), (4020595180103, .ofNat 1), (4254871928459, .ofNat 1), (6383300703347, .ofNat 1), (6743345866403, .ofNat 1)], 0), ([(25874, .ofNat 1), (38607, .negSucc 0), (555787, .ofNat 1), (12227906, .negSucc 0), (18191721, .ofNat 1), (18266602, .negSucc 0), (27626037, .negSucc 0)], 0), ([(1288414, .ofNat 1), (1361086, .ofNat 1), (1942833, .ofNat 1), (2052417, .ofNat 1), (20618534, .negSucc 0), (30765237, .ofNat 1), (31029014, .ofNat 1), (46298877, .negSucc 0), (459258986, .ofNat 1), (691142906, .negSucc 0), (694573941, .ofNat 1), (770269586, .ofNat 1), (921951274, .ofNat 1), (973953226, .ofNat 1), (1045270461, .negSucc 0), (1159185506, .negSucc 0), (1164940041, .ofNat 1), (1371606909, .negSucc 0), (1448971341, .negSucc 0), (1753128561, .negSucc 0), (7800760454, .negSucc 0), (8940017959, .negSucc 0), (9444272791, .negSucc 0), (10500763022, .ofNat 1), (11093050478, .ofNat 1), (11605360539, .ofNat 1), (11739433334, .ofNat 1), (14556332782, .ofNat 1), (15622212927, .negSucc 0), (16503371823, .negSucc 0), (17465009619, .negSucc 0), (17611889222, .ofNat 1), (18605274278, .ofNat 1), (21905953822, .negSucc 0), (22014701367, .ofNat 1), (26201589627, .negSucc 0), (27679470123, .negSucc 0), (33130118607, .negSucc 0), (3188747901461, .negSucc 0), (3374553598433, .negSucc 0), (3564892696817, .negSucc 0), (4798774892381, .ofNat 1), (5348170859561, .negSucc 0), (8048509582481, .ofNat 1)], 0)⟩,
    ⟨([(551149, .ofNat 1), (829429, .negSucc 0), (11125123, .negSucc 0), (11752627, .negSucc 0), (165499927, .negSucc 0), (174834823, .negSucc 0), (277576627, .negSucc 0), (293233123, .negSucc 0), (3968136617, .negSucc 0), (5245563149, .ofNat 1), (5541435101, .ofNat 1), (5971683857, .ofNat 1), (6655362317, .negSucc 0), (10015713557, .ofNat 1)], 0), ([(787, .ofNat 1), (797, .ofNat 1), (14611, .ofNat 1), (5515157, .ofNat 1)], 0), ([(657823, .ofNat 1), (694927, .ofNat 1), (9321049, .ofNat 1), (14027329, .negSucc 0), (138662101, .ofNat 1), (208673821, .negSucc 0), (232564201, .ofNat 1), (349987921, .negSucc 0), (4394931287, .negSucc 0), (4736163059, .negSucc 0), (5003302691, .negSucc 0), (6613970927, .ofNat 1), (7943496959, .negSucc 0), (8391543791, .negSucc 0)], 0)⟩,
    ⟨([(14467, .negSucc 0), (15283, .negSucc 0)], 0), ([(19, .ofNat 1)], 0), ([(12121, .ofNat 1), (18241, .negSucc 0)], 0)⟩⟩

/-- The same frame in another motion; without accelerations. -/
def virD : Fr PolyQ :=
  ⟨⟨([(1173598, .ofNat 1), (1766158, .negSucc 0), (1768953, .ofNat 1), (2662113, .negSucc 0), (26743526, .ofNat 1), (28251974, .ofNat 1), (39921261, .negSucc 0), (42172989, .negSucc 0), (8074702897, .negSucc 0), (12151691737, .ofNat 1)], 0), ([(28118, .ofNat 1), (41973, .negSucc 0), (603241, .ofNat 1)], 0), ([(1400746, .ofNat 1), (1479754, .ofNat 1), (2111331, .ofNat 1), (2230419, .ofNat 1), (22406738, .negSucc 0), (33447543, .ofNat 1), (33720098, .ofNat 1), (50335503, .negSucc 0), (9637548619, .negSucc 0), (10181147131, .negSucc 0)], 0)⟩,
    ⟨([(598207, .ofNat 1), (900247, .negSucc 0), (11993143, .negSucc 0), (12669607, .negSucc 0)], 0), ([(853, .ofNat 1), (857, .ofNat 1), (15751, .ofNat 1)], 0), ([(713989, .ofNat 1), (754261, .ofNat 1), (10048309, .ofNat 1), (15121789, .negSucc 0)], 0)⟩,
    ⟨([], 0), ([], 0), ([], 0)⟩,
    ⟨([], 0), ([], 0), ([], 0)⟩,
    ⟨([(14467, .negSucc 0), (15283, .negSucc 0)], 0), ([(19, .ofNat 1)], 0), ([(12121, .ofNat 1), (18241, .negSucc 0)], 0)⟩⟩

/-- A frame of the bicycle, as it moves. -/
def dynE : Fr PolyQ :=
  ⟨⟨([(1071646, .ofNat 1), (1371122, .ofNat 1), (1594311, .negSucc 0), (2073657, .ofNat 1), (13572563, .ofNat 1), (33118406, .ofNat 1), (49270971, .negSucc 0), (268789603, .ofNat 1), (6100580237, .ofNat 1), (9520036697, .negSucc 0)], 0), ([(1021802, .ofNat 1), (1438006, .negSucc 0), (1520157, .negSucc 0), (2174811, .negSucc 0), (12941281, .ofNat 1), (34733938, .negSucc 0), (51674433, .ofNat 1), (256287761, .ofNat 1), (5816832319, .ofNat 1), (9984428731, .ofNat 1)], 0), ([(42166, .ofNat 1), (63771, .ofNat 1), (364813, .negSucc 0), (640642, .negSucc 0), (953097, .ofNat 1), (6894131, .negSucc 0), (292768891, .negSucc 0)], 0)⟩,
    ⟨([(31949, .ofNat 1), (413977, .ofNat 1), (603763, .ofNat 1), (14937407, .negSucc 0)], 0), ([(30463, .ofNat 1), (434171, .negSucc 0), (575681, .ofNat 1), (15666061, .ofNat 1)], 0), ([(449, .ofNat 1), (12731, .ofNat 1), (288949, .ofNat 1)], 0)⟩,
    ⟨([(1112582, .ofNat 1), (1427702, .ofNat 1), (1660101, .negSucc 0), (2152869, .ofNat 1), (23898841, .ofNat 1), (34383502, .ofNat 1), (51304161, .negSucc 0), (458789098, .ofNat 1), (473290121, .ofNat 1), (525799958, .negSucc 0), (645664694, .negSucc 0), (682550493, .negSucc 0), (782244003, .ofNat 1), (785463886, .negSucc 0), (976490139, .negSucc 0), (1021621682, .ofNat 1), (1187919591, .negSucc 0), (1284502858, .negSucc 0), (1519888737, .negSucc 0), (1942655973, .negSucc 0), (5810635169, .ofNat 1), (6348235727, .ofNat 1), (9906506387, .negSucc 0), (13008561262, .ofNat 1), (15595538162, .negSucc 0), (19353118767, .negSucc 0), (19515877246, .ofNat 1), (23201820417, .ofNat 1), (24274165046, .negSucc 0), (29034193911, .negSucc 0), (36711753051, .negSucc 0), (115073204689, .ofNat 1), (158391225023, .ofNat 1), (2611757711231, .ofNat 1), (2993231750401, .negSucc 0), (3739370203669, .negSucc 0), (4483008500219, .ofNat 1), (5715182711593, .negSucc 0), (8918618726533, .ofNat 1)], 0), ([(1060834, .ofNat 1), (1497346, .negSucc 0), (1582887, .negSucc 0), (2257887, .negSucc 0), (22787267, .ofNat 1), (36060746, .negSucc 0), (53806803, .ofNat 1), (451276627, .ofNat 1), (481169054, .negSucc 0), (501344146, .negSucc 0), (615633778, .negSucc 0), (715845639, .ofNat 1), (745860561, .ofNat 1), (748930682, .negSucc 0), (931071993, .negSucc 0), (1071456886, .negSucc 0), (1132667517, .negSucc 0), (1347161534, .ofNat 1), (1594029651, .ofNat 1), (2037419679, .ofNat 1), (6052968949, .ofNat 1), (6094080787, .negSucc 0), (10389750601, .ofNat 1), (13643125226, .negSucc 0), (14870164294, .negSucc 0), (20297173341, .ofNat 1), (20467871258, .negSucc 0), (22122665979, .ofNat 1), (25458270658, .ofNat 1), (30450496053, .ofNat 1), (38502570273, .ofNat 1), (120686531747, .negSucc 0), (151024191301, .ofNat 1), (2739160526413, .negSucc 0), (2854011668987, .negSucc 0), (3921778506287, .ofNat 1), (4274496476953, .ofNat 1), (5449360259891, .negSucc 0), (9353673298559, .negSucc 0)], 0), ([(43906, .ofNat 1), (66207, .ofNat 1), (386417, .negSucc 0), (665114, .negSucc 0), (992427, .ofNat 1), (7174001, .negSucc 0), (24847406, .ofNat 1), (31417846, .ofNat 1), (37578711, .ofNat 1), (46741011, .negSucc 0), (251637434, .negSucc 0), (304653961, .negSucc 0), (374366469, .ofNat 1), (469559122, .ofNat 1), (600170138, .ofNat 1), (710151657, .ofNat 1), (892886133, .negSucc 0), (2707942087, .negSucc 0), (114996538607, .negSucc 0), (172521640631, .negSucc 0)], 0)⟩,
    ⟨([(33841, .ofNat 1), (628273, .ofNat 1), (728939, .ofNat 1), (13677887, .ofNat 1), (15543797, .negSucc 0), (194942779, .negSucc 0), (237151751, .ofNat 1), (258480769, .ofNat 1), (387824453, .negSucc 0), (7034061389, .ofNat 1), (7328994811, .ofNat 1), (8802253387, .negSucc 0)], 0), ([(32267, .ofNat 1), (599051, .ofNat 1), (764497, .negSucc 0), (14345101, .negSucc 0), (16302031, .ofNat 1), (185875673, .negSucc 0), (226121437, .ofNat 1), (271089587, .negSucc 0), (406742719, .ofNat 1), (6706895743, .ofNat 1), (7686506753, .negSucc 0), (9231631601, .ofNat 1)], 0), ([(809, .ofNat 1), (22417, .ofNat 1), (300679, .ofNat 1), (7502071, .ofNat 1), (141771977, .negSucc 0), (270694961, .negSucc 0)], 0)⟩,
    ⟨([(817, .ofNat 1), (20213, .negSucc 0)], 0), ([(779, .ofNat 1), (21199, .ofNat 1)], 0), ([(391, .ofNat 1)], 0)⟩⟩

/-- The same frame in another motion; without accelerations. -/
def virE : Fr PolyQ :=
  ⟨⟨([(1209074, .ofNat 1), (1552178, .ofNat 1), (1804839, .negSucc 0), (2339583, .ofNat 1), (25939363, .ofNat 1), (37365514, .ofNat 1), (55777179, .negSucc 0), (513700403, .ofNat 1), (6843546707, .ofNat 1), (10679445767, .negSucc 0)], 0), ([(1152838, .ofNat 1), (1627894, .negSucc 0), (1720893, .negSucc 0), (2453709, .negSucc 0), (24732881, .ofNat 1), (39188222, .negSucc 0), (58498017, .ofNat 1), (489807361, .ofNat 1), (6525242209, .ofNat 1), (11200394341, .ofNat 1)], 0), ([(47734, .ofNat 1), (71949, .ofNat 1), (418823, .negSucc 0), (722798, .negSucc 0), (1078953, .ofNat 1), (7733741, .negSucc 0), (328424101, .negSucc 0)], 0)⟩,
    ⟨([(36679, .ofNat 1), (677293, .ofNat 1), (791177, .ofNat 1), (16756577, .negSucc 0)], 0), ([(34973, .ofNat 1), (645791, .ofNat 1), (829771, .negSucc 0), (17573971, .ofNat 1)], 0), ([(859, .ofNat 1), (24331, .ofNat 1), (324139, .ofNat 1)], 0)⟩,
    ⟨([], 0), ([], 0), ([], 0)⟩,
    ⟨([], 0), ([], 0), ([], 0)⟩,
    ⟨([(817, .ofNat 1), (20213, .negSucc 0)], 0), ([(779, .ofNat 1), (21199, .ofNat 1)], 0), ([(391, .ofNat 1)], 0)⟩⟩

/-- A frame of the bicycle, as it moves. -/
def dynF : Fr PolyQ :=
  ⟨⟨([(2234798, .negSucc 0), (3379863, .negSucc 0), (19335089, .ofNat 1), (33954026, .ofNat 1), (50367362, .ofNat 1), (50514141, .negSucc 0), (64442734, .ofNat 1), (74932617, .negSucc 0), (97461879, .ofNat 1), (365388943, .ofNat 1), (637910461, .ofNat 1), (714448739, .ofNat 1), (812113117, .ofNat 1), (1556565082, .ofNat 1), (2315735637, .negSucc 0), (10182612463, .negSucc 0), (11574564689, .negSucc 0), (12633111341, .ofNat 1), (13501446493, .ofNat 1), (15347079779, .ofNat 1), (15516751223, .ofNat 1), (286727271139, .ofNat 1), (367416128633, .ofNat 1), (417641520199, .ofNat 1), (447441724759, .negSucc 0)], 0), ([(225847, .ofNat 1), (1021802, .ofNat 1), (1438006, .negSucc 0), (1520157, .negSucc 0), (2174811, .negSucc 0), (6403693, .ofNat 1), (12941281, .ofNat 1), (15942551, .negSucc 0), (34733938, .negSucc 0), (51674433, .ofNat 1), (145341347, .ofNat 1), (206574523, .negSucc 0), (256287761, .ofNat 1), (301277737, .negSucc 0), (5816832319, .ofNat 1), (7453766093, .ofNat 1), (9984428731, .ofNat 1)], 0), ([(1981802, .ofNat 1), (2997237, .ofNat 1), (17146211, .negSucc 0), (30110174, .negSucc 0), (44795559, .ofNat 1), (56797238, .ofNat 1), (72669466, .ofNat 1), (84498483, .negSucc 0), (109903821, .ofNat 1), (324024157, .negSucc 0), (719345839, .ofNat 1), (720175783, .negSucc 0), (805654961, .ofNat 1), (1755275518, .ofNat 1), (2611361463, .negSucc 0), (10264236611, .ofNat 1), (11482520437, .negSucc 0), (13609674521, .negSucc 0), (13760137877, .negSucc 0), (14245848959, .ofNat 1), (15225035407, .ofNat 1), (323330752561, .ofNat 1), (370361348101, .negSucc 0), (414320315267, .ofNat 1), (504561944941, .negSucc 0)], 0)⟩,
    ⟨([(23797, .negSucc 0), (674743, .negSucc 0), (1501603, .ofNat 1), (15314297, .negSucc 0), (19456919, .ofNat 1), (28376861, .ofNat 1), (702058129, .negSucc 0)], 0), ([(751, .ofNat 1), (30463, .ofNat 1), (434171, .negSucc 0), (575681, .ofNat 1), (15666061, .ofNat 1)], 0), ([(21103, .ofNat 1), (598357, .ofNat 1), (1693297, .ofNat 1), (13580603, .ofNat 1), (21940781, .ofNat 1), (31999439, .ofNat 1), (791682571, .negSucc 0)], 0)⟩,
    ⟨([(2327018, .negSucc 0), (3508971, .negSucc 0), (20480101, .ofNat 1), (35251042, .ofNat 1), (52291354, .ofNat 1), (52598631, .negSucc 0), (67101994, .ofNat 1), (78024747, .negSucc 0), (101184843, .ofNat 1), (380222053, .ofNat 1), (756757951, .ofNat 1), (860205953, .ofNat 1), (1123245527, .ofNat 1), (1316912518, .negSucc 0), (1488333302, .negSucc 0), (1616024594, .ofNat 1), (1665145838, .negSucc 0), (1991671683, .negSucc 0), (2250924987, .negSucc 0), (2411295567, .negSucc 0), (2477273583, .ofNat 1), (12876804461, .ofNat 1), (13336784002, .ofNat 1), (14049543103, .ofNat 1), (15970100609, .ofNat 1), (16146659933, .ofNat 1), (17929748141, .negSucc 0), (19841422857, .negSucc 0), (20380725523, .negSucc 0), (21563087606, .ofNat 1), (22244635687, .ofNat 1), (22612740674, .ofNat 1), (24712598026, .negSucc 0), (24886633466, .negSucc 0), (30346240618, .negSucc 0), (31809017314, .negSucc 0), (32079873171, .negSucc 0), (33641464809, .negSucc 0), (36765468141, .ofNat 1), (36916802642, .negSucc 0), (37638037821, .negSucc 0), (42654725738, .negSucc 0), (45895036533, .negSucc 0), (47322965049, .ofNat 1), (48016219054, .ofNat 1), (54574768966, .negSucc 0), (55832220777, .negSucc 0), (60371634326, .negSucc 0), (63458360733, .ofNat 1), (71434770639, .negSucc 0), (82537769571, .negSucc 0), (91304830731, .negSucc 0), (143520930611, .ofNat 1), (243342141907, .ofNat 1), (273099852943, .ofNat 1), (298367079169, .ofNat 1), (336435653753, .negSucc 0), (382331533043, .ofNat 1), (382426047559, .negSucc 0), (434595844429, .ofNat 1), (465605800189, .negSucc 0), (540228725089, .negSucc 0), (540852013033, .ofNat 1), (605046875711, .negSucc 0), (611402379314, .ofNat 1), (732990293614, .negSucc 0), (909596582049, .negSucc 0), (917246230562, .ofNat 1), (1090485559599, .ofNat 1), (1140885757162, .negSucc 0), (1318211914018, .negSucc 0), (1364607113817, .negSucc 0), (1725452393397, .negSucc 0), (1961132458713, .ofNat 1), (4359342158869, .negSucc 0), (4955259566507, .negSucc 0), (5303226061961, .ofNat 1), (5408440620383, .ofNat 1), (6028171388983, .ofNat 1), (6094816546171, .ofNat 1), (6357864083911, .negSucc 0), (7226977299833, .negSucc 0), (7444387576081, .ofNat 1), (7708441694861, .negSucc 0), (8623372848187, .ofNat 1), (9143646953443, .ofNat 1), (9539336988707, .ofNat 1), (10220865565271, .ofNat 1), (10333863545627, .ofNat 1), (10698632568209, .negSucc 0), (10843354145821, .ofNat 1), (11434001590657, .negSucc 0), (122752612427857, .ofNat 1), (140681892268847, .negSucc 0), (157296825860579, .ofNat 1), (175750399572443, .negSucc 0), (178799133612637, .ofNat 1), (180271642878109, .negSucc 0), (204914583528227, .negSucc 0), (210701399510293, .ofNat 1), (216509455938253, .ofNat 1), (242821395173311, .negSucc 0), (246106066851059, .ofNat 1), (268613587444871, .negSucc 0), (278141372423851, .ofNat 1), (311154556765517, .negSucc 0), (378926020650691, .ofNat 1), (419175080147051, .ofNat 1)], 0), ([(406927, .ofNat 1), (1060834, .ofNat 1), (1497346, .negSucc 0), (1582887, .negSucc 0), (2257887, .negSucc 0), (11275751, .ofNat 1), (16886659, .negSucc 0), (22787267, .ofNat 1), (36060746, .negSucc 0), (53806803, .ofNat 1), (151241537, .ofNat 1), (313508227, .negSucc 0), (363740561, .negSucc 0), (451276627, .ofNat 1), (481169054, .negSucc 0), (501344146, .negSucc 0), (615633778, .negSucc 0), (715845639, .ofNat 1), (745860561, .ofNat 1), (748930682, .negSucc 0), (931071993, .negSucc 0), (1071456886, .negSucc 0), (1132667517, .negSucc 0), (1347161534, .ofNat 1), (1594029651, .ofNat 1), (2037419679, .ofNat 1), (3773541713, .ofNat 1), (6052968949, .ofNat 1), (6094080787, .negSucc 0), (6825265613, .negSucc 0), (7756354703, .ofNat 1), (10389750601, .ofNat 1), (13643125226, .negSucc 0), (14870164294, .negSucc 0), (20297173341, .ofNat 1), (20467871258, .negSucc 0), (22122665979, .ofNat 1), (25458270658, .ofNat 1), (30450496053, .ofNat 1), (38502570273, .ofNat 1), (71311304431, .negSucc 0), (97276446721, .ofNat 1), (118338723749, .negSucc 0), (120686531747, .negSucc 0), (128981903731, .negSucc 0), (136159565383, .negSucc 0), (151024191301, .ofNat 1), (193524402047, .ofNat 1), (2739160526413, .negSucc 0), (2854011668987, .negSucc 0), (3509996633111, .negSucc 0), (3657168410689, .negSucc 0), (3921778506287, .ofNat 1), (4274496476953, .ofNat 1), (4392324440113, .ofNat 1), (5449360259891, .negSucc 0), (9353673298559, .negSucc 0)], 0), ([(2063582, .ofNat 1), (3111729, .ofNat 1), (18161599, .negSucc 0), (31260358, .negSucc 0), (46644069, .ofNat 1), (58966846, .ofNat 1), (75668206, .ofNat 1), (87985353, .negSucc 0), (114102057, .ofNat 1), (337178047, .negSucc 0), (762824147, .negSucc 0), (853365349, .ofNat 1), (1167828082, .ofNat 1), (1266638573, .ofNat 1), (1476638762, .ofNat 1), (1678333298, .negSucc 0), (1766199417, .ofNat 1), (1822325606, .ofNat 1), (2196827517, .negSucc 0), (2538277113, .negSucc 0), (2719120533, .negSucc 0), (11826959398, .negSucc 0), (14162164691, .negSucc 0), (14318736167, .negSucc 0), (14520651839, .ofNat 1), (15843101797, .ofNat 1), (17595224043, .ofNat 1), (18073473577, .ofNat 1), (20218652159, .negSucc 0), (22069278734, .ofNat 1), (24315822194, .ofNat 1), (25084376413, .ofNat 1), (25499473526, .ofNat 1), (27867397774, .negSucc 0), (28207996486, .ofNat 1), (33377127879, .ofNat 1), (34220228782, .negSucc 0), (36175176129, .negSucc 0), (37825888862, .ofNat 1), (37936119891, .negSucc 0), (41458932159, .ofNat 1), (41629585958, .negSucc 0), (41965648251, .negSucc 0), (48396493234, .ofNat 1), (51753977367, .negSucc 0), (54145949146, .ofNat 1), (56274395367, .negSucc 0), (62959738323, .negSucc 0), (68078651474, .negSucc 0), (73193871129, .ofNat 1), (80554103061, .negSucc 0), (102960766569, .negSucc 0), (127273278089, .negSucc 0), (274407096193, .ofNat 1), (307963663957, .ofNat 1), (336456493531, .ofNat 1), (339132532741, .ofNat 1), (379384886147, .negSucc 0), (385396314871, .negSucc 0), (431139813857, .ofNat 1), (479070756211, .ofNat 1), (525044838511, .negSucc 0), (536551002989, .ofNat 1), (609896950867, .ofNat 1), (689453746886, .ofNat 1), (826563522586, .negSucc 0), (1025715294651, .negSucc 0), (1034341494038, .ofNat 1), (1168980376582, .ofNat 1), (1229696482101, .ofNat 1), (1286530747438, .negSucc 0), (1538812277283, .negSucc 0), (1739117463387, .negSucc 0), (1945722911703, .negSucc 0), (4394286785393, .ofNat 1), (4915853923831, .negSucc 0), (5345736892117, .negSucc 0), (5404837314529, .negSucc 0), (5980233644339, .ofNat 1), (6098879848517, .ofNat 1), (6408828926267, .ofNat 1), (7169506307389, .negSucc 0), (7647141959713, .negSucc 0), (8108517109657, .negSucc 0), (8394734926219, .ofNat 1), (8692498081439, .negSucc 0), (9487466617091, .ofNat 1), (9615804619879, .negSucc 0), (10139586316243, .ofNat 1), (10757124689393, .ofNat 1), (11525656914029, .ofNat 1), (11653080168473, .ofNat 1), (138423158695243, .ofNat 1), (158557722260263, .negSucc 0), (158641282771253, .negSucc 0), (177377271715121, .ofNat 1), (181716706147673, .ofNat 1), (198186620794457, .negSucc 0), (203285044096591, .negSucc 0), (215332180625389, .ofNat 1), (218245002679241, .negSucc 0), (237599450511607, .ofNat 1), (244148960951647, .ofNat 1), (275929512603383, .ofNat 1), (302904683714429, .negSucc 0), (313648781669449, .ofNat 1), (336028735294009, .negSucc 0), (472686792506249, .ofNat 1)], 0)⟩,
    ⟨([(42877, .negSucc 0), (1188101, .negSucc 0), (1590527, .ofNat 1), (15848353, .negSucc 0), (15935987, .negSucc 0), (29528831, .ofNat 1), (34260133, .ofNat 1), (397609763, .negSucc 0), (449366107, .negSucc 0), (642860689, .ofNat 1), (730558459, .negSucc 0), (1271666047, .negSucc 0), (7513914781, .ofNat 1), (9162310613, .negSucc 0), (10199032853, .negSucc 0), (11146132297, .ofNat 1), (12148596143, .ofNat 1), (14346832933, .ofNat 1), (16477526531, .negSucc 0), (18227749291, .negSucc 0), (24031578689, .negSucc 0), (330600885283, .ofNat 1), (344462756117, .ofNat 1), (413705909189, .negSucc 0), (594553610821, .ofNat 1)], 0), ([(811, .ofNat 1), (32267, .ofNat 1), (599051, .ofNat 1), (764497, .negSucc 0), (14345101, .negSucc 0), (16302031, .ofNat 1), (185875673, .negSucc 0), (226121437, .ofNat 1), (271089587, .negSucc 0), (406742719, .ofNat 1), (6706895743, .ofNat 1), (7686506753, .negSucc 0), (9231631601, .ofNat 1)], 0), ([(38023, .ofNat 1), (1053599, .ofNat 1), (1793573, .ofNat 1), (14131913, .ofNat 1), (17871547, .negSucc 0), (33298469, .ofNat 1), (38633767, .ofNat 1), (352597337, .ofNat 1), (506731993, .negSucc 0), (724928011, .ofNat 1), (823821241, .negSucc 0), (1127703853, .ofNat 1), (6663282919, .negSucc 0), (10331967287, .negSucc 0), (11501037047, .negSucc 0), (12569042803, .ofNat 1), (12722663167, .negSucc 0), (13699480757, .ofNat 1), (14612146169, .ofNat 1), (20554696009, .negSucc 0), (21311022611, .ofNat 1), (372805253617, .ofNat 1), (388436724983, .ofNat 1), (466519429511, .negSucc 0), (527245654879, .negSucc 0)], 0)⟩,
    ⟨([(20723, .negSucc 0), (38399, .ofNat 1), (950011, .negSucc 0)], 0), ([(779, .ofNat 1), (21199, .ofNat 1)], 0), ([(18377, .ofNat 1), (43301, .ofNat 1), (1071289, .negSucc 0)], 0)⟩⟩

/-- The same frame in another motion; without accelerations. -/
def virF : Fr PolyQ :=
  ⟨⟨([(2529902, .negSucc 0), (3813297, .negSucc 0), (22197619, .ofNat 1), (38308294, .ofNat 1), (56826478, .ofNat 1), (57184509, .negSucc 0), (72952366, .ofNat 1), (84827433, .negSucc 0), (109960401, .ofNat 1), (409888273, .ofNat 1), (820221769, .ofNat 1), (932345207, .ofNat 1), (1219150061, .ofNat 1), (1756179158, .ofNat 1), (2621527413, .negSucc 0), (15145736323, .ofNat 1), (17216142269, .ofNat 1), (17406477353, .ofNat 1), (19460619263, .negSucc 0), (22120865089, .negSucc 0), (24143918941, .ofNat 1), (321646695229, .ofNat 1), (412162341863, .ofNat 1), (468504492889, .ofNat 1), (501933951049, .negSucc 0)], 0), ([(432077, .ofNat 1), (1152838, .ofNat 1), (1627894, .negSucc 0), (1720893, .negSucc 0), (2453709, .negSucc 0), (12238493, .ofNat 1), (18302821, .negSucc 0), (24732881, .ofNat 1), (39188222, .negSucc 0), (58498017, .ofNat 1), (163041917, .ofNat 1), (337969207, .negSucc 0), (394797323, .negSucc 0), (489807361, .ofNat 1), (6525242209, .ofNat 1), (8361531923, .ofNat 1), (11200394341, .ofNat 1)], 0), ([(2243498, .ofNat 1), (3381603, .ofNat 1), (19684681, .negSucc 0), (33971506, .negSucc 0), (50710791, .ofNat 1), (64080922, .ofNat 1), (82265434, .ofNat 1), (95656467, .negSucc 0), (123997899, .ofNat 1), (363485827, .negSucc 0), (826796693, .negSucc 0), (924930931, .ofNat 1), (1374786239, .ofNat 1), (1980372242, .ofNat 1), (2956190487, .negSucc 0), (15267145031, .negSucc 0), (15435932747, .negSucc 0), (17079234577, .ofNat 1), (19616616211, .ofNat 1), (21944953637, .negSucc 0), (27226121359, .ofNat 1), (362707975471, .ofNat 1), (415466248411, .negSucc 0), (464778811037, .ofNat 1), (566010625651, .negSucc 0)], 0)⟩,
    ⟨([(45527, .negSucc 0), (1289543, .negSucc 0), (1723913, .ofNat 1), (17179367, .negSucc 0), (31832771, .ofNat 1), (37185319, .ofNat 1), (787559119, .negSucc 0)], 0), ([(863, .ofNat 1), (34973, .ofNat 1), (645791, .ofNat 1), (829771, .negSucc 0), (17573971, .ofNat 1)], 0), ([(40373, .ofNat 1), (1143557, .ofNat 1), (1943987, .ofNat 1), (15234533, .ofNat 1), (35896529, .ofNat 1), (41932381, .ofNat 1), (888098581, .negSucc 0)], 0)⟩,
    ⟨([], 0), ([], 0), ([], 0)⟩,
    ⟨([], 0), ([], 0), ([], 0)⟩,
    ⟨([(20723, .negSucc 0), (38399, .ofNat 1), (950011, .negSucc 0)], 0), ([(779, .ofNat 1), (21199, .ofNat 1)], 0), ([(18377, .ofNat 1), (43301, .ofNat 1), (1071289, .negSucc 0)], 0)⟩⟩

/-- A frame of the bicycle, as it moves. -/
def dynH : Fr PolyQ :=
  ⟨⟨([(378187, .ofNat 1), (1973078, .ofNat 1), (2572126, .ofNat 1), (2984043, .ofNat 1), (3890031, .ofNat 1), (7146869, .ofNat 1), (39079162, .negSucc 0), (47658194, .ofNat 1), (58138917, .ofNat 1), (70902129, .negSucc 0), (13699565003, .negSucc 0), (17858902351, .negSucc 0)], 0), ([(24922, .ofNat 1), (37077, .negSucc 0), (315641, .ofNat 1), (303223007, .negSucc 0), (395284819, .negSucc 0), (8971577501, .negSucc 0), (10941104137, .ofNat 1)], 0), ([(2039962, .negSucc 0), (2487794, .ofNat 1), (3085197, .negSucc 0), (3762489, .ofNat 1), (37797878, .negSucc 0), (49273726, .negSucc 0), (56232723, .ofNat 1), (73305591, .ofNat 1), (14163957037, .ofNat 1), (17273364569, .negSucc 0)], 0)⟩,
    ⟨([(595723, .ofNat 1), (776591, .ofNat 1), (17625889, .ofNat 1), (21495293, .negSucc 0)], 0), ([(743, .ofNat 1), (14041, .ofNat 1)], 0), ([(615917, .negSucc 0), (751129, .ofNat 1), (17047991, .ofNat 1), (22223947, .ofNat 1)], 0)⟩,
    ⟨([(400583, .ofNat 1), (2054498, .ofNat 1), (2678266, .ofNat 1), (3098031, .ofNat 1), (4038627, .ofNat 1), (7436999, .ofNat 1), (40571954, .negSucc 0), (49478698, .ofNat 1), (60538047, .ofNat 1), (73827939, .negSucc 0), (1470138518, .ofNat 1), (1515691766, .ofNat 1), (1848430942, .negSucc 0), (1916488606, .ofNat 1), (2187156963, .negSucc 0), (2292301371, .ofNat 1), (2795529327, .negSucc 0), (2807214913, .ofNat 1), (2851201671, .negSucc 0), (14255704313, .negSucc 0), (15349883474, .negSucc 0), (18583891621, .negSucc 0), (18719636938, .ofNat 1), (22836354609, .ofNat 1), (27849609933, .negSucc 0), (28083823354, .ofNat 1), (28643106442, .ofNat 1), (34931115554, .negSucc 0), (36610378418, .ofNat 1), (41780913189, .negSucc 0), (43319251077, .ofNat 1), (52829108049, .negSucc 0), (54466054113, .negSucc 0), (5381044927231, .negSucc 0), (7014788855027, .negSucc 0), (10523820078491, .negSucc 0), (12834109874767, .ofNat 1)], 0), ([(25874, .ofNat 1), (38607, .negSucc 0), (555787, .ofNat 1), (12227906, .negSucc 0), (18191721, .ofNat 1), (18266602, .negSucc 0), (27626037, .negSucc 0), (533921149, .negSucc 0), (696025433, .negSucc 0), (9335782271, .negSucc 0), (11385262627, .ofNat 1), (232931802479, .negSucc 0), (284067223123, .ofNat 1), (4401878113873, .ofNat 1), (5368220565101, .negSucc 0), (6447328572317, .ofNat 1), (8404807844089, .ofNat 1)], 0), ([(2124142, .negSucc 0), (2590454, .ofNat 1), (3203049, .negSucc 0), (3906213, .ofNat 1), (39241726, .negSucc 0), (51155942, .negSucc 0), (58553193, .ofNat 1), (76330581, .ofNat 1), (1465996954, .ofNat 1), (1519973722, .negSucc 0), (1853652914, .ofNat 1), (1911089618, .ofNat 1), (2217143949, .ofNat 1), (2261297877, .ofNat 1), (2757719649, .negSucc 0), (2890293033, .ofNat 1), (14738948527, .ofNat 1), (14846608606, .negSucc 0), (17974583699, .negSucc 0), (19354200902, .negSucc 0), (22087621671, .ofNat 1), (27703988198, .ofNat 1), (28793664507, .ofNat 1), (29035817366, .negSucc 0), (35410038142, .ofNat 1), (36115221166, .ofNat 1), (41898947763, .ofNat 1), (43197215331, .ofNat 1), (52680281847, .negSucc 0), (54619925271, .ofNat 1), (5563453229849, .ofNat 1), (6784795777813, .negSucc 0), (10178776797229, .negSucc 0), (13269164446793, .negSucc 0)], 0)⟩,
    ⟨([(1048961, .ofNat 1), (1367437, .ofNat 1), (18341419, .ofNat 1), (22367903, .negSucc 0), (457626331, .ofNat 1), (558088847, .negSucc 0), (8648090597, .negSucc 0), (10546602289, .ofNat 1), (12666657313, .negSucc 0), (16512392621, .negSucc 0)], 0), ([(787, .ofNat 1), (14611, .ofNat 1), (5515157, .ofNat 1)], 0), ([(1084519, .negSucc 0), (1322603, .ofNat 1), (17740061, .ofNat 1), (23126137, .ofNat 1), (442622189, .ofNat 1), (577007113, .ofNat 1), (8364546643, .negSucc 0), (10904114231, .negSucc 0), (13096035527, .ofNat 1), (15971002699, .negSucc 0)], 0)⟩,
    ⟨([(23851, .ofNat 1), (29087, .negSucc 0)], 0), ([(19, .ofNat 1)], 0), ([(23069, .ofNat 1), (30073, .ofNat 1)], 0)⟩⟩

/-- The same frame in another motion; without accelerations. -/
def virH : Fr PolyQ :=
  ⟨⟨([(434177, .ofNat 1), (2233622, .ofNat 1), (2911774, .ofNat 1), (3366717, .ofNat 1), (4388889, .ofNat 1), (8017259, .ofNat 1), (44090678, .negSucc 0), (53769886, .ofNat 1), (65816133, .ofNat 1), (80264721, .negSucc 0), (15367982933, .negSucc 0), (20033870161, .negSucc 0)], 0), ([(28118, .ofNat 1), (41973, .negSucc 0), (603241, .ofNat 1), (579508207, .negSucc 0), (755453219, .negSucc 0), (10064191811, .negSucc 0), (12273579607, .ofNat 1)], 0), ([(2309338, .negSucc 0), (2816306, .ofNat 1), (3480843, .negSucc 0), (4244991, .ofNat 1), (42645082, .negSucc 0), (55592594, .negSucc 0), (63658227, .ofNat 1), (82985559, .ofNat 1), (15888931507, .ofNat 1), (19377021959, .negSucc 0)], 0)⟩,
    ⟨([(1138523, .ofNat 1), (1484191, .ofNat 1), (19772479, .ofNat 1), (24113123, .negSucc 0)], 0), ([(853, .ofNat 1), (15751, .ofNat 1)], 0), ([(1177117, .negSucc 0), (1435529, .ofNat 1), (19124201, .ofNat 1), (24930517, .ofNat 1)], 0)⟩,
    ⟨([], 0), ([], 0), ([], 0)⟩,
    ⟨([], 0), ([], 0), ([], 0)⟩,
    ⟨([(23851, .ofNat 1), (29087, .negSucc 0)], 0), ([(19, .ofNat 1)], 0), ([(23069, .ofNat 1), (30073, .ofNat 1)], 0)⟩⟩

/-- A frame of the bicycle, as it moves. -/
def dynG : Fr PolyQ :=
  ⟨⟨([(378187, .ofNat 1), (1973078, .ofNat 1), (2572126, .ofNat 1), (2984043, .ofNat 1), (3890031, .ofNat 1), (7146869, .ofNat 1), (39079162, .negSucc 0), (47658194, .ofNat 1), (58138917, .ofNat 1), (70902129, .negSucc 0), (13699565003, .negSucc 0), (17858902351, .negSucc 0)], 0), ([(1669774, .ofNat 1), (2484159, .negSucc 0), (21147947, .ofNat 1), (144837302, .negSucc 0), (176633374, .ofNat 1), (219048987, .negSucc 0), (267136719, .ofNat 1), (2683649338, .negSucc 0), (3498434546, .negSucc 0), (3992523333, .ofNat 1), (5204696961, .ofNat 1), (20315941469, .negSucc 0), (26484082873, .negSucc 0), (601095692567, .negSucc 0), (733053977179, .ofNat 1), (1005640949627, .ofNat 1), (1226408884399, .negSucc 0)], 0), ([(1769462, .negSucc 0), (2632467, .ofNat 1), (22410511, .negSucc 0), (136677454, .negSucc 0), (166682198, .ofNat 1), (206708199, .negSucc 0), (252086763, .ofNat 1), (2532457826, .negSucc 0), (3301339642, .negSucc 0), (3767592441, .ofNat 1), (4911474597, .ofNat 1), (21528833497, .ofNat 1), (28065222149, .ofNat 1), (636982002571, .ofNat 1), (776818393727, .negSucc 0), (948985121479, .ofNat 1), (1157315426123, .negSucc 0)], 0)⟩,
    ⟨([(457, .ofNat 1), (595723, .ofNat 1), (776591, .ofNat 1), (17625889, .ofNat 1), (21495293, .negSucc 0)], 0), ([(49781, .ofNat 1), (940747, .ofNat 1), (43730107, .negSucc 0), (53330159, .ofNat 1), (1210407361, .ofNat 1), (1577900237, .ofNat 1)], 0), ([(52753, .negSucc 0), (996911, .negSucc 0), (41266439, .negSucc 0), (50325643, .ofNat 1), (1142215397, .ofNat 1), (1489004449, .ofNat 1)], 0)⟩,
    ⟨([(400583, .ofNat 1), (2054498, .ofNat 1), (2678266, .ofNat 1), (3098031, .ofNat 1), (4038627, .ofNat 1), (7436999, .ofNat 1), (40571954, .negSucc 0), (49478698, .ofNat 1), (60538047, .ofNat 1), (73827939, .negSucc 0), (1470138518, .ofNat 1), (1515691766, .ofNat 1), (1848430942, .negSucc 0), (1916488606, .ofNat 1), (2187156963, .negSucc 0), (2292301371, .ofNat 1), (2795529327, .negSucc 0), (2807214913, .ofNat 1), (2851201671, .negSucc 0), (14255704313, .negSucc 0), (15349883474, .negSucc 0), (18583891621, .negSucc 0), (18719636938, .ofNat 1), (22836354609, .ofNat 1), (27849609933, .negSucc 0), (28083823354, .ofNat 1), (28643106442, .ofNat 1), (34931115554, .negSucc 0), (36610378418, .ofNat 1), (41780913189, .negSucc 0), (43319251077, .ofNat 1), (52829108049, .negSucc 0), (54466054113, .negSucc 0), (5381044927231, .negSucc 0), (7014788855027, .negSucc 0), (10523820078491, .negSucc 0), (12834109874767, .ofNat 1)], 0), ([(1733558, .ofNat 1), (2586669, .negSucc 0), (37237729, .ofNat 1), (150814082, .negSucc 0), (183922234, .ofNat 1), (227416479, .negSucc 0), (277341123, .ofNat 1), (808644134, .negSucc 0), (819269702, .negSucc 0), (1203037419, .ofNat 1), (1218845307, .ofNat 1), (1223862334, .negSucc 0), (1850944479, .negSucc 0), (2786162546, .negSucc 0), (3632071882, .negSucc 0), (4157276703, .ofNat 1), (5419471251, .ofNat 1), (10241603527, .negSucc 0), (35772716983, .negSucc 0), (46633704011, .negSucc 0), (62461596478, .negSucc 0), (76173764486, .ofNat 1), (94465646943, .negSucc 0), (104085783734, .ofNat 1), (107918134262, .negSucc 0), (115203650691, .ofNat 1), (131609356894, .ofNat 1), (135687362878, .ofNat 1), (157417220379, .ofNat 1), (160552149267, .ofNat 1), (195798095079, .negSucc 0), (205210805343, .ofNat 1), (625497412157, .negSucc 0), (762812596009, .ofNat 1), (1046465345417, .ofNat 1), (1054109211026, .negSucc 0), (1157333226482, .negSucc 0), (1276195442629, .negSucc 0), (1374148264042, .negSucc 0), (1508712216394, .negSucc 0), (1568221138641, .ofNat 1), (1721789745537, .ofNat 1), (1966983162058, .ofNat 1), (2044350179997, .ofNat 1), (2061543032986, .negSucc 0), (2244543890829, .ofNat 1), (2514112708082, .ofNat 1), (2564180702786, .ofNat 1), (2974825291173, .ofNat 1), (3067002288501, .ofNat 1), (3740300011137, .negSucc 0), (3878014694241, .ofNat 1), (9838676908129, .ofNat 1), (12825806522093, .ofNat 1), (15606430766093, .negSucc 0), (19032503949241, .ofNat 1), (291100775174947, .ofNat 1), (294925833629491, .ofNat 1), (355006005933239, .negSucc 0), (359670777861767, .negSucc 0), (395005179319279, .ofNat 1), (431971014345239, .ofNat 1), (433686200515903, .ofNat 1), (481720500224723, .negSucc 0), (528893149738211, .negSucc 0), (563122125553963, .ofNat 1), (722693152603259, .negSucc 0), (942110675722303, .negSucc 0)], 0), ([(1837054, .negSucc 0), (2741097, .ofNat 1), (39460877, .negSucc 0), (142317514, .negSucc 0), (173560418, .ofNat 1), (214604283, .negSucc 0), (261716271, .ofNat 1), (763086718, .negSucc 0), (868181326, .ofNat 1), (1135260663, .ofNat 1), (1291612191, .negSucc 0), (1296928742, .ofNat 1), (1961448627, .ofNat 1), (2629195642, .negSucc 0), (3427448114, .negSucc 0), (3923063931, .ofNat 1), (5114148927, .ofNat 1), (9664611779, .negSucc 0), (37908401579, .ofNat 1), (49417805743, .ofNat 1), (66190647014, .ofNat 1), (80721451918, .negSucc 0), (98221795918, .ofNat 1), (100105387059, .ofNat 1), (101838239374, .negSucc 0), (122081480583, .negSucc 0), (124194745238, .ofNat 1), (128043004406, .ofNat 1), (148548644583, .ofNat 1), (151506957759, .ofNat 1), (184767216483, .negSucc 0), (193649633211, .ofNat 1), (662840541241, .ofNat 1), (808353646517, .negSucc 0), (987509551309, .ofNat 1), (994722776602, .negSucc 0), (1204297107833, .negSucc 0), (1226427747466, .ofNat 1), (1296731460434, .negSucc 0), (1479870651957, .ofNat 1), (1598784587522, .ofNat 1), (1824583163181, .negSucc 0), (1856167209266, .ofNat 1), (1929175521969, .ofNat 1), (1945399763522, .negSucc 0), (2372472555514, .ofNat 1), (2378546511177, .negSucc 0), (2419719818122, .ofNat 1), (2807229500121, .ofNat 1), (2894213427177, .ofNat 1), (3529578883749, .negSucc 0), (3659534993157, .ofNat 1), (9284385251333, .ofNat 1), (12103225872961, .ofNat 1), (16538157976009, .ofNat 1), (20168772841733, .negSucc 0), (274700731503119, .ofNat 1), (312533346084983, .negSucc 0), (335005667570803, .negSucc 0), (372751366399883, .ofNat 1), (381143660122171, .ofNat 1), (454581317113471, .negSucc 0), (457760328634507, .negSucc 0), (459577913979539, .negSucc 0), (560468860170343, .ofNat 1), (596741356930319, .negSucc 0), (681978045414343, .negSucc 0), (889034017935131, .negSucc 0)], 0)⟩,
    ⟨([(821, .ofNat 1), (1048961, .ofNat 1), (1367437, .ofNat 1), (18341419, .ofNat 1), (22367903, .negSucc 0), (457626331, .ofNat 1), (558088847, .negSucc 0), (8648090597, .negSucc 0), (10546602289, .ofNat 1), (12666657313, .negSucc 0), (16512392621, .negSucc 0)], 0), ([(52729, .ofNat 1), (978937, .ofNat 1), (24108121, .negSucc 0), (77000849, .negSucc 0), (93904813, .ofNat 1), (369515519, .ofNat 1), (455588327, .negSucc 0), (1259544331, .ofNat 1), (1641955727, .ofNat 1), (18858762623, .negSucc 0), (22998818851, .ofNat 1), (31426175419, .ofNat 1), (40967505023, .ofNat 1), (521992436429, .ofNat 1), (593882811653, .negSucc 0), (680475033193, .ofNat 1), (774192110401, .negSucc 0), (929818522417, .ofNat 1), (1133941191629, .negSucc 0)], 0), ([(55877, .negSucc 0), (1037381, .negSucc 0), (22749917, .negSucc 0), (72662773, .negSucc 0), (88614401, .ofNat 1), (391576147, .negSucc 0), (429921379, .negSucc 0), (1188584087, .ofNat 1), (1549451179, .ofNat 1), (19984658899, .ofNat 1), (24371882663, .negSucc 0), (29655686663, .ofNat 1), (38659476571, .ofNat 1), (553156163977, .negSucc 0), (560424625081, .negSucc 0), (721100408309, .negSucc 0), (730575653477, .negSucc 0), (877434380309, .ofNat 1), (1070057180833, .negSucc 0)], 0)⟩,
    ⟨([(23851, .ofNat 1), (29087, .negSucc 0)], 0), ([(1273, .ofNat 1), (1637899, .ofNat 1), (2135183, .ofNat 1)], 0), ([(1349, .negSucc 0), (1545623, .ofNat 1), (2014891, .ofNat 1)], 0)⟩⟩

/-- The same frame in another motion; without accelerations. -/
def virG : Fr PolyQ :=
  ⟨⟨([(434177, .ofNat 1), (2233622, .ofNat 1), (2911774, .ofNat 1), (3366717, .ofNat 1), (4388889, .ofNat 1), (8017259, .ofNat 1), (44090678, .negSucc 0), (53769886, .ofNat 1), (65816133, .ofNat 1), (80264721, .negSucc 0), (15367982933, .negSucc 0), (20033870161, .negSucc 0)], 0), ([(1883906, .ofNat 1), (2812191, .negSucc 0), (40417147, .ofNat 1), (163962998, .negSucc 0), (199957726, .ofNat 1), (247139853, .negSucc 0), (301394361, .ofNat 1), (3027800822, .negSucc 0), (3947074174, .negSucc 0), (4519734117, .ofNat 1), (5891974689, .ofNat 1), (38827049869, .negSucc 0), (50615365673, .negSucc 0), (674300851337, .negSucc 0), (822329833669, .ofNat 1), (1128114136997, .ofNat 1), (1375768559089, .negSucc 0)], 0), ([(1996378, .negSucc 0), (2980083, .ofNat 1), (42830111, .negSucc 0), (154725646, .negSucc 0), (188692502, .ofNat 1), (233216481, .negSucc 0), (284414397, .ofNat 1), (2857220494, .negSucc 0), (3724703798, .negSucc 0), (4265101209, .ofNat 1), (5560032453, .ofNat 1), (41145082697, .ofNat 1), (53637178549, .ofNat 1), (714557618581, .ofNat 1), (871424152097, .negSucc 0), (1064558410969, .ofNat 1), (1298260471253, .negSucc 0)], 0)⟩,
    ⟨([(877, .ofNat 1), (1138523, .ofNat 1), (1484191, .ofNat 1), (19772479, .ofNat 1), (24113123, .negSucc 0)], 0), ([(57151, .ofNat 1), (1055317, .ofNat 1), (83575307, .negSucc 0), (101922559, .ofNat 1), (1357818271, .ofNat 1), (1770066707, .ofNat 1)], 0), ([(60563, .negSucc 0), (1118321, .negSucc 0), (78866839, .negSucc 0), (96180443, .ofNat 1), (1281321467, .ofNat 1), (1670344639, .ofNat 1)], 0)⟩,
    ⟨([], 0), ([], 0), ([], 0)⟩,
    ⟨([], 0), ([], 0), ([], 0)⟩,
    ⟨([(23851, .ofNat 1), (29087, .negSucc 0)], 0), ([(1273, .ofNat 1), (1637899, .ofNat 1), (2135183, .ofNat 1)], 0), ([(1349, .negSucc 0), (1545623, .ofNat 1), (2014891, .ofNat 1)], 0)⟩⟩

/-- The weights as a force on a coordinate. -/
def dynWeight4 : PolyQ := ([(4789997413, .ofNat 1), (4818466937, .ofNat 1), (4861171223, .ofNat 1), (4918110271, .ofNat 1), (4989284081, .ofNat 1), (77596192109, .negSucc 0), (78505078693, .negSucc 0), (96270121063, .ofNat 1), (97397735951, .ofNat 1), (98524717303, .negSucc 0), (101543714323, .negSucc 0), (123840419903, .ofNat 1), (130840980199, .ofNat 1), (132373524623, .ofNat 1), (168298437751, .ofNat 1), (291383174767, .negSucc 0), (4043541154139, .ofNat 1), (4090903276003, .ofNat 1), (4792994958887, .negSucc 0), (5201135440811, .ofNat 1), (6248200502779, .negSucc 0), (6415823793823, .negSucc 0), (7824286893251, .ofNat 1), (417028227395341, .negSucc 0), (543642545513897, .negSucc 0)], 0)

/-- The weights as a force on a coordinate. -/
def dynWeight5 : PolyQ := ([(68315094983, .negSucc 0), (69115271791, .negSucc 0), (87539868901, .negSucc 0), (87879499423, .negSucc 0), (88565226077, .negSucc 0), (111150310367, .negSucc 0), (114556181147, .negSucc 0), (2869373123899, .negSucc 0), (2902982179523, .negSucc 0), (3690823879051, .negSucc 0), (4433841010139, .ofNat 1), (5407200262543, .negSucc 0), (5552261661091, .negSucc 0), (7237988856647, .negSucc 0), (385779011426377, .ofNat 1), (470468915574149, .negSucc 0)], 0)

/-- The weights as a force on a coordinate. -/
def dynWeight7 : PolyQ := ([(139432453591, .ofNat 1), (141065630207, .ofNat 1), (179349497959, .ofNat 1), (3794388425771, .ofNat 1), (3838832214067, .ofNat 1), (4880654694779, .ofNat 1)], 0)

/-- The weights as a force on a coordinate. -/
def dynWeight9 : PolyQ := ([(307316306113, .negSucc 0), (395406968158819, .negSucc 0), (515456836162823, .negSucc 0)], 0)


end BP.EL
