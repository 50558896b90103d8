import Verif.Lemmas.Laurent
import Verif.Gen.UprightPoly3

/-!
# Generated by tools/gen_upright_poly.py
-/

namespace BP.EL

def upr207 : Tr := .node .nil (.node (.node .nil (.node (.node (.leaf [(38, .negSucc 0)]) .nil) .nil)) (.node (.node upr206 (.node (.leaf [(35, .negSucc 0), (310, .ofNat 1), (12635, .ofNat 2), (46550, .ofNat 1), (103075, .negSucc 0), (1203650, .negSucc 0), (2665225, .ofNat 1)]) .nil)) .nil))

def upr208 : Tr := .node (.node (.node .nil (.node (.node (.leaf [(38, .ofNat 4)]) .nil) .nil)) .nil) (.node (.node (.node (.node (.leaf [(1, .ofNat 1)]) .nil) .nil) .nil) (.node (.node (.node (.leaf [(227, .ofNat 1)]) (.leaf [(157, .ofNat 1)])) .nil) .nil))

def upr209 : Tr := .node (.node (.node (.node (.node (.leaf [(1, .ofNat 1)]) .nil) (.node (.leaf [(67, .ofNat 1), (193127, .ofNat 1), (211589, .ofNat 1), (219191, .ofNat 1), (1198763, .negSucc 0), (4892249, .negSucc 0), (5143477, .ofNat 1), (5340043, .ofNat 1), (5864219, .ofNat 1), (7217918, .ofNat 1), (8282198, .ofNat 1), (70729913, .negSucc 0), (79829507, .negSucc 0)]) .nil)) .nil) (.node .nil (.node (.node (.leaf [(35, .ofNat 1), (310, .negSucc 0), (12635, .negSucc 0)]) .nil) (.node (.leaf [(7, .negSucc 0), (62, .ofNat 1), (114, .negSucc 0), (2527, .ofNat 2), (9310, .ofNat 1), (20615, .negSucc 0), (65341, .negSucc 0), (240730, .negSucc 0), (533045, .ofNat 1)]) .nil)))) .nil

def upr210 : Tr := .node (.node (.node (.node (.node (.leaf [(37, .negSucc 0), (181, .ofNat 1)]) .nil) .nil) (.node (.node (.leaf [(19, .negSucc 0)]) (.leaf [(1991, .ofNat 1)])) .nil)) .nil) (.node .nil (.node (.node (.node (.leaf [(191, .ofNat 1)]) .nil) .nil) .nil))

def upr211 : Tr := .node .nil (.leaf [(224064890, .negSucc 0), (231660310, .negSucc 0), (315209930, .negSucc 0), (322738430, .ofNat 1), (337996190, .negSucc 0), (383568710, .negSucc 0), (496143685, .ofNat 1), (512962115, .ofNat 1), (697964845, .ofNat 1), (714635095, .negSucc 0), (748420135, .ofNat 1), (849330715, .ofNat 1), (1912146985, .negSucc 2), (2850181355, .negSucc 2), (3248154595, .negSucc 0), (3860372215, .ofNat 1), (7044752050, .negSucc 0), (8435093681, .ofNat 1), (8738150939, .ofNat 1), (10500668150, .negSucc 0), (11966885350, .negSucc 0), (14222423950, .ofNat 1), (15599093825, .ofNat 1), (16936159010, .ofNat 2), (23251479475, .ofNat 1), (25244463430, .ofNat 2), (26498103275, .ofNat 1), (31492510175, .negSucc 0), (54297758725, .negSucc 0), (58951852330, .negSucc 1), (74501575925, .ofNat 1), (80887425290, .ofNat 2), (89654438825, .negSucc 0), (97339105010, .negSucc 1), (104807301725, .ofNat 1), (113790784730, .ofNat 2), (130536244445, .ofNat 1), (179107870285, .negSucc 0), (182157160150, .ofNat 1), (215536589665, .ofNat 1), (251965309045, .negSucc 0), (271517276450, .ofNat 1), (304107324815, .negSucc 0), (309429464050, .ofNat 1), (330173666942, .ofNat 1), (367751247850, .negSucc 0), (403347997475, .negSucc 0), (480923005850, .ofNat 1), (601216826425, .negSucc 0), (659871101050, .negSucc 0), (685165241825, .negSucc 0), (690285061585, .ofNat 4), (794082172450, .ofNat 1), (814306334525, .ofNat 1), (928293243850, .negSucc 0), (930632633210, .negSucc 0), (1028915469155, .ofNat 4), (1403984904175, .ofNat 1), (1926397891775, .negSucc 0), (2060686544965, .ofNat 1), (2318207632475, .ofNat 1), (2543155490050, .ofNat 2), (2693522019790, .ofNat 1), (2710017373175, .negSucc 0), (3182440344503, .negSucc 0), (3195663266390, .ofNat 1), (3790741202150, .ofNat 2), (3797987232830, .negSucc 1), (4552554232730, .ofNat 1), (5631272870825, .negSucc 1), (6852889841945, .negSucc 0), (7076111518435, .negSucc 0), (8393784090475, .negSucc 1), (8409828872695, .ofNat 2), (9616762540630, .negSucc 0), (10080655801045, .negSucc 0), (10799139673175, .ofNat 1), (11724780216590, .ofNat 2), (11903629571330, .negSucc 0), (12435294865550, .negSucc 0), (13041760897970, .ofNat 1), (15499893842090, .negSucc 0), (17062381327150, .ofNat 1), (18579342949790, .ofNat 1), (19601490899725, .ofNat 1), (20532696173350, .negSucc 0), (21294259911395, .ofNat 1), (24003011019550, .ofNat 1), (25962013336735, .negSucc 0), (26358036907945, .ofNat 1), (26895068908925, .negSucc 0), (28878184845505, .negSucc 0), (32365252415825, .ofNat 1), (34321193507485, .ofNat 1), (35602986278615, .negSucc 0), (37835435922725, .negSucc 0), (41139973674535, .negSucc 0), (60697024314370, .ofNat 1), (65758734814150, .negSucc 1), (94236700644205, .ofNat 3), (95649522819550, .negSucc 0), (98017736798450, .negSucc 1), (109782744258215, .ofNat 2), (114735349262345, .ofNat 3), (122255712258785, .ofNat 1), (131168896815950, .negSucc 0), (145298673731645, .negSucc 0), (145608627088475, .ofNat 2), (174165959903495, .ofNat 1), (217039274339425, .ofNat 2), (247405511222975, .ofNat 1), (268611697899230, .ofNat 2), (279234897263525, .negSucc 0), (290445414378175, .ofNat 1), (347187844478650, .ofNat 1), (404462742003950, .ofNat 1), (422709181492850, .ofNat 1), (450415782006050, .ofNat 1), (506838550407175, .negSucc 0), (535310903221850, .negSucc 0), (594783045348295, .negSucc 0), (641664062802350, .ofNat 1), (695429638930775, .ofNat 1), (768773084202725, .negSucc 0), (834667919991530, .negSucc 1), (836872955323475, .negSucc 0), (895596071580175, .negSucc 0), (935998901877025, .negSucc 0), (978316271716175, .ofNat 1), (997349231584825, .negSucc 0), (1016227379180770, .negSucc 1), (1185331285705525, .ofNat 1), (1420827567633775, .negSucc 0), (2191305956546350, .negSucc 0), (2473223375762650, .ofNat 1), (2473893232942145, .ofNat 2), (3197573544759475, .ofNat 1), (3391652903383850, .ofNat 1), (3402167499635275, .negSucc 0), (3471651277167430, .ofNat 2), (3693781856746870, .negSucc 1), (3898489422016175, .negSucc 0), (3957956832467225, .ofNat 1), (4074361125265025, .negSucc 0), (4297210275250130, .ofNat 2), (4423592078859170, .negSucc 1), (6397199647336925, .negSucc 0), (7510088571778525, .negSucc 0), (7687227828013595, .negSucc 0), (8179088397082355, .ofNat 1), (8977285692947950, .negSucc 0), (9114343489786850, .ofNat 1), (9515251323768145, .negSucc 0), (9795096746045305, .ofNat 1), (10458250900387850, .negSucc 0), (10930051692886550, .negSucc 0), (11646465220442150, .negSucc 0), (13841610497593550, .ofNat 1), (16591599338175050, .negSucc 0), (19878275462956175, .ofNat 1), (20181760584528025, .negSucc 0), (23157555565144525, .ofNat 1), (24202257319963075, .ofNat 1), (25788601559550475, .ofNat 1), (28321365682155350, .negSucc 0), (30133483568198150, .ofNat 1), (30649280387528575, .negSucc 0), (34019448932558005, .negSucc 3), (35056189087566850, .negSucc 0), (36087198538061650, .ofNat 1), (36738541391673325, .ofNat 1), (41419461083706545, .negSucc 3), (56660911162127050, .ofNat 1), (82680115943066425, .negSucc 0), (87970331061997825, .ofNat 1), (89313389551493975, .negSucc 0), (100803797912132525, .ofNat 1), (102341455239509675, .negSucc 0), (105351337667567075, .ofNat 1), (125334811856792650, .negSucc 1), (152598014518918850, .negSucc 1), (235670881664488550, .negSucc 0), (277527083397183725, .ofNat 2), (337895603577606025, .ofNat 2), (521842666542796075, .ofNat 1), (732309598352874050, .ofNat 1), (779165789406266450, .negSucc 0), (906452889264228550, .ofNat 1), (933111847912736950, .negSucc 0), (1154324049658170475, .negSucc 0), (1228182467368334275, .ofNat 1), (1428822416520668225, .negSucc 0), (1470844366220674025, .ofNat 1), (2309389072688629925, .ofNat 1), (3240800135154209950, .ofNat 2), (3945748661132044550, .ofNat 2), (7176057442127179175, .negSucc 1), (8737014892506670075, .negSucc 1), (29847521855446979425, .ofNat 1), (31757289513381214825, .negSucc 0), (36945265341462992675, .ofNat 1), (38031832897991714075, .negSucc 0)])

def upr212 : Tr := .node (.node (.node .nil (.node (.node .nil (.leaf [(70, .ofNat 1), (155, .negSucc 0)])) .nil)) (.node .nil (.node (.node (.leaf [(42, .negSucc 0), (93, .ofNat 1)]) .nil) .nil))) (.node (.node .nil (.node (.node (.leaf [(19, .negSucc 0)]) .nil) .nil)) (.node (.node upr211 (.node (.leaf [(3439, .negSucc 0)]) .nil)) .nil))

def upr213 : Tr := .node (.node (.node (.node (.node (.leaf [(14, .negSucc 0)]) .nil) .nil) (.node (.node .nil (.leaf [(19169745653590, .ofNat 1), (19201301511910, .negSucc 0), (42447293947235, .negSucc 0), (42517167633515, .ofNat 1), (717618815437270, .ofNat 1), (718800107984230, .negSucc 0), (14998233242638943, .ofNat 1), (15022922256870407, .negSucc 0), (122354008032054535, .negSucc 0), (122555418411311215, .ofNat 1)])) .nil)) .nil) (.node (.node (.node .nil (.node (.leaf [(7070, .negSucc 0), (15655, .ofNat 1), (71155, .ofNat 1), (262150, .ofNat 1), (580475, .negSucc 0), (6778450, .negSucc 0), (15009425, .ofNat 1), (70005110, .negSucc 0), (155011315, .ofNat 1), (285696530, .negSucc 0), (632613745, .ofNat 1), (2678168465, .negSucc 0), (9866936450, .negSucc 0), (21848216425, .ofNat 1), (255130785350, .ofNat 1), (564932453275, .negSucc 0)]) .nil)) .nil) (.node .nil (.node .nil (.node (.leaf [(107, .negSucc 0), (4027321, .ofNat 1)]) .nil))))

def upr214 : Tr := .node (.node (.node (.node upr195 upr196) (.node upr197 upr198)) (.node (.node upr199 upr200) (.node upr201 upr203))) (.node (.node (.node upr204 upr205) (.node upr207 upr208)) (.node (.node upr209 upr210) (.node upr212 upr213)))

def upr215 : Tr := .node (.node (.node (.node (.node (.leaf [(19, .ofNat 1)]) .nil) .nil) .nil) (.node (.node (.node (.leaf [(21, .negSucc 0)]) (.leaf [(49105, .ofNat 1), (53935, .negSucc 0), (434930, .negSucc 0), (477710, .ofNat 1), (17726905, .negSucc 0), (19470535, .ofNat 1)])) .nil) (.node (.node (.leaf [(1, .ofNat 1)]) .nil) .nil))) (.node (.node .nil (.node .nil (.node (.leaf [(194, .ofNat 1)]) .nil))) .nil)

def upr216 : Tr := .node (.node (.node (.node (.node (.leaf [(14, .ofNat 1), (31, .negSucc 0), (57, .ofNat 1), (362, .negSucc 0)]) (.leaf [(118, .ofNat 1), (1007, .ofNat 1)])) .nil) .nil) (.node (.node (.node .nil (.leaf [(2527, .negSucc 0)])) .nil) .nil)) (.node .nil (.node (.node (.node (.leaf [(157, .ofNat 1), (163, .ofNat 1), (167, .ofNat 1), (173, .ofNat 1), (179, .ofNat 1)]) (.leaf [(19169745653590, .negSucc 0), (19201301511910, .ofNat 1), (42447293947235, .ofNat 1), (42517167633515, .negSucc 0), (717618815437270, .negSucc 0), (718800107984230, .ofNat 1), (14998233242638943, .negSucc 0), (15022922256870407, .ofNat 1), (122354008032054535, .ofNat 1), (122555418411311215, .negSucc 0)])) .nil) .nil))

def upr217 : Tr := .node .nil (.node .nil (.node (.node (.node (.leaf [(89, .ofNat 1)]) .nil) .nil) .nil))

def upr218 : Tr := .node (.node (.node .nil (.node (.node .nil (.leaf [(19084199473, .ofNat 1), (19760022641, .negSucc 0), (187158406458269, .ofNat 1), (193786192305373, .negSucc 0), (221359942663841, .negSucc 0), (229932839574769, .ofNat 1)])) .nil)) .nil) (.node (.node (.node (.node (.leaf [(1, .ofNat 1)]) .nil) .nil) .nil) (.node (.node (.node (.leaf [(223, .ofNat 1)]) (.leaf [(109, .ofNat 1)])) .nil) .nil))

def upr219 : Tr := .node (.node (.node (.node (.node (.leaf [(19, .ofNat 1)]) .nil) .nil) .nil) (.node (.node (.node .nil (.leaf [(1, .ofNat 1)])) .nil) (.node .nil (.node (.leaf [(240730, .ofNat 1), (533045, .negSucc 0)]) .nil)))) (.node (.node .nil (.node .nil (.node (.leaf [(2345, .negSucc 0), (20770, .ofNat 1), (87785, .negSucc 0), (846545, .ofNat 1), (2716810, .ofNat 1), (7338826, .negSucc 0), (7405615, .negSucc 0), (7671685, .negSucc 0), (8040382, .negSucc 0), (8329258, .negSucc 0), (17803703, .ofNat 1), (18443357, .ofNat 1), (27116515, .negSucc 0), (29076745, .negSucc 0), (31690385, .ofNat 1), (41956705, .ofNat 1), (51756950, .negSucc 0), (59869370, .ofNat 2), (65592590, .ofNat 2), (67949210, .ofNat 2), (73422650, .negSucc 0), (85459150, .negSucc 0), (107124850, .negSucc 0), (114604675, .ofNat 1), (131197850, .negSucc 0), (145240735, .negSucc 0), (150458965, .negSucc 0), (162578725, .ofNat 1), (171228715, .ofNat 1), (180021695, .negSucc 0), (186901505, .negSucc 0), (189230975, .ofNat 1), (205247665, .negSucc 0), (237205025, .ofNat 1), (252627130, .negSucc 0), (290509525, .ofNat 1), (371616530, .negSucc 0), (559388645, .ofNat 1), (606037775, .ofNat 2), (903339325, .ofNat 2), (1251269833, .ofNat 1), (1516597190, .negSucc 0), (1594477870, .ofNat 1), (1655413330, .ofNat 1), (1817907890, .ofNat 1), (2475546955, .ofNat 1), (2673427015, .ofNat 1), (2769478285, .ofNat 1), (2794032745, .negSucc 0), (5367763150, .negSucc 1), (8001005450, .negSucc 1), (10207727585, .negSucc 0), (15146370505, .negSucc 0), (18684258950, .ofNat 1), (21926273030, .negSucc 0), (25636541350, .negSucc 0), (30850753150, .ofNat 1), (36064964950, .negSucc 0), (41372287675, .negSucc 0), (56766627275, .ofNat 1), (61813566115, .negSucc 0), (64987831895, .ofNat 1), (67471443305, .ofNat 1), (68312381975, .negSucc 0), (74094407065, .ofNat 1), (79858136675, .ofNat 1), (91198393930, .ofNat 1), (104645571730, .negSucc 0), (109366424590, .negSucc 0), (201939300845, .negSucc 0), (218779636775, .negSucc 1), (326105496325, .negSucc 1), (893672450755, .negSucc 0), (1008645820945, .ofNat 1), (1024031666215, .negSucc 0), (3242966511050, .negSucc 0), (3883705515550, .negSucc 0), (4783279823350, .negSucc 0), (7180854417325, .ofNat 1), (8599633641575, .ofNat 1), (10591548180275, .ofNat 1), (29867474012075, .negSucc 1), (36364336176175, .negSucc 1), (264540484106950, .ofNat 2), (322084120417550, .ofNat 2), (1100308622765450, .negSucc 0), (1170710910489050, .ofNat 1), (1361962116065950, .negSucc 0), (1402017691113550, .ofNat 1), (2436397664694925, .ofNat 1), (2592288444654325, .negSucc 0), (3015773257003175, .ofNat 1), (3104467744608575, .negSucc 0), (10782158118359075, .ofNat 2), (13127525359599175, .ofNat 2)]) .nil))) (.node (.node (.node (.leaf [(73, .ofNat 1)]) .nil) .nil) .nil))

def upr220 : Tr := .node (.node .nil (.node (.node (.node (.leaf [(1330, .ofNat 1), (2945, .negSucc 0)]) .nil) (.node (.leaf [(3, .ofNat 1), (266, .negSucc 0), (278, .ofNat 1), (589, .ofNat 1), (1083, .negSucc 0), (2603, .ofNat 1), (6878, .ofNat 1)]) .nil)) (.node (.node (.leaf [(5177, .ofNat 1), (5363, .ofNat 1), (22879, .ofNat 1)]) .nil) .nil))) (.node (.node (.node (.node (.leaf [(5054, .negSucc 0)]) .nil) .nil) (.node .nil (.node (.leaf [(609442385, .ofNat 1), (1756713126685, .ofNat 1)]) .nil))) .nil)

def upr221 : Tr := .node (.node (.node (.node (.node (.leaf [(1, .ofNat 1)]) (.leaf [(113, .negSucc 0), (1108189, .negSucc 0)])) .nil) (.node (.node (.leaf [(1, .negSucc 0)]) .nil) .nil)) (.node .nil (.node .nil (.node (.leaf [(3439, .ofNat 1), (1241479, .negSucc 0), (4573870, .negSucc 0), (10127855, .ofNat 1), (118267210, .ofNat 1)]) .nil)))) (.node (.node .nil (.node (.node (.leaf [(399, .negSucc 0)]) .nil) (.node (.leaf [(790970, .ofNat 1)]) .nil))) .nil)

def upr222 : Tr := .node (.node (.node (.node (.node (.leaf [(7, .ofNat 1)]) .nil) .nil) (.node (.node (.leaf [(7, .ofNat 1), (181, .negSucc 0)]) .nil) .nil)) .nil) (.node (.node (.node (.node (.leaf [(1, .ofNat 1)]) .nil) (.node (.leaf [(37, .ofNat 1)]) .nil)) .nil) (.node (.node (.node (.leaf [(11749957, .negSucc 0), (12205013, .ofNat 1)]) .nil) .nil) .nil))

def upr223 : Tr := .node .nil (.leaf [(91931035, .negSucc 0), (99880585, .ofNat 1), (194949230, .ofNat 1), (201852910, .negSucc 0), (431673295, .negSucc 0), (446960015, .ofNat 1), (814246310, .ofNat 1), (884656610, .negSucc 0), (3441435355, .negSucc 0), (3739026505, .ofNat 1), (7297918190, .ofNat 1), (7556357230, .negSucc 0), (33187103635, .ofNat 1), (36056891185, .negSucc 0), (37881461945, .negSucc 0), (39222947065, .ofNat 1), (56464820635, .negSucc 0), (58464392795, .ofNat 1), (70663695055, .ofNat 1), (74148399365, .negSucc 0), (76477668455, .ofNat 1), (79185949735, .negSucc 0), (106507102430, .ofNat 1), (115717088330, .negSucc 0), (152526490171, .ofNat 1), (157927866107, .negSucc 0), (167107279297, .ofNat 1), (173025000449, .negSucc 0), (173111133643, .ofNat 1), (179241467531, .negSucc 0), (287703995678, .negSucc 0), (290322324845, .negSucc 0), (300753067055, .negSucc 0), (312582615818, .ofNat 1), (315207095546, .negSucc 0), (315427359695, .ofNat 1), (326531901374, .negSucc 0), (326760079205, .ofNat 1), (342463990526, .ofNat 1), (354768085994, .ofNat 1), (615658397410, .ofNat 1), (637460527970, .negSucc 0), (637777860790, .ofNat 1), (660363301430, .negSucc 0), (697958568709, .ofNat 1), (723034924471, .ofNat 1), (758313121879, .negSucc 0), (785557904701, .negSucc 0), (1063048737545, .negSucc 0), (1139895634235, .negSucc 0), (1154973723395, .ofNat 1), (1167892619210, .negSucc 0), (1209250858570, .ofNat 1), (1238465799785, .ofNat 1), (1242358163155, .ofNat 1), (1244295051395, .negSucc 0), (1288358907715, .ofNat 1), (1349788568305, .negSucc 0), (1363243594265, .negSucc 0), (1411519740505, .ofNat 1), (1412222406035, .negSucc 0), (1462233024595, .ofNat 1), (1602457314730, .ofNat 1), (1644828706115, .ofNat 1), (1659204666410, .negSucc 0), (1787061936065, .negSucc 0), (1928380836370, .negSucc 0), (1996670022290, .ofNat 1), (2029027710850, .negSucc 0), (2204483771350, .ofNat 1), (2254304358010, .ofNat 1), (2334135378170, .negSucc 0), (2347058912110, .ofNat 2), (2550016076410, .negSucc 1), (2571426305770, .ofNat 2), (2663812879630, .ofNat 2), (2793785185870, .negSucc 1), (2878388147950, .negSucc 0), (2894160701530, .negSucc 1), (3127290931450, .ofNat 1), (3350255057450, .negSucc 0), (3488028713470, .negSucc 0), (3611549252990, .ofNat 1), (3639961575950, .ofNat 1), (4199615494550, .negSucc 0), (4492847074025, .ofNat 1), (4562768736050, .ofNat 1), (4881356922275, .negSucc 0), (5143349313550, .negSucc 0), (5250475956355, .ofNat 1), (5436409524035, .negSucc 0), (5588110025050, .ofNat 1), (5693872534205, .negSucc 0), (5898442804895, .negSucc 0), (6024657174655, .ofNat 1), (6186238625855, .ofNat 1), (6238006595135, .negSucc 0), (6373573756175, .ofNat 1), (6408498696245, .ofNat 1), (6541056361054, .ofNat 1), (6712679314145, .ofNat 1), (6772692874718, .negSucc 0), (6924715633925, .negSucc 0), (7057390509085, .negSucc 0), (7293144657995, .negSucc 0), (7327099700515, .negSucc 0), (7418421912925, .ofNat 1), (7667664055135, .ofNat 1), (7723492151255, .ofNat 1), (7960695802465, .ofNat 1), (7997001917335, .negSucc 0), (8046324210995, .negSucc 0), (8059914918175, .negSucc 0), (8742113795345, .ofNat 1), (9299148595075, .ofNat 1), (9903741377390, .negSucc 0), (10103273629825, .negSucc 0), (10760147348090, .ofNat 1), (11388844908575, .ofNat 1), (12373672198325, .negSucc 0), (13675207762145, .ofNat 2), (14159483890465, .negSucc 1), (14234927992810, .negSucc 0), (14568482825590, .negSucc 0), (14739025329770, .ofNat 1), (14965923592130, .ofNat 1), (15495907462210, .negSucc 0), (15537869716670, .ofNat 1), (15828262862290, .ofNat 1), (16088107747390, .negSucc 0), (17063059382110, .ofNat 1), (17667308507870, .negSucc 0), (20383800249235, .ofNat 2), (21105645798995, .negSucc 1), (21929713049935, .ofNat 1), (23758498893325, .ofNat 2), (23826040556485, .negSucc 0), (25812966950575, .negSucc 1), (31520197698365, .ofNat 1), (32636413230205, .negSucc 0), (33138830811145, .negSucc 0), (34312366523465, .ofNat 1), (34405282944055, .negSucc 0), (35413611557975, .ofNat 2), (35623667154935, .ofNat 1), (37782488631815, .negSucc 0), (38475931869725, .negSucc 1), (39120468838855, .ofNat 1), (46504215613430, .negSucc 0), (48151055784310, .ofNat 1), (49053531263099, .ofNat 1), (53295335996969, .negSucc 0), (53361249261230, .negSucc 0), (55250915556910, .ofNat 1), (59455159639570, .negSucc 0), (62508315937610, .ofNat 1), (63047189231911, .negSucc 0), (64596424113670, .ofNat 1), (64897168775990, .ofNat 1), (65279860883687, .ofNat 1), (67913595916910, .negSucc 0), (70509019964690, .negSucc 0), (71267443011670, .ofNat 1), (77430150758770, .negSucc 0), (97048867276865, .ofNat 1), (104806359269045, .ofNat 1), (105440971454315, .negSucc 0), (108571857206855, .ofNat 1), (109534465702235, .negSucc 0), (113869276849895, .negSucc 0), (117960388593005, .negSucc 0), (119006236707785, .ofNat 1), (205802120556970, .negSucc 0), (210432418769450, .negSucc 1), (213090130792490, .ofNat 1), (228629135847950, .ofNat 2), (313663416656350, .negSucc 1), (340786825131850, .ofNat 2), (400173544514755, .negSucc 0), (434777741027905, .ofNat 1), (455704695519005, .ofNat 1), (471842432469085, .negSucc 0), (514332333207695, .ofNat 1), (532546233524815, .negSucc 0), (593783162907515, .negSucc 0), (645129358919465, .ofNat 1), (705329234845255, .negSucc 0), (730306852515335, .ofNat 1), (732479003616850, .ofNat 1), (795818641457350, .negSucc 0), (859575681595090, .negSucc 0), (933905747166790, .ofNat 1), (1005029330544050, .negSucc 0), (1091937205720550, .ofNat 1), (1209442075739450, .ofNat 1), (1314026128917950, .negSucc 0), (1413854820934850, .negSucc 0), (1536115052115350, .ofNat 1), (1621917793723025, .negSucc 0), (1762169848941275, .ofNat 1), (1866919236481085, .ofNat 1), (1895421820244155, .negSucc 0), (1933031900760445, .negSucc 0), (1962543838176635, .ofNat 1), (2225422089061825, .ofNat 1), (2273017085466265, .ofNat 1), (2353510773964505, .negSucc 0), (2417860955524075, .negSucc 0), (2423277232406345, .negSucc 0), (2547717973779685, .ofNat 1), (2632825221536195, .ofNat 1), (2645082991885915, .ofNat 1), (2659676476940165, .negSucc 0), (2678050310565925, .negSucc 0), (2768026723903735, .negSucc 0), (2790835568963095, .ofNat 1), (2873811184689865, .negSucc 0), (2878505796260365, .negSucc 0), (2904723040169195, .ofNat 1), (2909629285461175, .ofNat 1), (2980441479184205, .ofNat 1), (3130678532070025, .ofNat 1), (3155903080119545, .negSucc 0), (3401397615398275, .negSucc 0), (3450394365053815, .ofNat 1), (3572582170412855, .negSucc 0), (3575250637237790, .ofNat 1), (3884413192660490, .negSucc 0), (4102420348531190, .negSucc 0), (4287491943201770, .negSucc 0), (4457168836695890, .ofNat 1), (4658244122561870, .ofNat 1), (5321454831544510, .ofNat 1), (5509901953348670, .negSucc 0), (7916626411026535, .negSucc 0), (8576818100490325, .negSucc 1), (8601200640891085, .ofNat 1), (9318481069157575, .ofNat 2), (12784313772428975, .negSucc 1), (13889811404970725, .ofNat 2), (35034641086948265, .negSucc 0), (38064190695007715, .ofNat 1), (39541942118506835, .ofNat 1), (40145113410626645, .negSucc 0), (42961251451510385, .negSucc 0), (43616580759095495, .ofNat 1), (49010192780598865, .ofNat 1), (50745776387138705, .negSucc 0), (68776734620287910, .ofNat 1), (71212304985266470, .negSucc 0), (73177354009471190, .negSucc 0), (75768762220358230, .ofNat 1), (85131848539117810, .ofNat 1), (87635593032356290, .negSucc 0), (88146597764454770, .negSucc 0), (90739006628324930, .ofNat 1), (127134016132693150, .negSucc 0), (138127672605152650, .ofNat 1), (152252907326106650, .negSucc 0), (165418669023821150, .ofNat 1), (187518918914790050, .negSucc 0), (203734237515946550, .ofNat 1), (281511035722391975, .ofNat 1), (305854132197123725, .negSucc 0), (337131437650664725, .ofNat 1), (366284195695603975, .negSucc 0), (415220463311320825, .ofNat 1), (451125811642453075, .negSucc 0), (673957844369671685, .negSucc 1), (697824516174520645, .ofNat 2), (820559167853321665, .negSucc 1), (849617389401186305, .ofNat 2), (1170894583695376225, .negSucc 1), (1272145320596310475, .ofNat 2), (1425591071114588525, .negSucc 1), (1548866170751821775, .ofNat 2), (10370780598444760850, .ofNat 2), (11267572839567321350, .negSucc 1), (12626663772729212650, .ofNat 2), (13718528940944707150, .negSucc 1), (43135398938273936350, .negSucc 0), (45895379823902227150, .ofNat 1), (46865445169448811850, .ofNat 1), (49864089810460106650, .negSucc 0), (53393000836133437850, .negSucc 0), (54963299544724500650, .ofNat 1), (58010052409597008350, .ofNat 1), (59716139517599435150, .negSucc 0), (95514097649035144775, .ofNat 1), (101625483895783502975, .negSucc 0), (103773485732350940525, .negSucc 0), (110413341723161664725, .ofNat 1), (118227358994295469525, .ofNat 1), (121704448991889965725, .negSucc 0), (128450830335536232775, .negSucc 0), (132228594646113034975, .ofNat 1), (422692944714030817225, .ofNat 2), (459244460735268081475, .negSucc 1), (514638376672366457525, .ofNat 2), (559140687641407660775, .negSucc 1)])

def upr224 : Tr := .node (.node (.node (.node (.node (.leaf [(1, .ofNat 1)]) .nil) .nil) .nil) .nil) (.node (.node (.node (.node (.leaf [(437, .negSucc 0)]) .nil) .nil) (.node .nil (.node (.leaf [(142, .negSucc 0), (146, .ofNat 1), (178, .negSucc 0), (194, .ofNat 1), (1501, .ofNat 1), (36239, .ofNat 1), (37541, .ofNat 1), (160153, .ofNat 1), (937037, .negSucc 0), (970703, .negSucc 0), (1418498, .ofNat 1), (4141099, .negSucc 0), (6268846, .ofNat 1), (13672457, .negSucc 0), (60423439, .negSucc 0)]) .nil))) (.node (.node upr223 .nil) .nil))

def upr225 : Tr := .node (.node (.node (.node (.node .nil (.leaf [(26657, .negSucc 0), (29279, .ofNat 1)])) .nil) .nil) .nil) (.node (.node (.node (.node .nil (.leaf [(3982, .ofNat 1)])) .nil) .nil) .nil)

def upr226 : Tr := .node .nil (.node (.node (.node (.node .nil (.leaf [(2, .negSucc 3)])) .nil) .nil) .nil)

def upr227 : Tr := .node (.node (.node (.node (.node (.leaf [(181, .ofNat 1)]) .nil) .nil) .nil) (.node (.node (.node (.leaf [(2, .negSucc 0)]) .nil) .nil) .nil)) (.node .nil (.node (.node (.node (.leaf [(45649, .ofNat 1)]) (.leaf [(4163, .negSucc 0)])) .nil) .nil))

def upr228 : Tr := .node (.node (.node (.node (.node (.leaf [(2, .negSucc 0)]) .nil) .nil) .nil) .nil) (.node (.node .nil (.node (.node (.leaf [(3, .ofNat 1), (589, .negSucc 0)]) .nil) (.node (.leaf [(34011710, .ofNat 1), (398253395, .negSucc 0)]) .nil))) .nil)

def upr229 : Tr := .node (.node (.node (.node (.node (.leaf [(37, .negSucc 0), (181, .ofNat 1)]) .nil) .nil) (.node (.node (.leaf [(2, .ofNat 1)]) .nil) .nil)) (.node (.node (.node .nil (.leaf [(19, .ofNat 4)])) .nil) .nil)) (.node (.node (.node (.node (.leaf [(266, .negSucc 0)]) .nil) .nil) (.node (.node (.leaf [(7, .ofNat 1)]) .nil) (.node (.leaf [(1646404055, .negSucc 0)]) .nil))) (.node (.node (.node (.leaf [(28417, .negSucc 0), (29503, .negSucc 0), (30227, .negSucc 0), (31313, .negSucc 0), (32399, .negSucc 0)]) (.leaf [(41, .ofNat 1)])) .nil) .nil))

def upr230 : Tr := .node (.node .nil (.node (.node (.node .nil (.leaf [(70, .ofNat 1), (155, .negSucc 0)])) .nil) .nil)) (.node .nil (.node (.node (.node (.leaf [(67, .ofNat 1)]) .nil) .nil) .nil))

def upr231 : Tr := .node .nil (.node (.node (.node (.node .nil (.leaf [(1855, .negSucc 0), (16430, .ofNat 1), (78470, .ofNat 1), (173755, .negSucc 0), (669655, .ofNat 1)])) .nil) .nil) .nil)

def upr232 : Tr := .node (.node (.node (.node upr215 upr216) (.node upr217 upr218)) (.node (.node upr219 upr220) (.node upr221 upr222))) (.node (.node (.node upr224 upr225) (.node upr226 upr227)) (.node (.node upr228 upr229) (.node upr230 upr231)))

def upr233 : Tr := .node (.node (.node (.node (.node (.leaf [(1, .ofNat 1)]) .nil) .nil) .nil) (.node (.node .nil (.node (.leaf [(106, .ofNat 1)]) .nil)) (.node (.node (.leaf [(21, .negSucc 0)]) .nil) .nil))) (.node (.node (.node (.node (.leaf [(3, .ofNat 1)]) .nil) .nil) (.node (.node (.leaf [(147, .ofNat 2), (3801, .negSucc 1)]) .nil) .nil)) (.node (.node (.node (.leaf [(106, .ofNat 1)]) .nil) .nil) .nil))

def upr234 : Tr := .node (.leaf [(447895, .negSucc 0), (905170, .ofNat 1), (2004305, .negSucc 0), (3967070, .ofNat 1), (16766935, .negSucc 0), (33885010, .ofNat 1), (161690095, .ofNat 1), (175887655, .negSucc 0), (262172165, .negSucc 0), (355093945, .ofNat 1), (518910710, .ofNat 1), (708196709, .ofNat 1), (775896863, .ofNat 1), (803773397, .ofNat 1), (1401715766, .negSucc 0), (1414472465, .negSucc 0), (1465291835, .negSucc 0), (1535712962, .negSucc 0), (1590888278, .negSucc 0), (2858567390, .ofNat 1), (2961270410, .ofNat 1), (3400507273, .ofNat 1), (3522681187, .ofNat 1), (5179254365, .negSucc 0), (5422649590, .negSucc 0), (5553658295, .negSucc 0), (5777394205, .negSucc 0), (6052863535, .ofNat 1), (6329684935, .negSucc 0), (6557098765, .negSucc 0), (7440379670, .ofNat 1), (8013730655, .ofNat 1), (8953677230, .negSucc 0), (9885577450, .negSucc 0), (10466974790, .ofNat 1), (11435049670, .ofNat 2), (12528184690, .ofNat 2), (12978299110, .ofNat 2), (14023726150, .negSucc 0), (16195288130, .negSucc 0), (16322697650, .negSucc 0), (20460846350, .negSucc 0), (21889492925, .ofNat 1), (24378518045, .ofNat 1), (25058789350, .negSucc 0), (27740980385, .negSucc 0), (27973123745, .ofNat 1), (28737662315, .negSucc 0), (30370820066, .ofNat 1), (31052536475, .ofNat 1), (32704684565, .ofNat 1), (34384143745, .negSucc 0), (35698187455, .negSucc 0), (35860995145, .ofNat 1), (36143116225, .ofNat 1), (39202304015, .negSucc 0), (45306159775, .ofNat 1), (48251781830, .negSucc 0), (55487319275, .ofNat 1), (63495443455, .ofNat 2), (66094283990, .negSucc 0), (69488374270, .ofNat 1), (70978757230, .negSucc 0), (72143980930, .ofNat 1), (79225598690, .ofNat 1), (94644151565, .ofNat 2), (106843231195, .ofNat 1), (115753215025, .ofNat 2), (146351628835, .ofNat 1), (153867114455, .negSucc 0), (159747386345, .negSucc 0), (172537811075, .ofNat 2), (175428111385, .negSucc 0), (215924016970, .negSucc 0), (238992538103, .ofNat 1), (247761953170, .negSucc 0), (289670063290, .negSucc 0), (292734802169, .negSucc 0), (304545273170, .ofNat 1), (316183946030, .ofNat 1), (347220406990, .ofNat 1), (472829468405, .ofNat 1), (510624559865, .ofNat 1), (528970352435, .ofNat 1), (533660254295, .negSucc 0), (955561124630, .negSucc 0), (1025242761650, .negSucc 1), (1528192040950, .negSucc 1), (1949675968735, .negSucc 0), (2115885347395, .ofNat 1), (2388099701905, .ofNat 1), (2892956766455, .negSucc 0), (3274918621145, .negSucc 0), (3568693459450, .ofNat 1), (4187918148730, .negSucc 0), (4896579397850, .negSucc 0), (5892493851650, .ofNat 1), (6888408305450, .negSucc 0), (7902106945925, .negSucc 0), (8668304487715, .ofNat 1), (8800645014245, .negSucc 0), (10553859972935, .ofNat 1), (10842425809525, .ofNat 1), (11806391127965, .negSucc 0), (12412675891945, .ofNat 1), (12887045671255, .ofNat 1), (13047664957225, .negSucc 0), (13365208426835, .negSucc 0), (14152031749415, .ofNat 1), (15252904104925, .ofNat 1), (16020547849385, .ofNat 1), (17418893240630, .ofNat 1), (19987304200430, .negSucc 0), (20888987096690, .negSucc 0), (24708080508290, .ofNat 1), (38570406461395, .negSucc 0), (41786910624025, .negSucc 1), (62286149798075, .negSucc 1), (170691438094205, .negSucc 0), (192651351800495, .ofNat 1), (195590048247065, .negSucc 0), (227559535368335, .ofNat 1), (319337690516890, .ofNat 1), (339770234172010, .negSucc 0), (395276223158990, .ofNat 1), (406901375014910, .negSucc 0), (619406603610550, .negSucc 0), (741787753470050, .negSucc 0), (913606446259850, .negSucc 0), (1371543193709075, .ofNat 1), (1642530025540825, .ofNat 1), (2022985702432525, .ofNat 1), (3129257920065115, .negSucc 1), (3809943450229535, .negSucc 1), (5704687536306325, .negSucc 1), (6945588209649425, .negSucc 1), (50527232464427450, .ofNat 2), (61518066999752050, .ofNat 2), (210158946948200950, .negSucc 0), (223605783903408550, .ofNat 1), (260134764168596450, .negSucc 0), (267785379002688050, .ofNat 1), (465351953956730675, .ofNat 1), (495127092928976075, .negSucc 0), (576012692087606425, .ofNat 1), (592953339220237825, .negSucc 0), (2059392200606583325, .ofNat 2), (2507357343683442425, .ofNat 2)]) .nil

def upr235 : Tr := .node (.leaf [(136776115, .ofNat 2), (146663545, .ofNat 2), (220116610, .negSucc 0), (227578190, .negSucc 0), (309655570, .negSucc 0), (326117890, .negSucc 0), (332040310, .negSucc 0), (376809790, .negSucc 0), (487401065, .ofNat 1), (503923135, .ofNat 1), (685665905, .ofNat 1), (722118185, .ofNat 1), (735232115, .ofNat 1), (834364535, .ofNat 1), (1211445590, .negSucc 1), (1299019970, .negSucc 1), (1878452765, .negSucc 2), (2799957895, .negSucc 2), (3056863775, .negSucc 1), (3282166685, .ofNat 1), (3792348035, .ofNat 1), (4947010810, .ofNat 4), (6171404225, .ofNat 2), (6920615450, .negSucc 0), (8286457669, .ofNat 1), (8584174711, .ofNat 1), (10315634350, .negSucc 0), (10954095365, .negSucc 1), (12092193050, .ofNat 1), (13971808550, .ofNat 1), (14640647182, .negSucc 1), (15166658458, .negSucc 1), (15324219925, .ofNat 1), (16637724490, .ofNat 2), (22841761775, .ofNat 1), (24799627070, .ofNat 2), (26775570325, .negSucc 0), (27075079150, .ofNat 4), (30937576075, .negSucc 0), (40357193450, .ofNat 2), (49376177515, .negSucc 3), (52945539745, .negSucc 3), (53340970025, .negSucc 0), (54661008850, .negSucc 3), (57913053170, .negSucc 1), (59951960975, .negSucc 1), (73188772825, .ofNat 1), (79462096210, .ofNat 2), (86803395875, .negSucc 1), (88074624925, .negSucc 0), (89362356925, .negSucc 1), (94243686950, .negSucc 3), (95623878490, .negSucc 1), (102960477025, .ofNat 1), (111785660770, .ofNat 2), (117816967975, .negSucc 1), (121035091025, .ofNat 2), (123139701125, .negSucc 1), (128236046305, .ofNat 1), (129311105350, .ofNat 2), (133694532650, .negSucc 1), (143269190281, .negSucc 1), (143326537375, .negSucc 1), (155611669150, .negSucc 3), (175951784465, .negSucc 0), (178947342350, .ofNat 1), (179662842625, .negSucc 1), (195062514850, .negSucc 3), (208682449675, .ofNat 6), (211738588085, .ofNat 1), (220036515125, .negSucc 1), (238896787850, .negSucc 1), (247525391705, .negSucc 0), (266732831050, .ofNat 1), (286331733275, .negSucc 3), (296037893725, .ofNat 2), (298748605435, .negSucc 0), (312669563150, .negSucc 0), (324355628758, .ofNat 1), (344568695975, .ofNat 6), (361271049650, .negSucc 0), (396240543775, .negSucc 0), (402805658675, .negSucc 1), (431924140025, .ofNat 4), (472448591650, .ofNat 1), (527833858930, .ofNat 2), (528985744525, .ofNat 2), (590622697325, .negSucc 0), (648243416450, .negSucc 0), (678121448165, .ofNat 4), (692339746975, .ofNat 1), (768830077750, .ofNat 4), (780089535050, .ofNat 1), (799957324225, .ofNat 1), (911935653650, .negSucc 0), (914233820290, .negSucc 0), (1010784800095, .ofNat 4), (1043521716350, .ofNat 2), (1090665924250, .ofNat 4), (1103527822775, .ofNat 10), (1168774973345, .negSucc 1), (1269463616750, .ofNat 4), (1379245082075, .ofNat 1), (1591299463250, .ofNat 4), (1644881094325, .ofNat 8), (1702409457875, .negSucc 1), (1848330268550, .negSucc 1), (1892452554475, .negSucc 0), (1948894848250, .ofNat 4), (2024374887785, .ofNat 1), (2227876925225, .negSucc 1), (2244487807625, .ofNat 2), (2277358158775, .ofNat 1), (2415045975125, .negSucc 1), (2498342177450, .ofNat 2), (2536081066150, .ofNat 2), (2646059076710, .ofNat 1), (2662263763075, .negSucc 0), (2810955151375, .negSucc 1), (3051894164350, .negSucc 1), (3126362100547, .negSucc 0), (3184040843375, .ofNat 2), (3229125708970, .negSucc 0), (3523591668625, .negSucc 1), (3567707262550, .ofNat 2), (3706014752125, .ofNat 2), (3723944000350, .ofNat 2), (3731062347670, .negSucc 1), (4065628820750, .ofNat 4), (4315410021125, .negSucc 1), (4472333012770, .ofNat 1), (4645567787875, .ofNat 2), (4703730594850, .ofNat 2), (5043759312550, .ofNat 2), (5087624895745, .negSucc 5), (5165231333815, .ofNat 2), (5532043392925, .negSucc 1), (5689515605375, .ofNat 2), (6060088242250, .ofNat 4), (6732134073805, .negSucc 0), (7150206927005, .ofNat 1), (8245876000775, .negSucc 1), (8261638055555, .ofNat 2), (9002463817375, .negSucc 7), (9447304169870, .negSucc 0), (9774103573150, .negSucc 11), (9903023099705, .negSucc 0), (10415403460025, .negSucc 1), (10608846463075, .ofNat 1), (11168324192075, .negSucc 1), (11518176159910, .ofNat 2), (11693873984170, .negSucc 0), (12216170726950, .negSucc 0), (13178323839310, .negSucc 0), (13418766822125, .negSucc 7), (14568946835450, .negSucc 11), (15226767959410, .negSucc 0), (16761722625350, .ofNat 1), (18251953646710, .ofNat 1), (18743881194850, .negSucc 1), (19256090179025, .ofNat 1), (19879749153250, .negSucc 3), (20170886549150, .negSucc 0), (20919030661855, .ofNat 1), (21642657911975, .ofNat 4), (23580050472950, .ofNat 1), (25504532925515, .negSucc 0), (25893578107805, .ofNat 1), (26421146989825, .negSucc 0), (28201504612750, .negSucc 3), (29180574215615, .ofNat 1), (31336025910875, .ofNat 4), (31794939597925, .ofNat 1), (32259810849925, .ofNat 4), (32824702090250, .negSucc 3), (33716414767265, .ofNat 1), (34021970988950, .ofNat 4), (34975620881635, .negSucc 0), (37168732206025, .negSucc 0), (40415040217715, .negSucc 0), (41146457549750, .negSucc 3), (41504308360025, .ofNat 2), (42531925438975, .ofNat 2), (42995942528875, .negSucc 1), (44019444553625, .ofNat 2), (44453432106125, .ofNat 2), (45061820505170, .ofNat 4), (45749191813790, .negSucc 1), (46681309031350, .negSucc 3), (50392852504750, .negSucc 3), (51740879992375, .ofNat 4), (56175812563150, .ofNat 4), (56916900160225, .negSucc 1), (59627473225130, .ofNat 1), (60485817455875, .negSucc 1), (62446188785375, .ofNat 2), (64599990588350, .negSucc 1), (64858286187625, .ofNat 2), (65670316094950, .negSucc 3), (72683268914125, .ofNat 2), (75334364332675, .negSucc 5), (79433181960125, .ofNat 2), (79736108096750, .ofNat 4), (91110013145875, .ofNat 2), (92576142042545, .ofNat 3), (93964068672950, .negSucc 0), (96290552009050, .negSucc 1), (103365755712275, .ofNat 6), (105125545222250, .negSucc 3), (107848246562035, .ofNat 2), (111584173403375, .ofNat 2), (112713580993405, .ofNat 3), (118851934710250, .ofNat 4), (123535876785055, .negSucc 0), (124389299246975, .negSucc 5), (128857550616550, .negSucc 0), (142738344679105, .negSucc 0), (143042836302775, .ofNat 2), (145412842781675, .ofNat 6), (150651994190075, .ofNat 2), (156696567406750, .negSucc 3), (171096956204755, .ofNat 1), (175504758094225, .negSucc 1), (190548023073730, .negSucc 5), (199144174490590, .negSucc 3), (213214793734325, .ofNat 2), (232282484437675, .negSucc 1), (232777992992125, .ofNat 8), (243045942743275, .ofNat 1), (263878452121270, .ofNat 2), (274314458545225, .negSucc 0), (277547658067750, .negSucc 3), (285327433508075, .ofNat 1), (341069996998850, .ofNat 1), (346970970686375, .ofNat 8), (380821205255750, .ofNat 4), (397335645228550, .ofNat 1), (398373544021775, .negSucc 7), (415260561554650, .ofNat 1), (421927765377545, .ofNat 4), (440962100657735, .ofNat 2), (455132177629150, .negSucc 0), (458276365646750, .negSucc 3), (484663213752550, .ofNat 2), (497907474629075, .negSucc 0), (504121115704850, .ofNat 4), (525878111975650, .negSucc 0), (535731526037750, .ofNat 4), (584302286839955, .negSucc 0), (593802075051325, .negSucc 7), (614569814292875, .ofNat 2), (630357207070150, .ofNat 1), (683175372165475, .ofNat 1), (755226421926025, .negSucc 0), (810260098552625, .negSucc 3), (819960115233970, .negSucc 1), (822126295317775, .negSucc 0), (843246954494875, .negSucc 1), (879814643006075, .negSucc 0), (919505529156725, .negSucc 0), (961077218470075, .ofNat 1), (998320288798730, .negSucc 1), (1007792679035975, .ofNat 1), (1014754809646375, .ofNat 2), (1073182830452075, .negSucc 1), (1111752228246625, .ofNat 2), (1116268184775025, .negSucc 1), (1149438744458375, .negSucc 1), (1164444390803225, .ofNat 1), (1186262664797875, .negSucc 1), (1334346234254950, .negSucc 3), (1337871325517125, .negSucc 3), (1395790958512475, .negSucc 0), (1467692004290750, .negSucc 3), (1554470714548850, .ofNat 2), (1563990422787625, .ofNat 2), (1624597212949550, .negSucc 1), (1677049971422875, .negSucc 1), (1836632587363945, .ofNat 6), (1864648511507215, .negSucc 3), (2053915133540375, .negSucc 1), (2057359147876550, .ofNat 4), (2061747937930250, .negSucc 3), (2152692635726150, .negSucc 0), (2187691855452250, .negSucc 3), (2429642347114850, .ofNat 1), (2430300400643605, .ofNat 2), (2954623804421675, .ofNat 2), (3073171454650750, .negSucc 3), (3141228636481775, .ofNat 1), (3249889438072375, .ofNat 8), (3331888094513650, .ofNat 1), (3342217411535975, .negSucc 0), (3410476805323070, .ofNat 2), (3597322400102575, .ofNat 2), (3628693189667630, .negSucc 1), (3829793573170075, .negSucc 0), (3888213099736525, .ofNat 1), (4002566215568725, .negSucc 0), (4221488508285370, .ofNat 2), (4345643319760330, .negSucc 1), (4538051602150675, .ofNat 2), (4555580970298075, .negSucc 1), (4742775734578525, .ofNat 2), (4844174822787125, .ofNat 8), (5438892861114125, .negSucc 1), (5549973465353450, .ofNat 2), (5905083677781050, .negSucc 3), (6284473662361825, .negSucc 0), (6513498715210375, .negSucc 1), (6766541111340850, .ofNat 2), (7071798605085550, .negSucc 3), (7176589444323250, .ofNat 4), (7377752209280225, .negSucc 0), (7551770068929655, .negSucc 0), (8022206333393875, .negSucc 1), (8034963491406895, .ofNat 1), (8709824019113350, .negSucc 1), (8819095636684550, .negSucc 0), (8953738318160650, .ofNat 1), (9347581696917605, .negSucc 0), (9622495922326445, .ofNat 1), (9846948307327250, .negSucc 3), (10273964540909650, .negSucc 0), (10737451663055950, .negSucc 0), (11312305353825875, .negSucc 1), (11768417735839450, .ofNat 1), (11849717454580250, .ofNat 4), (12289226958996925, .negSucc 3), (13075542429372325, .ofNat 6), (13597705466798950, .ofNat 1), (13852486601833250, .negSucc 3), (14983055317969025, .negSucc 1), (15211606278085175, .negSucc 1), (15521535252923875, .ofNat 2), (15658982625546575, .ofNat 6), (15891019483858625, .negSucc 1), (16299236354242450, .negSucc 0), (18678457677247375, .negSucc 1), (19286038899465275, .ofNat 2), (19527997481230075, .ofNat 1), (19826134847355725, .negSucc 0), (20547000957841225, .ofNat 2), (21803956966224625, .ofNat 2), (21835380101570875, .ofNat 2), (22749492912014225, .ofNat 1), (23775785825338175, .ofNat 1), (26058639272215925, .negSucc 0), (26238660077999125, .negSucc 1), (27822310780267150, .negSucc 0), (29602497073604350, .ofNat 1), (30109204962197675, .negSucc 0), (30673363189773625, .ofNat 2), (33419987277358745, .negSucc 3), (34438458883380650, .negSucc 0), (35451300766465850, .ofNat 1), (36091166212965425, .ofNat 1), (37950321825232250, .ofNat 4), (40194171333334550, .negSucc 1), (40689602738619205, .negSucc 3), (42007442220552650, .negSucc 1), (48173051055582250, .ofNat 4), (54385369902617075, .negSucc 9), (55662481009490450, .ofNat 1), (56567460833836750, .ofNat 4), (57690988620434750, .ofNat 4), (63357217672015225, .ofNat 2), (66215438018121175, .negSucc 7), (71053827524345750, .ofNat 4), (81223197600457325, .negSucc 0), (83853976882000675, .ofNat 2), (84032855470157125, .negSucc 7), (86420193069715925, .ofNat 1), (87739585330322275, .negSucc 0), (99027519534826225, .ofNat 1), (100538081578901575, .negSucc 0), (103494926431134175, .ofNat 1), (106668898765932125, .negSucc 1), (108847438779687050, .ofNat 2), (115811947231583450, .negSucc 1), (123126268916584850, .negSucc 1), (125256520417781375, .negSucc 7), (127744331945248375, .negSucc 1), (134731369891611550, .ofNat 2), (138693846111983950, .negSucc 1), (140634229694522375, .ofNat 2), (149909062721228650, .negSucc 1), (157333475232479875, .negSucc 1), (168420466779011125, .ofNat 2), (174963420164670550, .negSucc 1), (177632305569897850, .ofNat 2), (200367152272799750, .negSucc 3), (207431335192041625, .ofNat 2), (231518090798153950, .negSucc 0), (243951613750972750, .negSucc 3), (272636738315295025, .ofNat 2), (292503895577497625, .ofNat 2), (331941496025577725, .ofNat 2), (387419001793199075, .ofNat 2), (393328676619059525, .negSucc 1), (401342554397031625, .negSucc 1), (443670122889770875, .ofNat 8), (481698990566036950, .ofNat 12), (482971548511682125, .ofNat 2), (512647201053055175, .ofNat 1), (540178573305725375, .ofNat 8), (564600542626332625, .negSucc 1), (586479593874787550, .ofNat 12), (719405464461193450, .ofNat 1), (765435995760341050, .negSucc 0), (890480151127413950, .ofNat 1), (916669348390045550, .negSucc 0), (1066619193396224675, .negSucc 3), (1133983537769920775, .negSucc 0), (1206540485564486975, .ofNat 1), (1245617463008626750, .negSucc 3), (1298633386437029575, .negSucc 3), (1403644929004885525, .negSucc 0), (1444926403820309725, .ofNat 1), (1491724134328384250, .negSucc 3), (1638236628376393675, .negSucc 1), (1712142040182847525, .negSucc 1), (1837248968843797250, .negSucc 3), (1845366177230022125, .negSucc 1), (1963440322862199125, .ofNat 4), (2003540420992595450, .negSucc 3), (2131735207678959050, .ofNat 4), (2268694992112618825, .ofNat 1), (2284194426596338375, .negSucc 1), (2351373036190945375, .ofNat 4), (2479982520304595950, .negSucc 3), (2552919296435883550, .ofNat 4), (2758152953804816375, .ofNat 2), (2896016486355188875, .ofNat 2), (3183693524843122550, .ofNat 2), (3303103440298565125, .ofNat 2), (3876220050363197950, .ofNat 2), (3929649659880827750, .negSucc 3), (4068194145296979625, .ofNat 2), (4436410932197889925, .ofNat 6), (4720270817003409325, .negSucc 5), (4784438792136424750, .negSucc 3), (5180922080196679250, .ofNat 4), (5491389866388748175, .ofNat 6), (5652892727822313575, .negSucc 5), (6307891726989438250, .ofNat 4), (7049607090724057075, .negSucc 1), (8583058682947081175, .negSucc 1), (11472041749006932625, .negSucc 7), (13967474538333756125, .negSucc 7), (16344671855465910250, .ofNat 4), (17390471431065192250, .negSucc 3), (19633118534844764075, .ofNat 8), (20231436349853282750, .ofNat 4), (20826446891976944750, .negSucc 3), (23903773124541744175, .ofNat 8), (29321574333765094325, .ofNat 1), (31197689698167448925, .negSucc 0), (36191773394245944125, .negSucc 1), (36294247449983468575, .ofNat 1), (37361668441639437175, .negSucc 0), (38507472454501497125, .ofNat 2), (44798180488960840375, .negSucc 1), (46115703832234663375, .ofNat 2), (47715896868376286375, .ofNat 2), (50768956919722577375, .negSucc 3), (59062741601991035125, .ofNat 2), (60799788507223016125, .negSucc 3), (72332541970480709750, .ofNat 4), (74882712004327026625, .negSucc 1), (88066532564101162750, .ofNat 4), (101609512634061403250, .ofNat 4), (123711917339527554250, .ofNat 4), (160164914363207285875, .negSucc 7), (195004464963366860375, .negSucc 7), (422626515119904250750, .negSucc 3), (449667904146114256750, .ofNat 4), (523127139903349168250, .negSucc 3), (538512412492546714250, .ofNat 4), (666177189980037987125, .ofNat 2), (708801956553253884125, .negSucc 1), (824594188001278153375, .ofNat 2), (848845666064931280375, .negSucc 1), (935815854908359412375, .ofNat 2), (995693216323538711375, .negSucc 1), (1158352952643130301125, .ofNat 2), (1192420341947782010125, .negSucc 1), (1870312870951001209250, .negSucc 3), (2277148913443187208250, .negSucc 3), (4141407071391502677625, .ofNat 8), (5042258308338485961125, .ofNat 8), (17225438769483839381375, .negSucc 1), (18327593448019850432375, .ofNat 2), (21321649718318763680125, .negSucc 1), (21948723651107508821125, .ofNat 2)]) .nil

def upr236 : Tr := .node (.node (.node (.node (.node .nil (.leaf [(19084199473, .negSucc 0), (19760022641, .ofNat 1), (187158406458269, .negSucc 0), (193786192305373, .ofNat 1), (221359942663841, .ofNat 1), (229932839574769, .negSucc 0)])) .nil) .nil) (.node (.node (.node .nil (.leaf [(7, .ofNat 1), (62, .negSucc 0), (2527, .negSucc 0)])) .nil) (.node (.node (.leaf [(35, .ofNat 1), (38, .ofNat 1), (310, .negSucc 1), (6479, .negSucc 0), (12635, .negSucc 0), (52855, .ofNat 1)]) .nil) upr234))) (.node (.node (.node (.node .nil (.leaf [(67, .ofNat 1)])) .nil) (.node (.node (.leaf [(14, .ofNat 1), (31, .negSucc 0)]) .nil) .nil)) (.node (.node .nil upr235) .nil))

def upr237 : Tr := .node (.leaf [(1691, .ofNat 1)]) (.leaf [(987070, .ofNat 1), (1020530, .ofNat 1), (1388590, .ofNat 1), (1488970, .ofNat 1), (1689730, .ofNat 1), (2185655, .negSucc 0), (2259745, .negSucc 0), (3074735, .negSucc 0), (3297005, .negSucc 0), (3741545, .negSucc 0), (8423555, .ofNat 3), (12555865, .ofNat 3), (17006045, .negSucc 0), (31034150, .ofNat 1), (37159003, .negSucc 0), (38494057, .negSucc 0), (46258450, .ofNat 1), (62653850, .negSucc 0), (68718475, .negSucc 0), (74608630, .negSucc 1), (102429425, .negSucc 0), (111209090, .negSucc 1), (138733525, .ofNat 1), (239197175, .ofNat 1), (259699790, .ofNat 2), (328200775, .negSucc 0), (356332270, .negSucc 1), (394953475, .ofNat 1), (428806630, .ofNat 2), (461706175, .negSucc 0), (501280990, .negSucc 1), (575049535, .negSucc 0), (789021455, .ofNat 1), (802454450, .negSucc 0), (949500395, .negSucc 0), (1109979335, .ofNat 1), (1196111350, .negSucc 0), (1339679845, .ofNat 1), (1454509546, .negSucc 0), (1620049550, .ofNat 1), (1776863425, .ofNat 1), (2118603550, .negSucc 0), (2648532275, .ofNat 1), (2906921150, .ofNat 1), (3040903355, .negSucc 3), (3498159350, .negSucc 0), (3587252575, .negSucc 0), (4089397550, .ofNat 1), (4099703230, .ofNat 1), (4532667265, .negSucc 3), (6184955525, .negSucc 0), (8486334325, .ofNat 1), (9077914295, .negSucc 0), (10212368425, .negSucc 0), (11203328150, .negSucc 1), (11865735770, .negSucc 0), (11938402525, .ofNat 1), (14019560989, .ofNat 1), (16699300450, .negSucc 1), (16731221290, .ofNat 2), (20055304990, .negSucc 0), (24807369475, .ofNat 2), (30188942035, .ofNat 1), (36977022425, .ofNat 2), (37047704285, .negSucc 1), (42364592690, .ofNat 1), (44408175335, .ofNat 1), (47573302525, .negSucc 0), (51651014170, .negSucc 1), (52438896790, .ofNat 1), (54781034650, .ofNat 1), (68281470670, .ofNat 1), (75164675450, .negSucc 0), (81847325770, .negSucc 0), (86350180175, .negSucc 0), (90452406050, .ofNat 1), (93807312385, .negSucc 0), (105740136650, .negSucc 0), (114370102805, .ofNat 1), (116114700035, .negSucc 0), (118480479775, .ofNat 1), (142578204475, .negSucc 0), (151194685055, .negSucc 0), (156841349245, .ofNat 1), (166675929175, .ofNat 1), (181233364205, .ofNat 1), (267387772310, .negSucc 0), (289686056450, .ofNat 2), (415139650415, .negSucc 2), (421363536650, .ofNat 1), (431796197350, .ofNat 2), (483624424045, .negSucc 1), (505442067235, .negSucc 2), (577836549850, .ofNat 1), (640082263135, .ofNat 1), (641447696425, .negSucc 1), (767250924685, .negSucc 0), (956120151275, .negSucc 1), (1089892119925, .negSucc 0), (1183311444490, .negSucc 1), (1230109679575, .ofNat 1), (1279495217525, .negSucc 0), (1529461869950, .negSucc 0), (1781774193850, .negSucc 0), (1862154984550, .negSucc 0), (2232768944525, .ofNat 1), (2358197811550, .ofNat 1), (2620189627085, .ofNat 1), (2826713933050, .negSucc 0), (3063566691325, .negSucc 0), (3386665569175, .ofNat 1), (3676951189390, .ofNat 2), (3686665001425, .ofNat 1), (3945357143525, .ofNat 1), (4123343180075, .ofNat 1), (4309763311525, .negSucc 0), (4476772595510, .ofNat 2), (5221723725575, .negSucc 0), (6259152280325, .ofNat 1), (9653330205050, .ofNat 1), (10895257161950, .negSucc 0), (10898208074635, .negSucc 1), (14086227069425, .negSucc 0), (14941202217550, .negSucc 0), (14987522024825, .ofNat 1), (15293617961090, .negSucc 1), (16272166769810, .ofNat 2), (17173962211525, .ofNat 1), (17435933182675, .negSucc 0), (17948727424075, .ofNat 1), (18930441741190, .negSucc 1), (19487189774710, .ofNat 2), (28181496243775, .ofNat 1), (33084090624575, .ofNat 1), (33864439770985, .ofNat 1), (36031226418865, .negSucc 0), (39547514065850, .ofNat 1), (40151292906550, .negSucc 0), (41917406712635, .ofNat 1), (43150205929715, .negSucc 0), (46071589869550, .ofNat 1), (48150007457650, .ofNat 1), (60976257698650, .negSucc 0), (73090745983150, .ofNat 1), (87569495431525, .negSucc 0), (88906434293075, .ofNat 1), (102015663282575, .negSucc 0), (106617873656225, .negSucc 0), (124763725472050, .ofNat 1), (132746623648450, .negSucc 0), (135018856332725, .ofNat 1), (149865413799815, .ofNat 4), (154432551046550, .ofNat 1), (158974442898950, .negSucc 0), (161843794676975, .negSucc 0), (182464586271835, .ofNat 4), (249607538159150, .negSucc 0), (364229585652275, .ofNat 1), (387534498070475, .negSucc 0), (393451055292925, .ofNat 1), (444069594326575, .negSucc 0), (450843415152025, .ofNat 1), (464102809108225, .negSucc 0), (552135735051950, .ofNat 2), (672237949422550, .ofNat 2), (1038197716583650, .ofNat 1), (1222586270472175, .negSucc 1), (1488526888007075, .negSucc 1), (2298866372435225, .negSucc 0), (3226033472920150, .negSucc 0), (3432448411481350, .ofNat 1), (3993184534203650, .negSucc 0), (4110624880672850, .ofNat 1), (5085127972062425, .ofNat 1), (5410495450961825, .negSucc 0), (6294371878945675, .ofNat 1), (6479490600091075, .negSucc 0), (10173520144002775, .negSucc 0), (14276652577771850, .negSucc 1), (17382152692211650, .negSucc 1), (31612587850780525, .ofNat 2), (38489052389897225, .ofNat 2), (131486880420471275, .negSucc 0), (139899953803441475, .ofNat 1), (162754472869881025, .negSucc 0), (167541114088069225, .ofNat 1)])

def upr238 : Tr := .node (.node .nil (.node (.node .nil (.node (.leaf [(437, .negSucc 0)]) .nil)) (.node .nil (.node (.leaf [(3513426253370, .ofNat 1)]) .nil)))) (.node (.node .nil (.node (.node (.leaf [(266, .ofNat 1)]) .nil) .nil)) (.node (.node upr237 .nil) .nil))

def upr239 : Tr := .node (.node (.node .nil (.node (.node (.leaf [(2, .negSucc 0)]) .nil) .nil)) (.node (.node .nil (.node (.leaf [(437, .negSucc 0)]) .nil)) .nil)) (.node (.node (.node .nil (.node (.leaf [(1108189, .ofNat 1)]) .nil)) (.node .nil (.node (.leaf [(790970, .negSucc 0)]) .nil))) (.node (.node (.node .nil (.leaf [(67, .ofNat 1)])) .nil) .nil))

def upr240 : Tr := .node (.node (.node (.node (.node (.leaf [(1, .ofNat 1)]) .nil) .nil) .nil) (.node (.node (.node .nil (.leaf [(19, .negSucc 0)])) .nil) (.node .nil (.node (.leaf [(609442385, .ofNat 1), (1756713126685, .ofNat 1), (1924646340295, .ofNat 1), (1993795310605, .ofNat 1), (10904134056265, .negSucc 0), (44500655202595, .negSucc 0), (46785864030935, .ofNat 1), (48573858834665, .ofNat 1), (53341844977945, .ofNat 1), (65655300905290, .ofNat 1), (75336156748690, .ofNat 1), (643370251784515, .negSucc 0), (726141569245585, .negSucc 0)]) .nil)))) (.node (.node .nil (.node .nil (.node (.leaf [(79, .ofNat 1), (31062, .negSucc 0), (32178, .negSucc 0), (137274, .negSucc 0), (688541, .ofNat 1), (713279, .ofNat 1), (719603, .negSucc 0), (3042907, .ofNat 1), (3180181, .negSucc 0), (17803703, .negSucc 0), (18443357, .negSucc 0), (78680881, .negSucc 0)]) .nil))) .nil)

def upr241 : Tr := .node (.node (.node (.node (.node (.leaf [(6, .ofNat 1), (133, .negSucc 0), (139, .ofNat 1), (3439, .ofNat 1)]) .nil) .nil) .nil) (.node (.node (.node .nil (.leaf [(6859, .negSucc 1)])) .nil) .nil)) (.node (.node (.node (.node (.leaf [(19, .ofNat 1)]) .nil) (.node (.leaf [(95858, .ofNat 1), (99302, .ofNat 1), (938039, .ofNat 1), (29513645, .ofNat 1), (33310655, .ofNat 1), (76545770, .ofNat 1), (169494205, .negSucc 0), (261406570, .negSucc 0), (295037230, .negSucc 0), (1087273670, .ofNat 1), (1247591870, .ofNat 1), (2407534555, .negSucc 0), (2762524855, .negSucc 0), (10654425845, .negSucc 0), (12025146455, .negSucc 0)]) .nil)) .nil) (.node (.node (.node (.leaf [(97, .ofNat 1)]) (.leaf [(185154973, .negSucc 0), (194605511, .ofNat 1)])) .nil) .nil))

def upr242 : Tr := .node (.node (.node (.node (.node .nil (.leaf [(15399968169670, .negSucc 0), (15449282039590, .ofNat 1), (34099929518555, .ofNat 1), (34209124516235, .negSucc 0)])) .nil) .nil) .nil) (.node (.node .nil (.node .nil (.node (.leaf [(790970, .ofNat 1)]) .nil))) (.node (.node (.node (.leaf [(103, .ofNat 1)]) (.leaf [(15240383007290, .ofNat 1), (15314353812170, .negSucc 0), (33746562373285, .negSucc 0), (33910354869805, .ofNat 1)])) (.node (.leaf [(133, .ofNat 2), (490, .ofNat 1), (1085, .negSucc 1), (1178, .negSucc 0), (4795, .negSucc 0), (9610, .ofNat 1), (12670, .negSucc 0), (28055, .ofNat 1), (42470, .ofNat 1), (48013, .negSucc 1), (162925, .negSucc 0), (170275, .ofNat 1), (176890, .negSucc 2), (184870, .ofNat 2), (391685, .ofNat 4), (409355, .negSucc 0), (1443050, .ofNat 2), (1508150, .negSucc 0), (1730995, .ofNat 2), (3195325, .negSucc 0), (4212775, .ofNat 2), (4402825, .negSucc 0), (4573870, .ofNat 3), (6377350, .ofNat 1), (10127855, .negSucc 1), (14121275, .negSucc 0), (37313150, .negSucc 2), (38996450, .ofNat 1), (58815925, .ofNat 1), (61469275, .negSucc 0), (82621975, .ofNat 1), (108930325, .negSucc 0), (164900050, .negSucc 0), (365135825, .ofNat 1), (964811450, .ofNat 1), (1520811775, .negSucc 1), (1589419825, .ofNat 1), (39323847325, .ofNat 1)]) .nil)) .nil))

def upr243 : Tr := .node (.node (.node (.node (.node (.leaf [(181, .ofNat 1)]) .nil) .nil) (.node (.node (.leaf [(21, .ofNat 2), (543, .negSucc 1)]) .nil) .nil)) .nil) (.node (.node (.node (.node (.leaf [(181, .negSucc 0)]) .nil) .nil) .nil) (.node (.node (.node (.leaf [(46127, .negSucc 0)]) .nil) .nil) .nil))

def upr244 : Tr := .node (.node (.node (.node (.node .nil (.leaf [(103, .ofNat 1), (109, .negSucc 0), (1000073, .ofNat 1), (4081379, .ofNat 1)])) (.node (.leaf [(1, .ofNat 1)]) .nil)) .nil) (.node (.node (.node (.leaf [(3, .negSucc 0)]) (.leaf [(1, .ofNat 1)])) (.node (.leaf [(501, .negSucc 0), (519, .negSucc 0), (26671, .negSucc 0), (41134, .negSucc 0), (46426, .negSucc 0), (378841, .negSucc 0), (434701, .negSucc 0)]) .nil)) .nil)) (.node (.node .nil (.node .nil (.node (.leaf [(2345, .negSucc 0), (20770, .ofNat 1), (846545, .ofNat 1)]) .nil))) .nil)

def upr245 : Tr := .node (.leaf [(676865, .negSucc 1), (725795, .negSucc 1), (1576610, .ofNat 1), (1619030, .ofNat 1), (3491065, .negSucc 0), (3584995, .negSucc 0), (5995090, .ofNat 2), (6428470, .ofNat 2), (15127525, .ofNat 2), (15867565, .negSucc 0), (16294495, .negSucc 0), (24481310, .negSucc 3), (30540475, .negSucc 1), (54208615, .ofNat 2), (58459450, .negSucc 0), (60032350, .negSucc 0), (72452282, .ofNat 2), (75055358, .ofNat 2), (129445925, .ofNat 1), (132928775, .ofNat 1), (133986650, .negSucc 3), (199715950, .negSucc 1), (244348265, .ofNat 4), (262011995, .ofNat 4), (270501350, .ofNat 4), (296684725, .ofNat 2), (429564625, .ofNat 2), (442228175, .ofNat 2), (466384450, .ofNat 4), (583041725, .ofNat 2), (598967275, .negSucc 1), (609382375, .ofNat 2), (639922850, .negSucc 1), (661615150, .ofNat 2), (708997331, .ofNat 2), (709281125, .ofNat 2), (770076650, .ofNat 4), (889098875, .ofNat 2), (965307350, .ofNat 4), (1032708425, .negSucc 5), (1088896375, .ofNat 2), (1182230350, .ofNat 2), (1416972025, .ofNat 4), (1465004975, .negSucc 1), (1511594350, .ofNat 1), (1552265050, .ofNat 1), (1705169725, .negSucc 5), (1993367425, .ofNat 2), (2137466275, .negSucc 3), (2612095430, .negSucc 1), (2617795775, .negSucc 1), (3347101775, .negSucc 0), (3437158325, .negSucc 0), (3804715250, .negSucc 3), (5164083850, .negSucc 1), (5397386750, .negSucc 3), (5461036525, .negSucc 9), (5783925595, .ofNat 2), (6282204250, .negSucc 3), (7874875750, .negSucc 3), (8140035575, .negSucc 7), (8424726625, .ofNat 2), (9146846050, .ofNat 2), (9644510750, .negSucc 3), (11025111475, .ofNat 2), (11107313875, .negSucc 1), (11951356375, .ofNat 2), (12550323650, .negSucc 1), (13910595125, .ofNat 2), (15102931850, .ofNat 2), (15611139530, .ofNat 1), (15756887125, .negSucc 1), (16031170190, .ofNat 1), (17437224875, .ofNat 2), (17655540050, .negSucc 1), (18339983375, .negSucc 1), (20119608250, .negSucc 3), (21355702375, .ofNat 2), (22989556625, .negSucc 1), (23277387350, .negSucc 1), (24960090050, .negSucc 1), (25177167995, .ofNat 6), (25561219565, .negSucc 1), (28155749125, .negSucc 1), (29989604750, .negSucc 3), (34567523245, .negSucc 0), (35497591135, .negSucc 0), (44550561125, .ofNat 8), (48369180650, .ofNat 12), (51542786275, .ofNat 2), (55268770825, .ofNat 2), (63710326190, .ofNat 1), (65424505370, .ofNat 1), (66405553375, .ofNat 8), (72097457950, .ofNat 12), (92757987350, .ofNat 2), (98379065750, .ofNat 4), (107103185725, .negSucc 3), (139561000250, .ofNat 4), (141072865135, .negSucc 0), (144868547605, .negSucc 0), (155072829625, .negSucc 3), (159644371175, .negSucc 3), (162439852750, .ofNat 4), (168364786450, .negSucc 3), (203621787250, .ofNat 4), (205392686275, .negSucc 1), (210478062725, .negSucc 1), (212774347625, .ofNat 2), (217839359875, .negSucc 1), (219987037375, .negSucc 1), (222997773670, .negSucc 3), (226399373290, .ofNat 2), (231012148850, .ofNat 4), (249379492250, .ofNat 4), (256050486125, .negSucc 3), (277997670650, .negSucc 3), (281665096475, .ofNat 2), (299326624625, .ofNat 2), (309027929125, .negSucc 1), (320964693875, .negSucc 1), (324983192450, .ofNat 4), (359688245375, .negSucc 1), (372807741425, .ofNat 6), (393091591375, .negSucc 1), (394590684250, .negSucc 3), (450876814625, .negSucc 1), (511526901025, .negSucc 5), (520235584750, .ofNat 4), (552197447125, .negSucc 1), (588163472750, .negSucc 3), (597231567695, .ofNat 1), (613300578485, .ofNat 1), (615566270725, .ofNat 6), (719605640425, .negSucc 5), (745532668825, .negSucc 1), (775445494250, .ofNat 4), (868521730475, .ofNat 2), (942966450230, .ofNat 6), (985506290090, .ofNat 4), (1149498096425, .ofNat 2), (1151950223375, .negSucc 7), (1373502205250, .ofNat 4), (1717057880125, .negSucc 7), (1884572793250, .negSucc 3), (1971434185525, .ofNat 8), (2087997139795, .negSucc 3), (2182192499485, .negSucc 1), (2200326828350, .ofNat 1), (2259528447050, .ofNat 1), (2267875734250, .ofNat 4), (2398456530050, .negSucc 1), (2494747997350, .negSucc 3), (2651178675250, .negSucc 3), (2938552842575, .ofNat 8), (3041326311625, .negSucc 1), (4009740308875, .ofNat 4), (4172982613625, .ofNat 2), (4872152262775, .negSucc 0), (5003241561325, .negSucc 0), (5021724840125, .negSucc 1), (5310868030825, .ofNat 2), (5501736702875, .negSucc 1), (5524084851275, .ofNat 2), (5688236252125, .ofNat 2), (5870467066625, .ofNat 2), (6603289352450, .ofNat 4), (6620733998375, .ofNat 4), (7263178578250, .ofNat 4), (7692621041350, .negSucc 1), (7739731293875, .negSucc 1), (8039656577050, .ofNat 2), (8299229941625, .ofNat 2), (9088957646195, .negSucc 5), (9227600262965, .ofNat 4), (10164225434125, .ofNat 2), (10181268854050, .negSucc 3), (10202987692750, .ofNat 4), (10826247314750, .ofNat 4), (14621569280425, .negSucc 1), (15208226938250, .ofNat 4), (16082752566125, .negSucc 7), (17802096706325, .negSucc 1), (22457490459425, .negSucc 1), (22544238176825, .ofNat 2), (23470610329775, .negSucc 1), (23972404768375, .negSucc 7), (26915490445375, .ofNat 2), (27465195875950, .negSucc 1), (29222532483550, .ofNat 4), (32233400604125, .ofNat 2), (33485633433350, .negSucc 1), (34996263513050, .ofNat 4), (35514842735750, .negSucc 3), (39699553462625, .ofNat 2), (43102372330850, .ofNat 2), (48729667939750, .ofNat 4), (55981291494625, .ofNat 2), (56894165133050, .negSucc 0), (58424949845150, .negSucc 0), (58640786842750, .negSucc 3), (60815790868175, .ofNat 4), (64707036213575, .negSucc 5), (68551905745750, .ofNat 4), (74146759745275, .ofNat 2), (75277791618925, .ofNat 2), (76811539492625, .negSucc 1), (77491726350325, .negSucc 5), (78640008914875, .ofNat 2), (92434225491125, .ofNat 2), (95440967304025, .negSucc 1), (101681099827475, .negSucc 1), (107901407580875, .negSucc 1), (108056911489625, .negSucc 1), (125979937080325, .ofNat 1), (129369531799975, .ofNat 1), (129847456580375, .ofNat 2), (151793505579875, .negSucc 1), (187805046094750, .negSucc 3), (198909201212050, .ofNat 2), (207882548635150, .ofNat 2), (238394343944750, .negSucc 3), (269137293445825, .ofNat 10), (279935823424250, .negSucc 3), (285495833922250, .negSucc 3), (313536344701475, .negSucc 1), (327680841454925, .ofNat 8), (351624616383250, .negSucc 3), (414968812809425, .negSucc 1), (415854030638375, .ofNat 8), (527873190163375, .ofNat 2), (538654147689550, .negSucc 1), (573119463605950, .ofNat 2), (619857894725125, .ofNat 8), (632169346542125, .ofNat 2), (666746154339050, .negSucc 1), (686355290531450, .ofNat 2), (695957681516125, .negSucc 1), (778597364848625, .ofNat 2), (833463644192375, .negSucc 1), (865842807348050, .ofNat 2), (879050340840350, .negSucc 1), (991558449537250, .ofNat 4), (1026517025247875, .negSucc 1), (1207245205360250, .ofNat 4), (1447516251503875, .negSucc 1), (1917223359127825, .negSucc 1), (1946468611860775, .ofNat 2), (1986126949737875, .ofNat 2), (2195593709689625, .negSucc 7), (2383787456234450, .negSucc 11), (2390084973413375, .negSucc 1), (2673185811869125, .negSucc 7), (2794042997088875, .ofNat 2), (2902316024315050, .negSucc 11), (5278386510233425, .ofNat 4), (6164196607714250, .ofNat 4), (6426556910983325, .ofNat 4), (7382106562846750, .ofNat 4), (8107154055852425, .ofNat 2), (8472890329048775, .ofNat 2), (9092007937909750, .ofNat 4), (9132177628753375, .ofNat 2), (9716492050780375, .negSucc 3), (9914935711217950, .ofNat 4), (10549334226561550, .negSucc 3), (11303810322132125, .ofNat 2), (11636257618089125, .negSucc 3), (12272708349743450, .ofNat 4), (12633651128211050, .negSucc 3), (13649292488510125, .negSucc 1), (14331538800007625, .negSucc 1), (16346093103446375, .negSucc 1), (19446687142965250, .ofNat 4), (20132303291085875, .negSucc 1), (21954500503411175, .negSucc 5), (23359240073100575, .ofNat 6), (23676788619412250, .ofNat 4), (25638868480891750, .negSucc 3), (27175282774431925, .negSucc 5), (27974513212467325, .ofNat 6), (31215911738600750, .negSucc 3), (56771780207688875, .ofNat 8), (69120947421187375, .ofNat 8), (80885001854672750, .negSucc 3), (86060358164054750, .ofNat 4), (97158562933942825, .negSucc 7), (100119462853170250, .negSucc 3), (103063996045932250, .ofNat 4), (118292783765227925, .negSucc 7), (179102504106775375, .ofNat 2), (190562221648978375, .negSucc 1), (221693096317734125, .ofNat 2), (228213134101707125, .negSucc 1), (236132021543480125, .negSucc 1), (251240723027321125, .ofNat 4), (292284238329416375, .negSucc 1), (300880375553447375, .ofNat 4), (357952600282947250, .negSucc 3), (370572646114482875, .ofNat 2), (435815519135050250, .negSucc 3), (502835767553815750, .negSucc 3), (612214105730516750, .negSucc 3), (792609329197954625, .ofNat 8), (965020078084754125, .ofNat 8), (2091455047956538250, .ofNat 4), (2225274975384844250, .negSucc 3), (2588803253774830750, .ofNat 4), (2664940469187676750, .negSucc 3), (3296716123979968375, .negSucc 1), (3507653630331715375, .ofNat 2), (4080675526289697125, .negSucc 1), (4200689000130174125, .ofNat 2), (4631079034760906125, .negSucc 1), (4927394588352155125, .ofNat 2), (5732350061929982375, .negSucc 1), (5900939610344141375, .ofNat 2), (9255631521601921750, .ofNat 4), (11268944137634870750, .ofNat 4), (20494612654975683875, .negSucc 7), (24952662019048642375, .negSucc 7), (85243659777196325125, .ofNat 2), (90697901012862926125, .negSucc 1), (105514610036919311375, .ofNat 2), (108617815574794502375, .negSucc 1)]) .nil

def upr246 : Tr := .node (.node (.node (.node (.node (.leaf [(7, .ofNat 1), (62, .negSucc 0), (114, .ofNat 1), (2527, .negSucc 0), (65341, .ofNat 1)]) .nil) .nil) .nil) .nil) (.node (.node (.node (.node (.leaf [(6683, .ofNat 1)]) (.leaf [(3982, .negSucc 0)])) .nil) (.node (.node (.leaf [(24073, .ofNat 1)]) .nil) .nil)) (.node (.node .nil upr245) .nil))

def upr247 : Tr := .node (.node (.node (.node (.node (.leaf [(1, .ofNat 1)]) .nil) .nil) .nil) .nil) (.node (.node .nil (.node (.node (.leaf [(722, .negSucc 1)]) .nil) .nil)) .nil)

def upr248 : Tr := .node (.node (.node .nil (.node (.node (.leaf [(2, .negSucc 0)]) .nil) .nil)) (.node (.node (.node (.leaf [(362, .negSucc 0)]) (.leaf [(62486630, .ofNat 1), (170329145, .negSucc 0), (176448755, .negSucc 0), (184928786, .negSucc 0), (191572934, .negSucc 0), (623679845, .negSucc 0), (668765135, .negSucc 0), (1190409850, .negSucc 0), (1508629570, .ofNat 1), (1562831830, .ofNat 1), (1688720950, .negSucc 0), (1809660263, .negSucc 0), (1965560450, .negSucc 0), (2463871550, .negSucc 0), (2635907525, .ofNat 1), (3017550550, .negSucc 0), (3739310675, .ofNat 1), (4352312425, .ofNat 1), (5455715575, .ofNat 1), (6667169390, .negSucc 0), (6681719075, .ofNat 1), (13938868825, .ofNat 2), (14763017935, .ofNat 1), (20776804475, .ofNat 2), (61488821345, .ofNat 1), (63698000555, .ofNat 1), (64262753135, .negSucc 1), (123458552450, .negSucc 1), (136013431925, .negSucc 0), (184023125350, .negSucc 1), (209770031450, .negSucc 0), (236757511550, .negSucc 0), (429737955850, .ofNat 1), (464490783925, .ofNat 2), (524248775575, .ofNat 2), (569184384910, .ofNat 1), (589640451050, .negSucc 0), (709567322450, .ofNat 1), (829494193850, .negSucc 0), (951562616525, .negSucc 0), (1204690397050, .ofNat 2), (1305632427325, .ofNat 1), (1571184785425, .negSucc 0), (1836737143525, .ofNat 1), (1931965976675, .negSucc 0), (2216833822175, .negSucc 0), (2406848149790, .negSucc 1), (2515427765570, .negSucc 0), (2667528736325, .negSucc 0), (4114061229050, .negSucc 0), (4643346297950, .negSucc 0), (5031931645825, .negSucc 1), (5329449474535, .ofNat 1), (7500426415475, .negSucc 1), (17111698650550, .ofNat 2), (19634813853550, .ofNat 2), (23198853881735, .ofNat 2), (23552728322945, .negSucc 0), (37890189869075, .negSucc 0), (43477087818575, .negSucc 0), (49100848924925, .ofNat 1), (74588229754150, .negSucc 0), (75726981353450, .ofNat 1), (85469461669550, .ofNat 1), (89325226857650, .negSucc 0), (110015435937050, .negSucc 0), (165159651598475, .ofNat 1), (167681172996925, .negSucc 1), (189253807982575, .negSucc 1), (197791573756225, .ofNat 1), (243605608146325, .ofNat 1), (686951902277725, .negSucc 1), (697439717579675, .ofNat 1), (800277009805175, .ofNat 1), (836379732052025, .negSucc 1), (6084431134459850, .ofNat 2), (7407934769603650, .ofNat 2), (25307098323605350, .negSucc 0), (26926350941248150, .ofNat 1), (31325128669516850, .negSucc 0), (32246406895611650, .ofNat 1), (56037146287983275, .ofNat 1), (59622634227049475, .negSucc 0), (69362784911073025, .ofNat 1), (71402758125997225, .negSucc 0), (247989636722258725, .ofNat 2), (301933083270781025, .ofNat 2)])) .nil) .nil)) (.node .nil (.node (.node (.node (.leaf [(211, .ofNat 1)]) (.leaf [(149, .ofNat 1)])) .nil) .nil))

def upr249 : Tr := .node (.node .nil (.node .nil (.node .nil (.node (.leaf [(2, .ofNat 1)]) .nil)))) (.node .nil (.node (.node (.node (.leaf [(79, .ofNat 1)]) .nil) .nil) .nil))

def upr250 : Tr := .node (.node .nil (.node (.node (.node (.leaf [(35, .negSucc 0), (310, .ofNat 1), (12635, .ofNat 1)]) .nil) .nil) .nil)) (.node (.node (.node (.node (.leaf [(6859, .negSucc 0)]) .nil) .nil) (.node .nil (.node (.leaf [(609442385, .ofNat 1), (1756713126685, .ofNat 1)]) .nil))) (.node (.node (.node (.leaf [(1169, .ofNat 1), (1211, .ofNat 1), (6623, .negSucc 0), (27029, .negSucc 0), (28417, .ofNat 1), (29503, .ofNat 1), (32399, .ofNat 1), (39878, .ofNat 1), (45758, .ofNat 1), (390773, .negSucc 0), (441047, .negSucc 0)]) .nil) .nil) .nil))

def upr251 : Tr := .node (.node (.node (.node (.node (.leaf [(1, .ofNat 1)]) .nil) .nil) .nil) (.node (.node (.node .nil (.leaf [(291410, .ofNat 1), (645265, .negSucc 0)])) (.node (.leaf [(91586, .ofNat 1)]) .nil)) .nil)) (.node .nil (.node (.node (.node .nil (.leaf [(8874292700917, .ofNat 1), (9193129564423, .ofNat 1), (9327247536719, .negSucc 0), (9662358226661, .negSucc 0), (17035074430906, .negSucc 0), (17063116346794, .ofNat 1), (17647113033214, .negSucc 0), (17676162443086, .ofNat 1), (50277536833339, .negSucc 0), (52843764273473, .ofNat 1), (166700371216723, .negSucc 0), (166974781393627, .ofNat 1), (172930279232149, .ofNat 1), (181458150424007, .negSucc 0), (205186704373897, .negSucc 0), (215659686629579, .ofNat 1), (215723503577381, .ofNat 1), (223967713905179, .ofNat 1), (226734297049567, .negSucc 0), (235399302032353, .negSucc 0), (245952274779307, .ofNat 1), (258505981986449, .negSucc 0), (302728010545054, .ofNat 1), (318179621273978, .negSucc 0), (347365171435894, .ofNat 1), (365095117865858, .negSucc 0), (2966496134829289, .negSucc 0), (3117909753350123, .ofNat 1), (3348143860445971, .negSucc 0), (3519037249210697, .ofNat 1), (5244915805695265, .negSucc 0), (5253549609348985, .ofNat 1), (5919688364739835, .negSucc 0), (5929432930510915, .ofNat 1), (13603067968463890, .negSucc 0), (13625460361836610, .ofNat 1), (30121079073027185, .ofNat 1), (30170662229781065, .negSucc 0), (46454968564729490, .ofNat 1), (46531439397091010, .negSucc 0), (52431525516267110, .ofNat 1), (52517834527382390, .negSucc 0), (193221096780804190, .negSucc 0), (193539163471131310, .ofNat 1), (221711493718241590, .negSucc 0), (222076459253523910, .ofNat 1), (427846714300352135, .ofNat 1), (428551004828933615, .negSucc 0), (490932593233249235, .ofNat 1), (491740731204231515, .negSucc 0), (1893414605855990665, .ofNat 1), (1896531408974983585, .negSucc 0), (2137007499671080435, .ofNat 1), (2140525287914440315, .negSucc 0)])) (.node (.leaf [(181, .negSucc 0)]) .nil)) .nil))

def upr252 : Tr := .node (.node (.node .nil (.node (.node (.leaf [(266, .ofNat 1), (589, .negSucc 0), (1083, .ofNat 1), (6878, .negSucc 0)]) .nil) .nil)) .nil) (.node (.node (.node (.node (.leaf [(9, .negSucc 0)]) .nil) .nil) .nil) (.node (.node (.node (.leaf [(10891469, .ofNat 1), (11447383, .negSucc 0)]) .nil) .nil) .nil))

def upr253 : Tr := .node (.node (.node (.node upr233 upr236) (.node upr238 upr239)) (.node (.node upr240 upr241) (.node upr242 upr243))) (.node (.node (.node upr244 upr246) (.node upr247 upr248)) (.node (.node upr249 upr250) (.node upr251 upr252)))

def upr254 : Tr := .node (.node (.node (.node (.node (.leaf [(1, .ofNat 1)]) (.leaf [(107, .negSucc 0), (4027321, .ofNat 1)])) (.node (.leaf [(202, .ofNat 1)]) .nil)) .nil) (.node (.node (.node (.leaf [(63, .negSucc 0)]) .nil) (.node (.leaf [(7070, .negSucc 0), (15655, .ofNat 1), (71155, .ofNat 1), (262150, .ofNat 1), (580475, .negSucc 0), (6778450, .negSucc 0), (15009425, .ofNat 1), (70005110, .negSucc 0), (155011315, .ofNat 1), (285696530, .negSucc 0), (632613745, .ofNat 1), (2678168465, .negSucc 0), (9866936450, .negSucc 0), (21848216425, .ofNat 1), (255130785350, .ofNat 1), (564932453275, .negSucc 0)]) .nil)) .nil)) .nil

def upr255 : Tr := .node (.node (.node (.node (.node (.leaf [(181, .ofNat 1), (254, .ofNat 1), (2489, .negSucc 0)]) .nil) .nil) .nil) (.node (.node (.node .nil (.leaf [(14, .ofNat 1), (31, .negSucc 0)])) .nil) .nil)) (.node (.node .nil (.node (.node (.leaf [(1, .ofNat 1)]) .nil) (.node (.leaf [(42316895, .negSucc 0)]) .nil))) (.node (.node (.node (.leaf [(27029, .negSucc 0)]) .nil) (.node (.leaf [(53, .negSucc 1), (79, .negSucc 1), (107, .ofNat 2), (1634, .negSucc 1), (2242, .ofNat 2), (2698, .negSucc 1), (3154, .ofNat 2), (3507, .ofNat 2), (3633, .ofNat 2), (19133, .ofNat 4), (28519, .ofNat 4), (137274, .ofNat 2), (324982, .ofNat 2), (986827, .negSucc 1), (1323141, .negSucc 1), (2612009, .ofNat 2), (3042907, .ofNat 2), (3180181, .ofNat 2), (4027321, .negSucc 1), (4827451, .ofNat 2), (7445254, .ofNat 2), (68570221, .ofNat 2), (96225614, .ofNat 2), (102382526, .negSucc 1), (119108074, .ofNat 2), (122611066, .negSucc 1), (942935249, .negSucc 3), (1148045341, .negSucc 3)]) .nil)) .nil))

def upr256 : Tr := .node (.node .nil (.node .nil (.node .nil (.node (.leaf [(4445, .ofNat 1), (12670, .ofNat 1), (28055, .negSucc 0), (39370, .negSucc 0), (1604645, .negSucc 0), (4573870, .negSucc 0), (10127855, .ofNat 1)]) .nil)))) (.node (.node .nil (.node (.node .nil (.leaf [(156047641, .negSucc 0), (163742963, .ofNat 1)])) .nil)) (.node (.node (.node (.leaf [(1691, .ofNat 1)]) .nil) .nil) .nil))

def upr257 : Tr := .node .nil (.leaf [(8757061913663, .negSucc 0), (8785103829551, .ofNat 1), (9071686892597, .negSucc 0), (9100736302469, .ofNat 1), (19147565427802, .ofNat 1), (19835501910238, .ofNat 1), (19889118314618, .negSucc 0), (20603697415742, .negSucc 0), (187372604543491, .ofNat 1), (194629229221619, .negSucc 0), (342776423477666, .negSucc 0), (343874064185282, .ofNat 1), (3161299350832343, .ofNat 1), (3171422482467911, .negSucc 0), (3274878968227517, .ofNat 1), (3285365805191309, .negSucc 0), (5895329014275505, .ofNat 1), (6123645155340545, .negSucc 0), (6653778986161195, .ofNat 1), (6911468614329755, .negSucc 0), (6992802344290595, .negSucc 0), (7015194737663315, .ofNat 1), (10784819902892630, .negSucc 0), (10819355117507510, .ofNat 1), (12172316059991570, .negSucc 0), (12211294323075890, .ofNat 1), (15289961602542130, .ofNat 1), (15882116005065170, .negSucc 0), (23880672642119395, .ofNat 1), (23957143474480915, .negSucc 0), (26952985561409905, .ofNat 1), (27039294572525185, .negSucc 0), (33856343548486145, .negSucc 0), (35167542582644305, .ofNat 1), (52215771269297330, .negSucc 0), (54237999947301970, .ofNat 1), (58933471020284870, .negSucc 0), (61215864869777830, .ofNat 1), (61936249335145270, .ofNat 1), (62134581962160790, .negSucc 0), (99327368036946245, .negSucc 0), (99645434727273365, .ofNat 1), (113973160806323945, .negSucc 0), (114338126341606265, .ofNat 1), (121735670901366565, .negSucc 0), (126450287938492085, .ofNat 1), (217182120785447230, .ofNat 1), (225593217707431070, .negSucc 0), (249205564042843030, .ofNat 1), (258856874864753270, .negSucc 0), (480903267453490295, .negSucc 0), (499527839209311655, .ofNat 1), (551812320380580995, .negSucc 0), (573183080057667955, .ofNat 1), (879756688327238170, .ofNat 1), (882573850441564090, .negSucc 0), (1009476567141726370, .ofNat 1), (1012709119025655490, .negSucc 0), (2128213774153457305, .negSucc 0), (2210635901077936745, .ofNat 1), (2402014214004191395, .negSucc 0), (2495040169773041555, .ofNat 1), (2524401646288904795, .ofNat 1), (2532485300296456715, .negSucc 0), (3893319984944239430, .ofNat 1), (3905787197420211110, .negSucc 0), (4394206097656956770, .ofNat 1), (4408277250630396290, .negSucc 0), (8620922823805101595, .negSucc 0), (8648528794287610315, .ofNat 1), (9730027787668975705, .negSucc 0), (9761185340681591785, .ofNat 1), (35857179861337594445, .ofNat 1), (35972001936545684765, .negSucc 0), (41144311051082944145, .ofNat 1), (41276063609319861665, .negSucc 0), (350902162898033143265, .negSucc 0), (364492011323838222385, .ofNat 1), (384446699557451494355, .negSucc 0), (398259155828976697745, .negSucc 0), (399335671262949280195, .ofNat 1), (413683060649642068705, .ofNat 1), (641934762458013238390, .ofNat 1), (643990369782924931030, .negSucc 0), (703300597294674297730, .ofNat 1), (705552710661892450210, .negSucc 0), (728568882227417086870, .ofNat 1), (730901909847349663990, .negSucc 0), (2178092806816938620285, .ofNat 1), (2262446664477769959565, .negSucc 0), (6882298702097884199215, .ofNat 1), (6904337240048518977055, .negSucc 0), (7515569739517860240995, .negSucc 0), (7781716410111607450915, .ofNat 1), (8888973346739398153055, .ofNat 1), (9233228279355223348495, .negSucc 0), (9345442139712659636515, .negSucc 0), (9702592794733525609885, .negSucc 0), (9707375338134499311635, .ofNat 1), (10078357835133269985965, .ofNat 1), (10654994541455834872205, .negSucc 0), (11067644493796658450845, .ofNat 1), (13114598361806715733010, .negSucc 0), (13622504618155595719090, .ofNat 1), (15048342239820244207610, .negSucc 0), (15631139132292586110490, .ofNat 1), (128512737490302816769535, .ofNat 1), (133489818876335739152815, .negSucc 0), (145046247647318485227365, .ofNat 1), (150663643972207006999285, .negSucc 0), (216538673421550393434325, .ofNat 1), (217232074853041048255525, .negSucc 0), (244396957559899318461175, .ofNat 1), (245179566955007626447975, .negSucc 0), (561608689534319107627450, .ofNat 1), (563407076229441123938650, .negSucc 0), (1243562098254563738317925, .negSucc 0), (1247544240222333917292725, .ofNat 1), (1917913964590874913275450, .negSucc 0), (1924055520126934998834650, .ofNat 1), (2164658766959108249227550, .negSucc 0), (2171590450172924691396350, .ofNat 1), (7977218610171009150488950, .ofNat 1), (8002763307181496938024150, .negSucc 0), (9153457273790185984955950, .ofNat 1), (9182768529264530239483150, .negSucc 0), (17663841208235805976082675, .negSucc 0), (17720404465901886077053475, .ofNat 1), (20268369677678268966688175, .negSucc 0), (20333273171942888387426975, .ofNat 1), (78170461105179692029791325, .negSucc 0), (78420779021947818420244525, .ofNat 1), (88227301679123653964484175, .negSucc 0), (88509823670757753147718975, .ofNat 1)])

def upr258 : Tr := .node (.node (.node .nil (.node upr257 .nil)) (.node (.node (.node (.leaf [(7, .ofNat 1), (62, .negSucc 0), (114, .ofNat 1), (2527, .negSucc 0), (65341, .ofNat 1)]) (.leaf [(79097, .ofNat 1), (291410, .ofNat 1), (645265, .negSucc 0)])) .nil) .nil)) (.node .nil (.node (.node (.node .nil (.leaf [(103, .ofNat 1)])) .nil) .nil))

def upr259 : Tr := .node (.leaf [(161770735, .ofNat 2), (173465005, .ofNat 2), (376809790, .negSucc 0), (386948170, .negSucc 0), (834364535, .ofNat 1), (856813805, .ofNat 1), (1432826510, .negSucc 1), (1536404330, .negSucc 1), (3615478475, .negSucc 1), (3792348035, .ofNat 1), (3894384305, .ofNat 1), (5851033090, .ofNat 4), (7299173525, .ofNat 2), (12955858985, .negSucc 1), (13971808550, .ofNat 1), (14347731650, .ofNat 1), (17316095398, .negSucc 1), (17938230562, .negSucc 1), (30937576075, .negSucc 0), (31769977225, .negSucc 0), (32022809350, .ofNat 4), (47732112050, .ofNat 2), (58399235335, .negSucc 3), (62620866805, .negSucc 3), (64649822650, .negSucc 3), (70907649275, .negSucc 1), (102665945375, .negSucc 1), (105692533825, .negSucc 1), (111465883550, .negSucc 3), (139346972275, .negSucc 1), (143153178725, .ofNat 2), (145642387625, .negSucc 1), (152941561150, .ofNat 2), (158126020850, .negSucc 1), (169450362109, .negSucc 1), (169518188875, .negSucc 1), (184048319350, .negSucc 3), (212494631125, .negSucc 1), (230708456650, .negSucc 3), (246817313575, .ofNat 6), (260246233625, .negSucc 1), (282553053650, .negSucc 1), (338656313975, .negSucc 3), (350136189025, .ofNat 2), (361271049650, .negSucc 0), (370991346950, .negSucc 0), (407535564275, .ofNat 6), (476414814575, .negSucc 1), (510854439725, .ofNat 4), (624290807770, .ofNat 2), (625653190225, .ofNat 2), (799957324225, .ofNat 1), (821480839675, .ofNat 1), (909326944750, .ofNat 4), (1234216040150, .ofNat 2), (1289975433250, .ofNat 4), (1305187729475, .ofNat 10), (1382358217205, .negSucc 1), (1501446815750, .ofNat 4), (1882095304250, .ofNat 4), (1945468502425, .ofNat 8), (2013509663375, .negSucc 1), (2186096205950, .negSucc 1), (2305038069250, .ofNat 4), (2635001642525, .negSucc 1), (2654648016125, .ofNat 2), (2856374173625, .negSucc 1), (2999527352350, .ofNat 2), (3324632234875, .negSucc 1), (3609600712150, .negSucc 1), (3731062347670, .negSucc 0), (3765896022875, .ofNat 2), (3831449675410, .negSucc 0), (4167496745125, .negSucc 1), (4219674071950, .ofNat 2), (4383256026625, .ofNat 2), (4808586371750, .ofNat 4), (5104012867625, .negSucc 1), (5494504033375, .ofNat 2), (5563295576650, .ofNat 2), (5965461521950, .ofNat 2), (6017343150805, .negSucc 5), (6109131476035, .ofNat 2), (6729224040875, .ofNat 2), (7167515535250, .ofNat 4), (8261638055555, .ofNat 1), (8483924281265, .ofNat 1), (10647584108875, .negSucc 7), (11560234175350, .negSucc 11), (12318725919725, .negSucc 1), (13209236227175, .negSucc 1), (15226767959410, .negSucc 0), (15636456783430, .negSucc 0), (15870927256625, .negSucc 7), (17231292450050, .negSucc 11), (22169158976650, .negSucc 1), (23512596714250, .negSucc 3), (25597661388275, .ofNat 4), (33355079059750, .negSucc 3), (33716414767265, .ofNat 1), (34623582877595, .ofNat 1), (37062406280375, .ofNat 4), (38155004710825, .ofNat 4), (38823124807250, .negSucc 3), (40239183961550, .ofNat 4), (48665607152750, .negSucc 3), (49088852019725, .ofNat 2), (50304256991275, .ofNat 2), (50853069082375, .negSucc 1), (52063607010125, .ofNat 2), (52576901932625, .ofNat 2), (53296467907130, .ofNat 4), (54109450216310, .negSucc 1), (55211903575150, .negSucc 3), (59601698647750, .negSucc 3), (61196066183875, .ofNat 4), (66441443285350, .ofNat 4), (67317958057525, .negSucc 1), (71539063285375, .negSucc 1), (73857675060875, .ofNat 2), (76710561836125, .ofNat 2), (77670982995550, .negSucc 3), (85965490644625, .ofNat 2), (89101050200575, .negSucc 5), (93948890338625, .ofNat 2), (94307173535750, .ofNat 4), (107759558695375, .ofNat 2), (122254929344975, .ofNat 6), (124336304755250, .negSucc 3), (131975189862875, .ofNat 2), (140571069987250, .ofNat 4), (142738344679105, .negSucc 0), (146578838257915, .negSucc 0), (147120338703275, .negSucc 5), (171985748061575, .ofNat 6), (178182307849175, .ofNat 2), (185331473125750, .negSucc 3), (207576693583525, .negSucc 1), (225368981604970, .negSucc 5), (235536003331510, .negSucc 3), (274730045045575, .negSucc 1), (275316103386625, .ofNat 8), (328267027054750, .negSucc 3), (410376833349875, .ofNat 8), (450412897586750, .ofNat 4), (471172770340475, .negSucc 7), (499031316411005, .ofNat 4), (521544007376915, .ofNat 2), (525878111975650, .negSucc 0), (540027298844950, .negSucc 0), (542022300485750, .negSucc 3), (573231110681950, .ofNat 2), (596244771366650, .ofNat 4), (633631703384750, .ofNat 4), (702314129375425, .negSucc 7), (726876988478375, .ofNat 2), (958327933821125, .negSucc 3), (997342844656375, .negSucc 1), (1164444390803225, .ofNat 1), (1195774733156675, .ofNat 1), (1200192236789875, .ofNat 2), (1269297459367175, .negSucc 1), (1314915071987125, .ofNat 2), (1320256279454725, .negSucc 1), (1359488464257875, .negSucc 1), (1403041628923375, .negSucc 1), (1578186155235550, .negSucc 3), (1582355425611625, .negSucc 3), (1735899680201750, .negSucc 3), (1838536428882650, .ofNat 2), (1849795779236125, .ofNat 2), (1921477921914950, .negSucc 1), (1983515956048375, .negSucc 1), (2172260877440605, .ofNat 6), (2205396462848635, .negSucc 3), (2429249878755875, .negSucc 1), (2433323256117950, .ofNat 4), (2438514058567250, .negSucc 3), (2587473108225250, .negSucc 3), (3494555058021575, .ofNat 2), (3634766238241750, .negSucc 3), (3843777863303875, .ofNat 8), (4254701112811675, .ofNat 2), (5367340219802575, .ofNat 2), (5388072924261175, .negSucc 1), (5609475868816225, .ofNat 2), (5729404739641625, .ofNat 8), (6432802216444625, .negSucc 1), (6564181814352050, .ofNat 2), (6984185263568450, .negSucc 3), (7703782744385875, .negSucc 1), (8003066390570650, .ofNat 2), (8364106979618950, .negSucc 3), (8488047413844250, .ofNat 4), (9488193277567375, .negSucc 1), (10301466987073150, .negSucc 1), (11646390637600250, .negSucc 3), (13379528667215375, .negSucc 1), (13597705466798950, .ofNat 1), (13963563012990850, .ofNat 1), (14015148055417250, .ofNat 4), (14534974017493825, .negSucc 3), (15464981655044425, .ofNat 6), (16383905473234250, .negSucc 3), (17721075579120725, .negSucc 1), (17991392196923075, .negSucc 1), (18357957938737375, .ofNat 2), (18520522597727675, .ofNat 6), (18794962130655125, .negSucc 1), (22091779892378875, .negSucc 1), (22810391185661975, .ofNat 2), (24301782858766525, .ofNat 2), (25788436411829125, .ofNat 2), (25825601846020375, .ofNat 2), (30109204962197675, .negSucc 0), (30919318100194025, .negSucc 0), (31033542122709625, .negSucc 1), (36278647833590125, .ofNat 2), (44885406016645250, .ofNat 4), (47539299089679950, .negSucc 1), (49683929123800850, .negSucc 1), (56976248202795250, .ofNat 4), (64323813133552175, .negSucc 9), (66904661798395750, .ofNat 4), (68233504307417750, .ofNat 4), (74935186383652525, .ofNat 2), (78315721107727075, .negSucc 7), (84038283315596750, .ofNat 4), (99177546261452575, .ofNat 2), (99389113322571625, .negSucc 7), (126161692449046625, .negSucc 1), (128738341297802450, .ofNat 2), (136975551801822050, .negSucc 1), (148146036839304875, .negSucc 7), (151088473823567875, .negSucc 1), (159352330887032950, .ofNat 2), (164038914437016550, .negSucc 1), (166333885882353875, .ofNat 2), (186084770198821375, .negSucc 1), (199197810961977625, .ofNat 2), (206936430956183950, .negSucc 1), (210093031460843650, .ofNat 2), (236982469439402750, .negSucc 3), (245337569034242125, .ofNat 2), (288531604081099750, .negSucc 3), (345956384109426125, .ofNat 2), (458216382831550175, .ofNat 2), (465205998234725225, .negSucc 1), (474684340987352125, .negSucc 1), (524746896615820375, .ofNat 8), (569725202040033550, .ofNat 12), (571230308645796625, .ofNat 2), (638891409036720875, .ofNat 8), (667776276304241125, .negSucc 1), (693653529811296950, .ofNat 12), (1261534375945788575, .negSucc 3), (1473242989243705750, .negSucc 3), (1535947101725014675, .negSucc 3), (1764323468520373250, .negSucc 3), (1937609819348729575, .negSucc 1), (2025020788642657225, .negSucc 1), (2172989897160430250, .negSucc 3), (2182590453272056625, .negSucc 1), (2322241600136509625, .ofNat 4), (2369669634981090050, .negSucc 3), (2521290880148210450, .ofNat 4), (2701610666989577875, .negSucc 1), (2781065570723300875, .ofNat 4), (2933177295588684550, .negSucc 3), (3019442619642440950, .ofNat 4), (3262180904753919875, .ofNat 2), (3425237773201822375, .ofNat 2), (3906716251723683625, .ofNat 2), (4647758227168694750, .negSucc 3), (4811620486569524125, .ofNat 2), (5247125620315270825, .ofNat 6), (5582858377471037425, .negSucc 5), (5658752480039527750, .negSucc 3), (6127689566933128250, .ofNat 4), (6494892583089230075, .ofNat 6), (6685908657779690675, .negSucc 5), (7460602905525579250, .ofNat 4), (13568455469637641125, .negSucc 7), (16519906433663782625, .negSucc 7), (19331515443266787250, .ofNat 4), (20568425601209085250, .negSucc 3), (23220896541212335175, .ofNat 8), (23928551621907689750, .ofNat 4), (24632295054977807750, .negSucc 3), (28271975319889474075, .ofNat 8), (42805498481519314625, .negSucc 1), (45544370974105831625, .ofNat 2), (52984650019938455875, .negSucc 1), (54542939050308002875, .ofNat 2), (56435553148891749875, .ofNat 2), (60046532803529748875, .negSucc 3), (69855932960730513625, .ofNat 2), (71910409757273922625, .negSucc 3), (85550671467624392750, .ofNat 4), (88566862421361407125, .negSucc 1), (104159909073277009750, .ofNat 4), (120177748445361964250, .ofNat 4), (146319171269593503250, .ofNat 4), (189433629678311155375, .negSucc 7), (230639798662256235875, .negSucc 7), (499857756461612641750, .negSucc 3), (531840719116977775750, .ofNat 4), (618723977652184549250, .negSucc 3), (636920772135854743250, .ofNat 4), (787915153631212441625, .ofNat 2), (838329217649279974625, .negSucc 1), (975281450783237612875, .ofNat 2), (1003964671031111615875, .negSucc 1), (1106827889307856563875, .ofNat 2), (1177647306616165074875, .negSucc 1), (1370031664801265787625, .ofNat 2), (1410324566872249788625, .negSucc 1), (2212095933662859298250, .negSucc 3), (2693277648894734109250, .negSucc 3), (4898212424539188446125, .ofNat 8), (5963686222552625527625, .ofNat 8), (20373234686749921704875, .negSucc 1), (21676798342074239343875, .ofNat 2), (25217991798823715418625, .negSucc 1), (25959657922375886067625, .ofNat 2)]) .nil

def upr260 : Tr := .node (.node (.node (.node (.node (.leaf [(1, .ofNat 1)]) .nil) .nil) (.node (.node (.leaf [(3439, .ofNat 1)]) .nil) .nil)) (.node (.node .nil upr259) (.node (.node (.leaf [(49, .ofNat 1), (1267, .negSucc 0)]) .nil) (.node (.leaf [(9170, .negSucc 0), (20305, .ofNat 1), (240730, .ofNat 1), (533045, .negSucc 0)]) .nil)))) (.node (.node .nil (.node (.node (.leaf [(133, .negSucc 0)]) .nil) (.node (.leaf [(2716810, .ofNat 1), (27116515, .negSucc 0), (29076745, .negSucc 0), (24747147170, .negSucc 0), (109366424590, .negSucc 0), (231715194545, .negSucc 0), (1024031666215, .negSucc 0)]) .nil))) (.node (.node (.node (.leaf [(158, .negSucc 0)]) (.leaf [(15240383007290, .ofNat 1), (15314353812170, .negSucc 0), (33746562373285, .negSucc 0), (33910354869805, .ofNat 1)])) .nil) .nil))

def upr261 : Tr := .node .nil (.node (.node (.node (.node (.leaf [(722, .negSucc 0)]) .nil) .nil) .nil) (.node (.node (.node (.leaf [(59, .ofNat 1), (61, .ofNat 1), (83, .ofNat 1), (89, .ofNat 1), (101, .ofNat 1), (2014, .ofNat 2), (3002, .ofNat 2), (8183, .ofNat 1), (8477, .ofNat 1), (15523, .ofNat 1), (21299, .negSucc 0), (25631, .ofNat 1), (29963, .negSucc 0), (245051, .ofNat 1), (320306, .ofNat 2), (1000073, .ofNat 2), (1198763, .negSucc 1), (2532253, .ofNat 1), (3087329, .negSucc 1), (3134423, .ofNat 1), (4081379, .ofNat 1), (4892249, .negSucc 1), (5143477, .ofNat 1), (5340043, .ofNat 1), (5864219, .ofNat 1), (7217918, .ofNat 2), (70729913, .negSucc 1), (99256342, .negSucc 1), (120846878, .negSucc 1), (914143333, .negSucc 0), (972633997, .ofNat 1), (1131526703, .negSucc 0), (1164805127, .ofNat 1)]) .nil) .nil) .nil))

def upr262 : Tr := .node (.leaf [(572285, .ofNat 2), (613655, .ofNat 2), (920990, .negSucc 0), (952210, .negSucc 0), (1295630, .negSucc 0), (1364510, .negSucc 0), (1389290, .negSucc 0), (1576610, .negSucc 0), (2039335, .ofNat 1), (2108465, .ofNat 1), (2868895, .ofNat 1), (3021415, .ofNat 1), (3076285, .ofNat 1), (3491065, .ofNat 1), (5068810, .negSucc 1), (5435230, .negSucc 1), (7859635, .negSucc 2), (11715305, .negSucc 2), (12790225, .negSucc 1), (13732915, .ofNat 1), (15867565, .ofNat 1), (20698790, .ofNat 4), (25821775, .ofNat 2), (28956550, .negSucc 0), (34671371, .ofNat 1), (35917049, .ofNat 1), (43161650, .negSucc 0), (45833035, .negSucc 1), (50594950, .ofNat 1), (58459450, .ofNat 1), (61257938, .negSucc 1), (63458822, .negSucc 1), (64118075, .ofNat 1), (69613910, .ofNat 2), (95572225, .ofNat 1), (103764130, .ofNat 2), (112031675, .negSucc 0), (113284850, .ofNat 4), (129445925, .negSucc 0), (168858550, .ofNat 2), (206594885, .negSucc 3), (221529455, .negSucc 3), (223183975, .negSucc 0), (228707150, .negSucc 3), (242314030, .negSucc 1), (250845025, .negSucc 1), (306229175, .ofNat 1), (332477390, .ofNat 2), (363194125, .negSucc 1), (368513075, .negSucc 0), (373901075, .negSucc 1), (394325050, .negSucc 3), (400099910, .negSucc 1), (430796975, .ofNat 1), (467722430, .ofNat 2), (492958025, .negSucc 1), (506422975, .ofNat 2), (515228875, .negSucc 1), (536552495, .ofNat 1), (541050650, .ofNat 2), (559391350, .negSucc 1), (599452679, .negSucc 1), (599692625, .negSucc 1), (651094850, .negSucc 3), (736199935, .negSucc 0), (748733650, .ofNat 1), (751727375, .negSucc 1), (816161150, .negSucc 3), (873148325, .ofNat 6), (885935515, .ofNat 1), (920654875, .negSucc 1), (999568150, .negSucc 1), (1035671095, .negSucc 0), (1116036950, .ofNat 1), (1198040725, .negSucc 3), (1238652275, .ofNat 2), (1249994165, .negSucc 0), (1308240850, .negSucc 0), (1357136522, .ofNat 1), (1441710025, .ofNat 6), (1511594350, .negSucc 0), (1657910225, .negSucc 0), (1685379325, .negSucc 1), (1807213975, .ofNat 4), (1976772350, .ofNat 1), (2208509870, .ofNat 2), (2213329475, .ofNat 2), (2471224675, .negSucc 0), (2712315550, .negSucc 0), (2837328235, .ofNat 4), (2896819025, .ofNat 1), (3216862250, .ofNat 4), (3263972950, .ofNat 1), (3347101775, .ofNat 1), (3815630350, .negSucc 0), (3825246110, .negSucc 0), (4229225105, .ofNat 4), (4366199650, .ofNat 2), (4563455750, .ofNat 4), (4617271225, .ofNat 10), (4890271855, .negSucc 1), (5311563250, .ofNat 4), (5770899925, .ofNat 1), (6658156750, .ofNat 4), (6882347675, .ofNat 8), (7123052125, .negSucc 1), (7733599450, .negSucc 1), (7918211525, .negSucc 0), (8154371750, .ofNat 4), (8470187815, .ofNat 1), (9321660775, .negSucc 1), (9391162375, .ofNat 2), (9528695225, .ofNat 1), (10104794875, .negSucc 1), (10453314550, .ofNat 2), (10611217850, .ofNat 2), (11071376890, .ofNat 1), (11139178925, .negSucc 0), (11761318625, .negSucc 1), (12769431650, .negSucc 1), (13081012973, .negSucc 0), (13322346625, .ofNat 2), (13510986230, .negSucc 0), (14743061375, .negSucc 1), (14927645450, .ofNat 2), (15506337875, .ofNat 2), (15581355650, .ofNat 2), (15611139530, .negSucc 1), (17010999250, .ofNat 4), (18056108875, .negSucc 1), (18712690430, .ofNat 1), (19437522125, .ofNat 2), (19680881150, .ofNat 2), (21103595450, .ofNat 2), (21287133455, .negSucc 5), (21611846585, .ofNat 2), (23146625075, .negSucc 1), (23805504625, .ofNat 2), (25356017750, .ofNat 4), (28167924995, .negSucc 0), (29917183795, .ofNat 1), (34501573225, .negSucc 1), (34567523245, .ofNat 2), (37667212625, .negSucc 7), (39528469330, .negSucc 0), (40895830850, .negSucc 11), (41435243095, .negSucc 0), (43579093975, .negSucc 1), (44388478925, .ofNat 1), (46729389925, .negSucc 1), (48193205690, .ofNat 2), (48928343030, .negSucc 0), (51113685050, .negSucc 0), (55139430290, .negSucc 0), (56145467875, .negSucc 7), (60957936550, .negSucc 11), (63710326190, .negSucc 0), (70132730650, .ofNat 1), (76368006890, .ofNat 1), (78426281150, .negSucc 1), (80569414975, .ofNat 1), (83178866750, .negSucc 3), (84397014850, .negSucc 0), (87527324945, .ofNat 1), (90555054025, .ofNat 4), (98661299050, .ofNat 1), (106713526885, .negSucc 0), (108341330995, .ofNat 1), (110548732175, .negSucc 0), (117997927250, .negSucc 3), (122094452785, .ofNat 1), (131113079125, .ofNat 4), (133033220075, .ofNat 1), (134978288075, .ofNat 4), (137341849750, .negSucc 3), (141072865135, .ofNat 1), (142351343050, .ofNat 4), (146341509965, .negSucc 0), (155517707975, .negSucc 0), (169100586685, .negSucc 0), (172160910250, .negSucc 3), (173658193975, .ofNat 2), (177957847025, .ofNat 2), (179899341125, .negSucc 1), (184181776375, .ofNat 2), (185997623875, .ofNat 2), (188543182030, .ofNat 4), (191419212610, .negSucc 1), (195319284650, .negSucc 3), (210848755250, .negSucc 3), (216489037625, .ofNat 4), (235045240850, .ofNat 4), (238146025775, .negSucc 1), (249487335670, .ofNat 1), (253078734125, .negSucc 1), (261281124625, .ofNat 2), (270292847650, .negSucc 1), (271373582375, .ofNat 2), (274771197050, .negSucc 3), (304114095875, .ofNat 2), (315206545325, .negSucc 5), (332356409875, .ofNat 2), (333623883250, .ofNat 4), (381213444125, .ofNat 2), (387347874655, .ofNat 3), (393155099050, .negSucc 0), (402889338950, .negSucc 1), (432492701725, .ofNat 6), (439855837750, .negSucc 3), (451247893565, .ofNat 2), (466879386625, .ofNat 2), (471604941395, .ofNat 3), (497288429750, .ofNat 4), (516886513745, .negSucc 0), (520457319025, .negSucc 5), (539152931450, .negSucc 0), (597231567695, .negSucc 0), (598505591225, .ofNat 2), (608421936325, .ofNat 6), (630343071925, .ofNat 2), (655634173250, .negSucc 3), (715886846045, .ofNat 1), (734329531775, .negSucc 1), (797272063070, .negSucc 5), (833239223810, .negSucc 3), (892112107675, .ofNat 2), (971893240325, .negSucc 1), (973966497875, .ofNat 8), (1016928630725, .ofNat 1), (1104093941930, .ofNat 2), (1147759240775, .negSucc 0), (1161287272250, .negSucc 3), (1193838633925, .ofNat 1), (1427071117150, .ofNat 1), (1451761383625, .ofNat 8), (1593394164250, .ofNat 4), (1662492239450, .ofNat 1), (1666834912225, .negSucc 7), (1737491889350, .ofNat 1), (1765388139655, .ofNat 4), (1845029709865, .ofNat 2), (1904318734850, .negSucc 0), (1917474333250, .negSucc 3), (2027879555450, .ofNat 2), (2083294872925, .negSucc 0), (2109293371150, .ofNat 4), (2200326828350, .negSucc 0), (2241554502250, .ofNat 4), (2444779442845, .negSucc 0), (2484527510675, .negSucc 7), (2571421817125, .ofNat 2), (2637477853850, .ofNat 1), (2858474360525, .ofNat 1), (3159943187975, .negSucc 0), (3390209617375, .negSucc 3), (3430795461230, .negSucc 1), (3439858976225, .negSucc 0), (3528229935125, .negSucc 1), (3681232815925, .negSucc 0), (3847303469275, .negSucc 0), (4021243591925, .ofNat 1), (4177072338070, .negSucc 1), (4216705770025, .ofNat 1), (4245836023625, .ofNat 2), (4490304729925, .negSucc 1), (4651682963375, .ofNat 2), (4670578178975, .negSucc 1), (4809367131625, .negSucc 1), (4872152262775, .ofNat 1), (4963442112125, .negSucc 1), (5583038637050, .negSucc 3), (5597787972875, .negSucc 3), (5840129533525, .negSucc 0), (6140970729250, .negSucc 3), (6504061567150, .ofNat 2), (6543892982375, .ofNat 2), (6797477878450, .negSucc 1), (7016945487125, .negSucc 1), (7684655177255, .ofNat 6), (7801876617185, .negSucc 3), (8593787169625, .negSucc 1), (8608197271450, .ofNat 4), (8626560409750, .negSucc 3), (9007082157850, .negSucc 0), (9153522407750, .negSucc 3), (10165867561150, .ofNat 1), (10168620923195, .ofNat 2), (12362442696325, .ofNat 2), (12858457969250, .negSucc 3), (13143216052225, .ofNat 1), (13597863757625, .ofNat 8), (13940954370350, .ofNat 1), (13984173270025, .negSucc 0), (14269777428130, .ofNat 2), (15051558159425, .ofNat 2), (15182816693170, .negSucc 1), (16024240891925, .negSucc 0), (16268674057475, .ofNat 1), (16747138977275, .negSucc 0), (17663131833830, .ofNat 2), (18182608032470, .negSucc 1), (18987663607325, .ofNat 2), (19061008243925, .negSucc 1), (19844249935475, .ofNat 2), (20268513902875, .ofNat 8), (22756873895875, .negSucc 1), (23221646298550, .ofNat 2), (24707463086950, .negSucc 3), (26294868880175, .negSucc 0), (27253132699625, .negSucc 1), (28311887495150, .ofNat 2), (29589115502450, .negSucc 3), (30027570896750, .ofNat 4), (30869256105775, .negSucc 0), (31597364305145, .negSucc 0), (33565716876125, .negSucc 1), (33619094106305, .ofNat 1), (36442778322650, .negSucc 1), (36899981743450, .negSucc 0), (37463340243350, .ofNat 1), (39111220489195, .negSucc 0), (40261489214755, .ofNat 1), (41200620532750, .negSucc 3), (42987299334350, .negSucc 0), (44926575996050, .negSucc 0), (47331821564125, .negSucc 1), (49240241572550, .ofNat 1), (49580407759750, .ofNat 4), (51419359661075, .negSucc 3), (54709382549675, .ofNat 6), (56894165133050, .ofNat 1), (57960194986750, .negSucc 3), (62690608024975, .negSucc 1), (63646888192825, .negSucc 1), (64943662146125, .ofNat 2), (65518755755425, .ofNat 6), (66489621271375, .negSucc 1), (68197641649550, .negSucc 0), (78152542582625, .negSucc 1), (80694723428725, .ofNat 2), (81707102431925, .ofNat 1), (82954539110275, .negSucc 0), (85970715304775, .ofNat 2), (91229945465375, .ofNat 2), (91361423019125, .ofNat 2), (95186162811775, .ofNat 1), (99480275419825, .ofNat 1), (109031963482075, .negSucc 0), (109785188610875, .negSucc 1), (116411342176850, .negSucc 0), (123859820391650, .ofNat 1), (125979937080325, .negSucc 0), (128340431756375, .ofNat 2), (139832582750455, .negSucc 3), (144093970223350, .negSucc 0), (148331802370150, .ofNat 1), (151009063652575, .ofNat 1), (158787957427750, .ofNat 4), (168176449093450, .negSucc 1), (170249383843595, .negSucc 3), (175763356571350, .negSucc 1), (201560883077750, .ofNat 4), (227553848964925, .negSucc 9), (232897410081550, .ofNat 1), (236683936543250, .ofNat 4), (241384889625250, .ofNat 4), (265092960970775, .ofNat 2), (277052041916825, .negSucc 7), (297296349474250, .ofNat 4), (339846015064675, .negSucc 0), (350853459757325, .ofNat 2), (351601905732875, .negSucc 7), (361590765982075, .ofNat 1), (367111235691725, .negSucc 0), (414341085919775, .ofNat 1), (420661429200425, .negSucc 0), (433033164983825, .ofNat 1), (446313383957875, .negSucc 1), (455428614140950, .ofNat 2), (484568816868550, .negSucc 1), (515172673291150, .negSucc 1), (524085859488625, .negSucc 7), (534495112741625, .negSucc 1), (563729581136450, .ofNat 2), (580308979548050, .negSucc 1), (588427739307625, .ofNat 2), (627234572055350, .negSucc 1), (658299059550125, .negSucc 1), (704688145518875, .ofNat 2), (732064519517450, .negSucc 1), (743231404058150, .ofNat 2), (838356285660250, .negSucc 3), (867913536368375, .ofNat 2), (968694940578050, .negSucc 0), (1020718049167250, .negSucc 3), (1140739490858975, .ofNat 2), (1223865671872375, .ofNat 2), (1388876552408275, .ofNat 2), (1621000007502925, .ofNat 2), (1645726680414475, .negSucc 1), (1679257549778375, .negSucc 1), (1856360346819125, .ofNat 8), (2015476947975050, .ofNat 12), (2020801458207875, .ofNat 2), (2144967368422825, .ofNat 1), (2260161394584625, .ofNat 8), (2362345366637375, .negSucc 1), (2453889514120450, .ofNat 12), (3010064704858550, .ofNat 1), (3202661070126950, .negSucc 0), (3725858372918050, .ofNat 1), (3835436604142450, .negSucc 0), (4462841813373325, .negSucc 3), (4744700994853225, .negSucc 0), (5048286550479025, .ofNat 1), (5211788548153250, .negSucc 3), (5433612495552425, .negSucc 3), (5872991334748475, .negSucc 0), (6045717170796275, .ofNat 1), (6241523574595750, .negSucc 3), (6854546562244325, .negSucc 1), (7163774226706475, .negSucc 1), (7687234179262750, .negSucc 3), (7721197394267875, .negSucc 1), (8215231476410875, .ofNat 4), (8383014313776550, .negSucc 3), (8919394174388950, .ofNat 4), (9492447665743175, .ofNat 1), (9557298856051625, .negSucc 1), (9838380904564625, .ofNat 4), (10376495900856050, .negSucc 3), (10681670696384450, .ofNat 4), (11540388928053625, .ofNat 2), (12117223792281125, .ofNat 2), (13320893409385450, .ofNat 2), (13820516486604875, .ofNat 2), (16218493934574050, .ofNat 2), (16442048786112250, .negSucc 3), (17021732825510375, .ofNat 2), (18562388837648075, .ofNat 6), (19750087100432675, .negSucc 5), (20018572352035250, .negSucc 3), (21677498243500750, .ofNat 4), (22976526637609825, .ofNat 6), (23652270827708425, .negSucc 5), (26392852414181750, .ofNat 4), (29496263977924925, .negSucc 1), (35912379426556825, .negSucc 1), (48000174682037375, .negSucc 7), (58441316059973875, .negSucc 7), (68387748349229750, .ofNat 4), (72763478791067750, .negSucc 3), (82146939476337925, .ofNat 8), (84650361296457250, .ofNat 4), (87139945154715250, .negSucc 3), (100015787131973825, .ofNat 8), (122684411438347675, .ofNat 1), (130534266519529075, .negSucc 0), (151430014201865875, .negSucc 1), (151858775941353425, .ofNat 1), (156324972559160825, .negSucc 0), (161119131608792875, .ofNat 2), (187440085727869625, .negSucc 1), (192952735699726625, .ofNat 2), (199648104051783625, .ofNat 2), (212422413890052625, .negSucc 3), (247124441849334875, .ofNat 2), (254392420532313875, .negSucc 3), (302646619123350250, .ofNat 4), (313316786628983375, .negSucc 1), (368479215749377250, .ofNat 4), (425144404326616750, .ofNat 4), (517623085102625750, .ofNat 4), (670146085201704125, .negSucc 7), (815918263445049625, .negSucc 7), (1768311778744369250, .negSucc 3), (1881455665883323250, .ofNat 4), (2188816484951251750, .negSucc 3), (2253190010429065750, .ofNat 4), (2787352259330702875, .ofNat 2), (2965698562984325875, .negSucc 1), (3450184887034636625, .ofNat 2), (3551655506547829625, .negSucc 1), (3915547510076817625, .ofNat 2), (4166080403027358625, .negSucc 1), (4846665073820628875, .ofNat 2), (4989206451664359875, .negSucc 1), (7825576865903770750, .negSucc 3), (9527819721519611750, .negSucc 3), (17328063060215492375, .ofNat 8), (21097315097650568875, .ofNat 8), (72072965562693888625, .negSucc 1), (76684491414308997625, .ofNat 2), (89211923507609889875, .negSucc 1), (91835663812165308875, .ofNat 2)]) .nil

def upr263 : Tr := .node (.node .nil (.node (.node (.node .nil (.leaf [(107870, .negSucc 0), (238855, .ofNat 1), (4038110, .negSucc 0), (84396499, .negSucc 0), (688497755, .ofNat 1)])) .nil) .nil)) (.node .nil (.node (.node .nil upr262) .nil))

def upr264 : Tr := .node (.node (.node (.node (.node (.leaf [(3, .ofNat 1)]) .nil) .nil) (.node (.node .nil (.leaf [(4619171881, .negSucc 0), (5018605411, .ofNat 1)])) .nil)) (.node (.node (.node (.leaf [(181, .negSucc 0)]) .nil) .nil) (.node .nil (.node (.leaf [(870067, .negSucc 0)]) .nil)))) (.node (.node (.node (.node (.leaf [(3, .ofNat 1)]) .nil) .nil) (.node (.node (.leaf [(14, .ofNat 1), (31, .negSucc 0)]) .nil) .nil)) (.node (.node (.node (.leaf [(53297, .ofNat 1)]) .nil) .nil) .nil))

def upr265 : Tr := .node (.node (.node (.node (.node .nil (.leaf [(7210, .ofNat 1), (7630, .negSucc 0), (15965, .negSucc 0), (16895, .ofNat 1), (70005110, .ofNat 1), (155011315, .negSucc 0), (285696530, .ofNat 1), (632613745, .negSucc 0)])) (.node (.leaf [(37, .ofNat 1), (181, .negSucc 0)]) .nil)) .nil) (.node (.node (.node (.leaf [(181, .ofNat 1)]) (.leaf [(2, .ofNat 1)])) (.node (.leaf [(1689730, .negSucc 0), (3741545, .ofNat 1), (17006045, .ofNat 1), (62653850, .ofNat 1), (138733525, .negSucc 0), (1620049550, .negSucc 0), (3587252575, .ofNat 1), (16731221290, .negSucc 0), (37047704285, .ofNat 1), (68281470670, .negSucc 0), (151194685055, .ofNat 1), (640082263135, .negSucc 0), (2358197811550, .negSucc 0), (5221723725575, .ofNat 1), (60976257698650, .ofNat 1), (135018856332725, .negSucc 0)]) .nil)) (.node .nil (.node (.leaf [(1843, .negSucc 0), (6790, .negSucc 0), (15035, .ofNat 1)]) .nil)))) (.node (.node .nil (.node (.node (.leaf [(19, .ofNat 1)]) .nil) (.node (.leaf [(40915, .ofNat 1), (42385, .ofNat 1), (98363, .negSucc 0), (101897, .negSucc 0), (231805, .negSucc 0), (362390, .negSucc 1), (375410, .negSucc 1), (434701, .negSucc 0), (802435, .ofNat 1), (831265, .ofNat 1), (946015, .negSucc 0), (994595, .ofNat 1), (1032605, .ofNat 1), (1133965, .ofNat 1), (1395730, .ofNat 1), (2053130, .ofNat 1), (3090545, .negSucc 0), (8378990, .ofNat 1), (8809270, .negSucc 0), (9145930, .negSucc 0), (10043690, .negSucc 0), (13677055, .negSucc 0), (14770315, .negSucc 0), (15300985, .negSucc 0), (15436645, .negSucc 0), (83681605, .ofNat 1), (121139630, .ofNat 1), (136724570, .ofNat 1), (341511415, .ofNat 1), (359048795, .negSucc 0), (372770405, .negSucc 0), (409361365, .negSucc 0), (503858530, .negSucc 0), (578152330, .negSucc 0), (1115686745, .ofNat 1), (1280194445, .ofNat 1), (4937416855, .ofNat 1), (5572628845, .ofNat 1)]) .nil))) .nil)

def upr266 : Tr := .node (.leaf [(962290, .negSucc 0), (994910, .negSucc 0), (1353730, .negSucc 0), (1451590, .negSucc 0), (1604890, .ofNat 1), (1647310, .negSucc 0), (2130785, .ofNat 1), (2203015, .ofNat 1), (2997545, .ofNat 1), (3214235, .ofNat 1), (3553685, .negSucc 0), (3647615, .ofNat 1), (8212085, .negSucc 2), (12240655, .negSucc 2), (16152185, .negSucc 0), (16579115, .ofNat 1), (30255050, .negSucc 0), (36226141, .ofNat 1), (37527679, .ofNat 1), (45097150, .negSucc 0), (59508050, .negSucc 0), (61080950, .ofNat 1), (66993325, .ofNat 1), (72735610, .ofNat 2), (99857975, .ofNat 1), (108417230, .ofNat 2), (131767825, .ofNat 1), (135250675, .negSucc 0), (233192225, .negSucc 0), (253180130, .negSucc 1), (319961425, .ofNat 1), (347386690, .ofNat 2), (385038325, .negSucc 0), (418041610, .negSucc 1), (450115225, .ofNat 1), (488696530, .ofNat 2), (560613145, .ofNat 1), (769213385, .negSucc 0), (782309150, .ofNat 1), (925663565, .ofNat 1), (1082113745, .negSucc 0), (1166083450, .ofNat 1), (1306047715, .negSucc 0), (1417994662, .ofNat 1), (1538708150, .ofNat 1), (1579378850, .negSucc 0), (1732255975, .negSucc 0), (2065416850, .ofNat 1), (2582041925, .negSucc 0), (2833944050, .negSucc 0), (2964562685, .ofNat 4), (3407139475, .negSucc 0), (3410339450, .ofNat 1), (3497196025, .ofNat 1), (3986734850, .negSucc 0), (3996781810, .negSucc 0), (4418876455, .ofNat 4), (6029684675, .ofNat 1), (8273288275, .negSucc 0), (8850016865, .ofNat 1), (9955990975, .ofNat 1), (10922073050, .ofNat 2), (11567851190, .ofNat 1), (11638693675, .negSucc 0), (13667605483, .negSucc 0), (15891159970, .ofNat 1), (16280071150, .ofNat 2), (16311190630, .negSucc 1), (19551824530, .ofNat 1), (24184590325, .negSucc 1), (29431060645, .negSucc 0), (35187568505, .negSucc 0), (36048728975, .negSucc 1), (36117636395, .ofNat 2), (41301046430, .negSucc 0), (43293325745, .negSucc 0), (46378993675, .ofNat 1), (50354335990, .ofNat 2), (51122439130, .negSucc 0), (53405778550, .negSucc 0), (64853112310, .ofNat 1), (66567291490, .negSucc 0), (73277696150, .ofNat 1), (79792581190, .ofNat 1), (84182393225, .ofNat 1), (88181634350, .negSucc 0), (91452317095, .ofNat 1), (103085572550, .ofNat 1), (111498886835, .negSucc 0), (113199686645, .ofNat 1), (115506074425, .negSucc 0), (138998835325, .ofNat 1), (143603320115, .negSucc 0), (147399002585, .ofNat 1), (152903909515, .negSucc 0), (162491596225, .negSucc 0), (176683572635, .negSucc 0), (260675108570, .ofNat 1), (282413603150, .negSucc 1), (404717734505, .ofNat 3), (410785372550, .negSucc 0), (420956125450, .negSucc 1), (471483225115, .ofNat 2), (492753145045, .ofNat 3), (563330192950, .negSucc 0), (607944241555, .ofNat 1), (624013252345, .negSucc 0), (625344406975, .ofNat 2), (747989395195, .ofNat 1), (932117134925, .ofNat 2), (1062530811475, .ofNat 1), (1153604881030, .ofNat 2), (1199228265025, .negSucc 0), (1247373998675, .ofNat 1), (1491065337650, .ofNat 1), (1737043460950, .ofNat 1), (1815406323850, .ofNat 1), (2176716167675, .negSucc 0), (2239794574150, .ofNat 1), (2298996192850, .negSucc 0), (2554410807995, .negSucc 0), (2755750403350, .ofNat 1), (2986657067275, .ofNat 1), (3301644676225, .negSucc 0), (3584642791330, .negSucc 1), (3594112741975, .negSucc 0), (3846310520675, .negSucc 0), (4019828288525, .negSucc 0), (4201568416675, .ofNat 1), (4364384998970, .negSucc 1), (4959545128475, .negSucc 0), (5090634427025, .ofNat 1), (6102018750275, .negSucc 0), (9410987187350, .negSucc 0), (10621736061650, .ofNat 1), (10624612892845, .ofNat 2), (13732597937975, .ofNat 1), (14566109274850, .ofNat 1), (14611266241775, .negSucc 0), (14909677761230, .ofNat 2), (15863660491070, .negSucc 1), (16742816716675, .negSucc 0), (16998211010725, .ofNat 1), (17498131756525, .negSucc 0), (18455200525930, .ofNat 2), (18997971621370, .negSucc 1), (27474010982425, .negSucc 0), (32253527680025, .negSucc 0), (33014286471295, .negSucc 0), (35126676801655, .ofNat 1), (38554689444950, .negSucc 0), (39143310657850, .ofNat 1), (40865086878845, .negSucc 0), (42066937161605, .ofNat 1), (44914980918850, .negSucc 0), (46941220659550, .negSucc 0), (57914688274450, .negSucc 0), (59445472986550, .ofNat 1), (71255831858050, .negSucc 0), (85371098056675, .ofNat 1), (86674473599525, .negSucc 0), (99454600606025, .ofNat 1), (103941274317575, .ofNat 1), (121631581736350, .negSucc 0), (128239666893425, .ofNat 1), (129414072427150, .ofNat 1), (131629261613075, .negSucc 0), (146103102156305, .negSucc 3), (150555583237850, .negSucc 0), (154983452700650, .ofNat 1), (157780770542825, .ofNat 1), (177883885361245, .negSucc 3), (243341240130050, .ofNat 1), (355085746681925, .negSucc 0), (377805598537325, .ofNat 1), (383573622942475, .negSucc 0), (432921403674025, .ofNat 1), (439525170420175, .negSucc 0), (452451692561575, .ofNat 1), (538274586891650, .negSucc 1), (655361682909850, .negSucc 1), (1012134175581550, .negSucc 0), (1191893728117225, .ofNat 2), (1451158012157525, .ofNat 2), (2241154245930575, .ofNat 1), (3145045184897050, .ofNat 1), (3346278158473450, .negSucc 0), (3892937223721550, .ofNat 1), (4007429276973950, .negSucc 0), (4957467855608975, .negSucc 0), (5274667113280775, .ofNat 1), (6136354174871725, .negSucc 0), (6316825564105525, .ofNat 1), (9918117964655425, .ofNat 1), (13918242889626950, .ofNat 2), (16945780658097550, .ofNat 2), (30818966398459675, .negSucc 1), (37522800028644575, .negSucc 1), (128185954552174925, .ofNat 1), (136387821071974325, .negSucc 0), (158668586521683175, .ofNat 1), (163335061014728575, .negSucc 0)]) .nil

def upr267 : Tr := .node (.node (.node (.node (.node (.leaf [(31, .ofNat 1)]) .nil) .nil) (.node (.node .nil (.leaf [(1, .ofNat 1)])) .nil)) .nil) (.node (.node (.node (.node (.leaf [(1, .ofNat 2)]) .nil) .nil) .nil) (.node (.node .nil upr266) .nil))

def upr268 : Tr := .node (.leaf [(105452305, .negSucc 0), (105789985, .ofNat 1), (230574470, .ofNat 1), (239504230, .negSucc 0), (510557755, .negSucc 0), (530330795, .ofNat 1), (934006130, .ofNat 1), (936997010, .negSucc 0), (3947603665, .negSucc 0), (3960244705, .ofNat 1), (8631547910, .ofNat 1), (8965833190, .negSucc 0), (38068282105, .ofNat 1), (38190184585, .negSucc 0), (44803962605, .negSucc 0), (46539144445, .ofNat 1), (66783265015, .negSucc 0), (69369668135, .ofNat 1), (76477668455, .negSucc 0), (79185949735, .ofNat 1), (90453282995, .ofNat 1), (93956385955, .negSucc 0), (122172228890, .ofNat 1), (122563449530, .negSucc 0), (180399351319, .ofNat 1), (187385913671, .negSucc 0), (197644650133, .ofNat 1), (204745655527, .ofNat 1), (205299093797, .negSucc 0), (212675109143, .negSucc 0), (330019666394, .negSucc 0), (331076457338, .ofNat 1), (333023100935, .negSucc 0), (334089509495, .ofNat 1), (344988002765, .negSucc 0), (346092725405, .ofNat 1), (361567938158, .negSucc 0), (362725753166, .ofNat 1), (374558403002, .negSucc 0), (375757816154, .ofNat 1), (728164500490, .ofNat 1), (754326099310, .ofNat 1), (756365082410, .negSucc 0), (783539875790, .negSucc 0), (800614720207, .ofNat 1), (803178453439, .negSucc 0), (829379320933, .ofNat 1), (832035164341, .negSucc 0), (1219402563035, .negSucc 0), (1223307341195, .ofNat 1), (1307552145905, .negSucc 0), (1311739197185, .ofNat 1), (1381314620690, .negSucc 0), (1425084923065, .ofNat 1), (1429648338505, .negSucc 0), (1434810604210, .ofNat 1), (1471678918655, .negSucc 0), (1528674558895, .ofNat 1), (1612364251085, .negSucc 0), (1670293505615, .negSucc 0), (1674808396765, .ofNat 1), (1734981153535, .ofNat 1), (1886751067145, .ofNat 1), (1892792832665, .negSucc 0), (1895292153970, .ofNat 1), (1968693619730, .negSucc 0), (2280775303930, .negSucc 0), (2327458284550, .negSucc 0), (2334911285350, .ofNat 1), (2369105881370, .ofNat 1), (2666258453890, .ofNat 1), (2692265699530, .ofNat 2), (2700886888810, .negSucc 1), (2769518143010, .negSucc 0), (2949633179710, .ofNat 2), (2959078512670, .negSucc 1), (3055608024490, .ofNat 2), (3065392710730, .negSucc 1), (3301743147850, .negSucc 0), (3312316009450, .ofNat 1), (3843012516350, .negSucc 0), (3855318633950, .ofNat 1), (4125434975830, .negSucc 0), (4285206108470, .ofNat 1), (4817297379650, .negSucc 0), (4832723358050, .ofNat 1), (5153657630075, .ofNat 1), (5170160703275, .negSucc 0), (5899836116650, .negSucc 0), (5918728607050, .ofNat 1), (6209953796095, .ofNat 1), (6450454823855, .negSucc 0), (6531330612215, .negSucc 0), (6552245278055, .ofNat 1), (6765989197085, .negSucc 0), (6787655288045, .ofNat 1), (7125609754795, .ofNat 1), (7311002684525, .ofNat 1), (7334414020925, .negSucc 0), (7401572592155, .negSucc 0), (7699984084835, .ofNat 1), (7724641019795, .negSucc 0), (7736376305206, .ofNat 1), (8035993100054, .negSucc 0), (8095395602455, .negSucc 0), (8121318726535, .ofNat 1), (8404773778345, .negSucc 0), (8431687595065, .ofNat 1), (8509527714775, .ofNat 1), (8536776975175, .negSucc 0), (9134891732195, .ofNat 1), (9229782247385, .negSucc 0), (9259337911145, .ofNat 1), (9488670668755, .negSucc 0), (10666872769225, .ofNat 1), (10701030292825, .negSucc 0), (11360389408970, .negSucc 0), (11396767715690, .ofNat 1), (13063922829725, .ofNat 1), (13105756201325, .negSucc 0), (16174230500405, .ofNat 2), (16711223737570, .negSucc 0), (16764736517890, .ofNat 1), (16800631144645, .negSucc 1), (16836234631090, .negSucc 0), (17488273577810, .ofNat 1), (17700813182570, .ofNat 1), (18377277380630, .ofNat 1), (18386335797130, .negSucc 0), (19088998311670, .negSucc 0), (20181181908790, .ofNat 1), (20962765017110, .negSucc 0), (24108758670415, .ofNat 2), (25042450196735, .negSucc 1), (25155147977005, .ofNat 1), (25235699941885, .negSucc 0), (27252912703975, .ofNat 2), (27340182143575, .negSucc 1), (37280233825985, .ofNat 1), (38724034350865, .negSucc 0), (39194657761405, .negSucc 0), (40622266105925, .ofNat 2), (40692542771395, .negSucc 0), (40712600693645, .ofNat 1), (40752346968725, .negSucc 1), (42268496261555, .ofNat 1), (44686902798035, .negSucc 0), (46417551109315, .ofNat 1), (55002447908270, .negSucc 0), (56268353120177, .ofNat 1), (56448535976129, .negSucc 0), (57132599868430, .ofNat 1), (63112543542470, .negSucc 0), (65556785816230, .ofNat 1), (68199859037110, .negSucc 0), (68418249032470, .ofNat 1), (71702075336030, .ofNat 1), (71931680149310, .negSucc 0), (74442282036770, .ofNat 1), (74568503000179, .negSucc 0), (74680661556290, .negSucc 0), (77456415245411, .ofNat 1), (81749499905410, .ofNat 1), (82011278641570, .negSucc 0), (111322871019395, .ofNat 1), (111679349780915, .negSucc 0), (120221339437535, .ofNat 1), (120606312927695, .negSucc 0), (124540668998165, .ofNat 1), (124939473871205, .negSucc 0), (125644858509905, .negSucc 0), (126047199225185, .ofNat 1), (241382941092350, .negSucc 1), (242155898985950, .ofNat 2), (243410629897330, .negSucc 0), (252837512701970, .ofNat 1), (359797214081050, .negSucc 1), (360949358865850, .ofNat 2), (459031301769865, .negSucc 0), (460501214542105, .ofNat 1), (538980680486945, .ofNat 1), (559854492411505, .negSucc 0), (608321998159355, .ofNat 1), (631881282265195, .negSucc 0), (681117135239345, .negSucc 0), (683298212592065, .ofNat 1), (834221886898195, .negSucc 0), (840212440722550, .ofNat 1), (842902974011350, .negSucc 0), (866529892362755, .ofNat 1), (986002571886070, .negSucc 0), (989159955202390, .ofNat 1), (1152849627968150, .negSucc 0), (1156541289922550, .ofNat 1), (1387327518402350, .ofNat 1), (1391770026855950, .negSucc 0), (1621805408836550, .negSucc 0), (1626998763789350, .ofNat 1), (1860470404457075, .negSucc 0), (1866428013882275, .ofNat 1), (2208082142640065, .ofNat 1), (2241793320390295, .negSucc 0), (2293597436653585, .negSucc 0), (2328614191411655, .ofNat 1), (2552738461929475, .ofNat 1), (2560912856257075, .negSucc 0), (2688390766059085, .ofNat 1), (2779694254625435, .negSucc 0), (2788595408145995, .ofNat 1), (2792507602268765, .negSucc 0), (2878505796260365, .ofNat 1), (2922437812486255, .ofNat 1), (2931796060279135, .negSucc 0), (2980441479184205, .negSucc 0), (3034123333982545, .ofNat 1), (3043839221818465, .negSucc 0), (3071939505033775, .negSucc 0), (3081776488038175, .ofNat 1), (3331951391305985, .ofNat 1), (3342620985923345, .negSucc 0), (3404527160043985, .negSucc 0), (3536378749912865, .ofNat 1), (3591140548138075, .ofNat 1), (3602640119819275, .negSucc 0), (4080923284556035, .ofNat 1), (4101100576638170, .ofNat 1), (4114233145364090, .negSucc 0), (4238970554531315, .negSucc 0), (4705806715126370, .negSucc 0), (4720875677455490, .ofNat 1), (4918098747387710, .negSucc 0), (4933847512528670, .ofNat 1), (6293903430202390, .ofNat 1), (6537655685579510, .negSucc 0), (9081008419698805, .negSucc 0), (9110087679020485, .ofNat 1), (9838301486134975, .negSucc 1), (9869805753830575, .ofNat 2), (14664638064238925, .negSucc 1), (14711597255709725, .ofNat 2), (40187556438001595, .negSucc 0), (40316245270910315, .ofNat 1), (45357793922075705, .ofNat 1), (45503038920291785, .negSucc 0), (46049679998022335, .negSucc 0), (46197140557957295, .ofNat 1), (57966370141520485, .ofNat 1), (60211309806501365, .negSucc 0), (81345071911304990, .ofNat 1), (84495429231222910, .negSucc 0), (86549865402064910, .negSucc 0), (89901795587886190, .ofNat 1), (100688937612256090, .ofNat 1), (103650219170248810, .negSucc 0), (104588450197202810, .negSucc 0), (107664417191121290, .ofNat 1), (145832961035407450, .negSucc 0), (146299948212998650, .ofNat 1), (174646353328767950, .negSucc 0), (175205606923007150, .ofNat 1), (215099310376226150, .negSucc 0), (215788102670788550, .ofNat 1), (322915842292687925, .ofNat 1), (323949885328782725, .negSucc 0), (386716925227986175, .ofNat 1), (387955272472372975, .negSucc 0), (476291330118786475, .ofNat 1), (477816513056746075, .negSucc 0), (797117653493063465, .negSucc 1), (827988674631944185, .ofNat 2), (970509066547329685, .negSucc 1), (1008095244419024165, .ofNat 2), (1343110438849000675, .negSucc 1), (1347411355106739475, .ofNat 2), (1635267833506413575, .negSucc 1), (1640504297915782775, .ofNat 2), (11896121029805434550, .ofNat 2), (11934214859516835350, .negSucc 1), (14483800811056805950, .ofNat 2), (14530180924396933150, .negSucc 1), (49479778457139521050, .negSucc 0), (49638222898817745850, .ofNat 1), (52645698933782089450, .ofNat 1), (52814281304892512650, .negSucc 0), (61246074397369705550, .negSucc 0), (61442196942083202350, .ofNat 1), (63047333551685229950, .ofNat 1), (63249224099205581150, .negSucc 0), (109562366583666082325, .ofNat 1), (109913207847382151525, .negSucc 0), (116572619067660340925, .negSucc 0), (116945908603690563725, .ofNat 1), (135616307594175776575, .ofNat 1), (136050578943184233775, .negSucc 0), (139604810007303009175, .negSucc 0), (140051853362526643975, .ofNat 1), (484862868424489243675, .ofNat 2), (486415499193532950475, .negSucc 1), (590331687895815300575, .ofNat 2), (592222051547597581775, .negSucc 1)]) .nil

end BP.EL
