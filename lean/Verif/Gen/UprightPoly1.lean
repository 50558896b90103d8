import Verif.Lemmas.Laurent

/-!
# Generated by tools/gen_upright_poly.py
-/

namespace BP.EL

def upr1 : Tr := .node (.node (.node .nil (.node (.node (.leaf [(10636217, .negSucc 0), (10687841, .ofNat 1)]) .nil) .nil)) (.node (.node (.node (.leaf [(9, .ofNat 1)]) .nil) (.node (.leaf [(118, .ofNat 1)]) .nil)) (.node (.node .nil (.leaf [(4163, .negSucc 0)])) .nil))) .nil

def upr2 : Tr := .node (.leaf [(166, .ofNat 1), (178, .ofNat 1), (1501, .ofNat 1), (36239, .ofNat 1), (37541, .ofNat 1), (160153, .ofNat 1), (1418498, .ofNat 1), (6268846, .ofNat 1), (13672457, .negSucc 0), (60423439, .negSucc 0)]) (.leaf [(102567955, .ofNat 1), (102736795, .negSucc 0), (213727990, .negSucc 0), (224636930, .ofNat 1), (473254835, .ofNat 1), (497410345, .negSucc 0), (908459030, .negSucc 0), (909954470, .ofNat 1), (3839628115, .ofNat 1), (3845948635, .negSucc 0), (8000900470, .negSucc 0), (8409276290, .ofNat 1), (37027031755, .negSucc 0), (37087982995, .ofNat 1), (41530447285, .ofNat 1), (43650212495, .negSucc 0), (61903874255, .ofNat 1), (65063524285, .negSucc 0), (70663695055, .ofNat 1), (74148399365, .negSucc 0), (83844487915, .negSucc 0), (88124013905, .ofNat 1), (118830552590, .negSucc 0), (119026162910, .ofNat 1), (167218819823, .negSucc 0), (175753874461, .ofNat 1), (183204124061, .negSucc 0), (189786308159, .negSucc 0), (192555088327, .ofNat 1), (199473235213, .ofNat 1), (320992910414, .ofNat 1), (321521305886, .negSucc 0), (323914194485, .ofNat 1), (324447398765, .negSucc 0), (335551830215, .ofNat 1), (336104191535, .negSucc 0), (351678268298, .ofNat 1), (352257175802, .negSucc 0), (364313415662, .ofNat 1), (364913122238, .negSucc 0), (674962562330, .negSucc 0), (699212714270, .negSucc 0), (709413483310, .ofNat 1), (734901392890, .ofNat 1), (778716165517, .negSucc 0), (779998032133, .ofNat 1), (806693991823, .negSucc 0), (808021913527, .ofNat 1), (1186049249585, .ofNat 1), (1188001638665, .negSucc 0), (1271787749555, .ofNat 1), (1273881275195, .negSucc 0), (1280391525730, .ofNat 1), (1345744287110, .negSucc 0), (1364153530135, .ofNat 1), (1386105749515, .negSucc 0), (1388387457235, .ofNat 1), (1433781607445, .negSucc 0), (1494559959445, .ofNat 1), (1548256724455, .ofNat 1), (1570844141615, .negSucc 0), (1627281655685, .negSucc 0), (1756816279490, .negSucc 0), (1835144319995, .negSucc 0), (1838165202755, .ofNat 1), (1846486347430, .ofNat 1), (2114134844810, .ofNat 1), (2222042892670, .negSucc 0), (2263797236050, .ofNat 1), (2267523736450, .negSucc 0), (2471453410130, .negSucc 0), (2597599437910, .ofNat 1), (2618626374430, .negSucc 1), (2622936969070, .ofNat 2), (2868954294010, .negSucc 1), (2873676960490, .ofNat 2), (2972030496190, .negSucc 1), (2976922839310, .ofNat 2), (3211433288350, .ofNat 1), (3216719719150, .negSucc 0), (3737897761850, .ofNat 1), (3744050820650, .negSucc 0), (3824018007110, .ofNat 1), (4019200598770, .negSucc 0), (4685533814150, .ofNat 1), (4693246803350, .negSucc 0), (5012693879825, .negSucc 0), (5020945416425, .ofNat 1), (5738462761150, .ofNat 1), (5747909006350, .negSucc 0), (5756235470615, .negSucc 0), (6050040822805, .ofNat 1), (6352684508165, .ofNat 1), (6363141841085, .negSucc 0), (6580924670135, .ofNat 1), (6591757715615, .negSucc 0), (6604990788515, .negSucc 0), (6942117658105, .ofNat 1), (7111030852775, .negSucc 0), (7122736520975, .ofNat 1), (7171132856102, .negSucc 0), (7489372765385, .negSucc 0), (7501701232865, .ofNat 1), (7537156314514, .ofNat 1), (7873968917605, .ofNat 1), (7886930479645, .negSucc 0), (8174884927195, .ofNat 1), (8188341835555, .negSucc 0), (8276773615525, .negSucc 0), (8290398245725, .ofNat 1), (8467468444315, .negSucc 0), (8899658468705, .ofNat 1), (8977327619435, .ofNat 1), (8992105451315, .negSucc 0), (10375110588475, .negSucc 0), (10392189350275, .ofNat 1), (11049658039070, .ofNat 1), (11067847192430, .negSucc 0), (12706596113975, .negSucc 0), (12727512799775, .ofNat 1), (14992491469885, .negSucc 1), (15606127542530, .ofNat 1), (15757726710695, .ofNat 2), (16254135405670, .ofNat 1), (16280891795830, .negSucc 0), (16402683524710, .negSucc 0), (16407537325690, .negSucc 0), (17034576968710, .negSucc 0), (17244998250830, .ofNat 1), (17904042769970, .ofNat 1), (18706682683430, .negSucc 0), (19661494821010, .ofNat 1), (22347298606055, .negSucc 1), (23487932266885, .ofNat 2), (24467099943655, .negSucc 0), (24507375926095, .ofNat 1), (26507486240725, .negSucc 1), (26551120960525, .ofNat 2), (34556425272745, .negSucc 0), (36320227804715, .ofNat 1), (36330975506885, .ofNat 1), (37719420430715, .ofNat 1), (38185353269695, .negSucc 0), (39511158736175, .negSucc 1), (39576199167575, .ofNat 2), (39644666133505, .negSucc 0), (41421940227595, .ofNat 1), (43536167103665, .negSucc 0), (50983799882590, .ofNat 1), (53586075859130, .negSucc 0), (54729291225587, .negSucc 0), (54819382653563, .ofNat 1), (58501346983990, .ofNat 1), (61487327828930, .negSucc 0), (66334444493410, .ofNat 1), (66443639491090, .negSucc 0), (69120298806443, .ofNat 1), (69740867555930, .negSucc 0), (69855669962570, .ofNat 1), (72406123640870, .negSucc 0), (72525313400630, .ofNat 1), (72648284038801, .negSucc 0), (79513473200710, .negSucc 0), (79644362568790, .ofNat 1), (108277948264745, .negSucc 0), (108456187645505, .ofNat 1), (116933024209085, .negSucc 0), (117125510954165, .ofNat 1), (121134210707615, .negSucc 0), (121333613144135, .ofNat 1), (122208198233555, .ofNat 1), (122409368591195, .negSucc 0), (225626300572610, .ofNat 1), (234780592417850, .ofNat 2), (235167071364650, .negSucc 1), (237142545007270, .negSucc 0), (349955977377550, .ofNat 2), (350532049769950, .negSucc 1), (446475796840315, .ofNat 1), (447210753226435, .negSucc 0), (499601094125065, .negSucc 0), (525101349658955, .ofNat 1), (563876121842035, .negSucc 0), (592657054000745, .ofNat 1), (662487099518195, .ofNat 1), (663577638194555, .negSucc 0), (773271069866315, .ofNat 1), (812739778222705, .negSucc 0), (817230802214050, .negSucc 0), (818576068858450, .ofNat 1), (959033256059170, .ofNat 1), (960611947717330, .negSucc 0), (1121316682107650, .ofNat 1), (1123162513084850, .negSucc 0), (1349381092027850, .negSucc 0), (1351602346254650, .ofNat 1), (1577445501948050, .ofNat 1), (1580042179424450, .negSucc 0), (1809582490616825, .ofNat 1), (1812561295329425, .negSucc 0), (2046752869480105, .negSucc 0), (2078001004892015, .ofNat 1), (2151221658280235, .ofNat 1), (2184064737032605, .negSucc 0), (2482915510381225, .negSucc 0), (2487002707545025, .ofNat 1), (2491968667495445, .negSucc 0), (2619161819293615, .ofNat 1), (2659676476940165, .negSucc 0), (2703663568303985, .ofNat 1), (2708114145064265, .negSucc 0), (2790835568963095, .ofNat 1), (2842502779255405, .negSucc 0), (2847181903151845, .ofNat 1), (2951133458717395, .negSucc 0), (2955991402635355, .ofNat 1), (2987915275204525, .ofNat 1), (2992833766706725, .negSucc 0), (3155781933778745, .ofNat 1), (3240815270616035, .negSucc 0), (3246150067924715, .ofNat 1), (3316856932746715, .negSucc 0), (3492915040027825, .negSucc 0), (3498664825868425, .ofNat 1), (3782758476913595, .negSucc 0), (3975835131305665, .ofNat 1), (3988926552104270, .negSucc 0), (3995492836467230, .ofNat 1), (4577092661898470, .ofNat 1), (4584627143063030, .negSucc 0), (4783578045142010, .ofNat 1), (4791452427712490, .negSucc 0), (5834051486234630, .negSucc 0), (6131828663759410, .ofNat 1), (8832623079659455, .ofNat 1), (8847162709320295, .negSucc 0), (9569202532901725, .ofNat 2), (9584954666749525, .negSucc 1), (14263528303759175, .ofNat 2), (14287007899494575, .negSucc 1), (39088339323572945, .ofNat 1), (39152683740027305, .negSucc 0), (44117159562313355, .negSucc 0), (44189782061421395, .ofNat 1), (44790121048577885, .ofNat 1), (44863851328545365, .negSucc 0), (53731168840779245, .negSucc 0), (56473673914700215, .ofNat 1), (75401750748938830, .negSucc 0), (79250349029468810, .ofNat 1), (80226266017889470, .ofNat 1), (84321113503299290, .negSucc 0), (93332294122167530, .negSucc 0), (96077215340955770, .ofNat 1), (98096089433399710, .ofNat 1), (100981114813933390, .negSucc 0), (141844112226815950, .ofNat 1), (142077605815611550, .negSucc 0), (169869395544641450, .ofNat 1), (170149022341761050, .negSucc 0), (209215876193505650, .ofNat 1), (209560272340786850, .negSucc 0), (314083391359378175, .negSucc 0), (314600412877425575, .ofNat 1), (376139375848848925, .negSucc 0), (376758549471042325, .ofNat 1), (463263725857048225, .negSucc 0), (464026317326028025, .ofNat 1), (738877785882317905, .ofNat 2), (776591018639164835, .negSucc 1), (899600688965855645, .ofNat 2), (945517416764995015, .negSucc 1), (1306373445814148425, .ofNat 2), (1308523903943017825, .negSucc 1), (1590539700009718325, .ofNat 2), (1593157932214402925, .negSucc 1), (11570736234353886050, .negSucc 1), (11589783149209586450, .ofNat 2), (14087637342943219450, .negSucc 1), (14110827399613283050, .ofNat 2), (48126398851138017550, .ofNat 1), (48205621071977129950, .negSucc 0), (51205724513880557950, .negSucc 0), (51290015699435769550, .ofNat 1), (59570860994608587050, .ofNat 1), (59668922266965335450, .negSucc 0), (61322851791615563450, .negSucc 0), (61423797065375739050, .ofNat 1), (106565597456091324575, .negSucc 0), (106741018087949359175, .ofNat 1), (113384104280735521175, .ofNat 1), (113570749048750632575, .negSucc 0), (131906906488061871325, .negSucc 0), (132124042162566099925, .ofNat 1), (135786314681434461925, .ofNat 1), (136009836359046279325, .negSucc 0), (471600813938907581425, .negSucc 1), (472377129323429434825, .ofNat 2), (574184831703508315325, .negSucc 1), (575130013529399455925, .ofNat 2)])

def upr3 : Tr := .node (.node (.node (.node (.node .nil (.leaf [(79792581190, .negSucc 0), (176683572635, .ofNat 1)])) .nil) (.node (.node .nil (.leaf [(1, .ofNat 1)])) .nil)) .nil) (.node .nil (.node (.node upr2 .nil) .nil))

def upr4 : Tr := .node (.node (.node (.node (.node (.leaf [(19, .ofNat 1)]) .nil) (.node (.leaf [(501, .ofNat 1), (519, .ofNat 1), (26671, .ofNat 1), (41134, .ofNat 1), (46426, .ofNat 1), (378841, .ofNat 1), (434701, .ofNat 1)]) .nil)) .nil) (.node .nil (.node .nil (.node (.leaf [(461965, .ofNat 1), (4091690, .negSucc 0), (17293645, .ofNat 1), (166769365, .negSucc 0), (355093945, .negSucc 0), (535211570, .negSucc 0), (1445748722, .ofNat 1), (1458906155, .ofNat 1), (1511321945, .ofNat 1), (1583955254, .ofNat 1), (1640863826, .ofNat 1), (3507329491, .negSucc 0), (3633341329, .negSucc 0), (5341953455, .ofNat 1), (5728118765, .ofNat 1), (6243005845, .negSucc 0), (8265470885, .negSucc 0), (10196119150, .ofNat 1), (11794265890, .negSucc 1), (12921740230, .negSucc 1), (13385994370, .negSucc 1), (14464262050, .ofNat 1), (16835452550, .ofNat 1), (21103595450, .ofNat 1), (22577120975, .negSucc 0), (25845976450, .ofNat 1), (28612424795, .ofNat 1), (29640416105, .ofNat 1), (32028008825, .negSucc 0), (33732056855, .negSucc 0), (35464273915, .ofNat 1), (36819596485, .ofNat 1), (37278502075, .negSucc 0), (40433790005, .ofNat 1), (46729389925, .negSucc 0), (49767544610, .ofNat 1), (57230376425, .negSucc 0), (73208456410, .ofNat 1), (110199563065, .negSucc 0), (119389441675, .negSucc 1), (177957847025, .negSucc 1), (246500157101, .negSucc 0), (298769646430, .ofNat 1), (314112140390, .negSucc 0), (326116426010, .negSucc 0), (358127854330, .negSucc 0), (487682750135, .negSucc 0), (526665121955, .negSucc 0), (545587222145, .negSucc 0), (550424450765, .ofNat 1), (1057449340550, .ofNat 2), (1576198073650, .ofNat 2), (2010922334245, .ofNat 1), (2983834989485, .ofNat 1), (3680799013150, .negSucc 0), (4319475786910, .ofNat 1), (5050398645950, .ofNat 1), (6077598370550, .negSucc 0), (7104798095150, .ofNat 1), (8150340671975, .ofNat 1), (11183025573175, .negSucc 0), (12177272524655, .ofNat 1), (12802602883315, .negSucc 0), (13291874331085, .negSucc 0), (13365208426835, .ofNat 1), (13457539249075, .ofNat 1), (14596598191805, .negSucc 0), (15732052924975, .negSucc 0), (17966083604210, .negSucc 0), (20615177630810, .ofNat 1), (21545185644230, .ofNat 1), (39782042266465, .ofNat 1), (43099588444675, .ofNat 2), (64242782776025, .ofNat 2), (176053472798735, .ofNat 1), (198703226726165, .negSucc 0), (201734238244355, .ofNat 1), (638864402676850, .ofNat 1), (765089986563350, .ofNat 1), (942306125199950, .ofNat 1), (1414628320213025, .negSucc 0), (1694127827390275, .negSucc 0), (2086534991514175, .negSucc 0), (5883892380378775, .ofNat 2), (7163774226706475, .ofNat 2), (52114475369069150, .negSucc 1), (63450571722257350, .negSucc 1), (216760798684793650, .ofNat 1), (230630049366342850, .negSucc 0), (268306536864992150, .ofNat 1), (276197485149369350, .negSucc 0), (479970339944900225, .negSucc 0), (510680823596902025, .ofNat 1), (594107331629625475, .negSucc 0), (611580145687889275, .ofNat 1), (2124085149316737775, .negSucc 1), (2586122495841037475, .negSucc 1)]) .nil)))) (.node (.node .nil (.node .nil (.node (.leaf [(790970, .ofNat 1)]) .nil))) .nil)

def upr5 : Tr := .node (.node (.node (.node (.node .nil (.leaf [(91586, .negSucc 0)])) .nil) .nil) (.node (.node (.node (.leaf [(181, .ofNat 1), (254, .ofNat 1), (2489, .negSucc 0)]) .nil) (.node (.leaf [(59, .negSucc 0), (61, .negSucc 0), (83, .negSucc 0), (89, .negSucc 0), (101, .negSucc 0), (2014, .negSucc 1), (3002, .negSucc 1), (8183, .negSucc 0), (8477, .negSucc 0), (15523, .negSucc 0), (21299, .ofNat 1), (25631, .negSucc 0), (29963, .ofNat 1), (211589, .ofNat 1), (219191, .ofNat 1), (245051, .negSucc 0), (320306, .negSucc 1), (1000073, .negSucc 1), (1198763, .ofNat 1), (2532253, .negSucc 0), (3087329, .ofNat 2), (3134423, .negSucc 0), (4081379, .negSucc 0), (4892249, .ofNat 1), (7217918, .negSucc 0), (8282198, .ofNat 1), (70729913, .ofNat 1), (79829507, .negSucc 0), (99256342, .ofNat 2), (120846878, .ofNat 2), (914143333, .ofNat 1), (972633997, .negSucc 0), (1131526703, .ofNat 1), (1164805127, .negSucc 0)]) .nil)) .nil)) (.node (.node (.node (.node (.leaf [(6, .ofNat 1), (3439, .ofNat 1)]) .nil) .nil) (.node (.node (.leaf [(181, .negSucc 0)]) .nil) .nil)) (.node (.node (.node .nil (.leaf [(53, .ofNat 1)])) .nil) .nil))

def upr6 : Tr := .node (.node (.node (.node (.node (.leaf [(19, .ofNat 1)]) .nil) .nil) .nil) .nil) (.node (.node (.node (.node (.leaf [(437, .ofNat 1)]) (.leaf [(57, .negSucc 0)])) .nil) (.node (.node (.leaf [(147, .ofNat 2), (3801, .negSucc 1)]) .nil) (.node (.leaf [(2345, .negSucc 0), (20770, .ofNat 1), (87785, .negSucc 0), (846545, .ofNat 1), (2716810, .ofNat 1), (7338826, .negSucc 0), (7405615, .negSucc 0), (7671685, .negSucc 0), (8040382, .negSucc 0), (8329258, .negSucc 0), (17803703, .ofNat 1), (18443357, .ofNat 1), (27116515, .negSucc 0), (29076745, .negSucc 0), (31690385, .ofNat 1), (41956705, .ofNat 1), (51756950, .negSucc 0), (59869370, .ofNat 2), (65592590, .ofNat 2), (67949210, .ofNat 2), (73422650, .negSucc 0), (85459150, .negSucc 0), (107124850, .negSucc 0), (114604675, .ofNat 1), (131197850, .negSucc 0), (145240735, .negSucc 0), (150458965, .negSucc 0), (162578725, .ofNat 1), (171228715, .ofNat 1), (180021695, .negSucc 0), (186901505, .negSucc 0), (189230975, .ofNat 1), (205247665, .negSucc 0), (237205025, .ofNat 1), (252627130, .negSucc 0), (290509525, .ofNat 1), (371616530, .negSucc 0), (559388645, .ofNat 1), (606037775, .ofNat 2), (903339325, .ofNat 2), (1251269833, .ofNat 1), (1516597190, .negSucc 0), (1594477870, .ofNat 1), (1655413330, .ofNat 1), (1817907890, .ofNat 1), (2475546955, .ofNat 1), (2673427015, .ofNat 1), (2769478285, .ofNat 1), (2794032745, .negSucc 0), (5367763150, .negSucc 1), (8001005450, .negSucc 1), (10207727585, .negSucc 0), (15146370505, .negSucc 0), (18684258950, .ofNat 1), (21926273030, .negSucc 0), (25636541350, .negSucc 0), (30850753150, .ofNat 1), (36064964950, .negSucc 0), (41372287675, .negSucc 0), (56766627275, .ofNat 1), (61813566115, .negSucc 0), (64987831895, .ofNat 1), (67471443305, .ofNat 1), (68312381975, .negSucc 0), (74094407065, .ofNat 1), (79858136675, .ofNat 1), (91198393930, .ofNat 1), (104645571730, .negSucc 0), (109366424590, .negSucc 0), (201939300845, .negSucc 0), (218779636775, .negSucc 1), (326105496325, .negSucc 1), (893672450755, .negSucc 0), (1008645820945, .ofNat 1), (1024031666215, .negSucc 0), (3242966511050, .negSucc 0), (3883705515550, .negSucc 0), (4783279823350, .negSucc 0), (7180854417325, .ofNat 1), (8599633641575, .ofNat 1), (10591548180275, .ofNat 1), (29867474012075, .negSucc 1), (36364336176175, .negSucc 1), (264540484106950, .ofNat 2), (322084120417550, .ofNat 2), (1100308622765450, .negSucc 0), (1170710910489050, .ofNat 1), (1361962116065950, .negSucc 0), (1402017691113550, .ofNat 1), (2436397664694925, .ofNat 1), (2592288444654325, .negSucc 0), (3015773257003175, .ofNat 1), (3104467744608575, .negSucc 0), (10782158118359075, .ofNat 2), (13127525359599175, .ofNat 2)]) .nil))) .nil)

def upr7 : Tr := .node (.leaf [(30898210385, .negSucc 1), (31048178105, .ofNat 2), (33131815955, .negSucc 1), (33292624715, .ofNat 2), (44387550830, .ofNat 1), (44529688910, .negSucc 0), (45767474690, .ofNat 1), (45892213570, .ofNat 1), (46039169890, .negSucc 0), (47318914510, .ofNat 1), (49966470470, .negSucc 0), (51660249130, .negSucc 0), (62443503710, .ofNat 1), (62643460670, .negSucc 0), (64384752530, .ofNat 1), (66242485190, .negSucc 0), (66957491930, .ofNat 1), (67171903610, .negSucc 0), (69039071990, .ofNat 1), (70291814390, .negSucc 0), (71970669890, .ofNat 1), (73907100470, .ofNat 1), (74028761030, .negSucc 0), (75373150370, .negSucc 0), (75985468370, .ofNat 1), (76228789490, .negSucc 0), (78347710910, .ofNat 1), (85535822330, .negSucc 0), (98286719695, .negSucc 0), (98601454015, .ofNat 1), (101342265385, .negSucc 0), (101618472905, .negSucc 0), (101943876185, .ofNat 1), (104777596415, .negSucc 0), (110640041755, .ofNat 1), (114390551645, .ofNat 1), (138267758215, .negSucc 0), (138710520055, .ofNat 1), (142566237745, .negSucc 0), (146679788635, .ofNat 1), (148263017845, .negSucc 0), (148737786565, .ofNat 1), (152872230835, .negSucc 0), (155646160435, .ofNat 1), (159363626185, .negSucc 0), (163651436755, .negSucc 0), (163920827995, .ofNat 1), (166897690105, .ofNat 1), (168253537105, .negSucc 0), (168792319585, .ofNat 1), (173484217015, .negSucc 0), (189400749445, .ofNat 1), (273669863410, .ofNat 2), (274998148930, .negSucc 1), (293453227030, .ofNat 2), (294877533190, .negSucc 1), (378798844795, .ofNat 3), (380011836715, .negSucc 2), (390574974685, .ofNat 3), (426408777655, .negSucc 2), (564624693185, .ofNat 3), (566432737745, .negSucc 2), (582177792455, .ofNat 3), (635590442165, .negSucc 2), (666687982135, .ofNat 1), (690556388725, .ofNat 2), (693908076925, .negSucc 1), (724338474685, .negSucc 0), (743827402255, .negSucc 0), (745051837495, .ofNat 1), (764744837605, .negSucc 0), (767193708085, .ofNat 1), (788519288515, .negSucc 0), (860863003945, .ofNat 1), (1117547320190, .negSucc 3), (1122971453870, .ofNat 4), (1394142143275, .negSucc 1), (1395574691350, .ofNat 1), (1400043608950, .negSucc 0), (1400908759075, .ofNat 2), (1438960433050, .ofNat 1), (1570979707150, .negSucc 0), (1671003205907, .negSucc 0), (1676354102339, .ofNat 1), (1722951492101, .negSucc 0), (1731039249233, .negSucc 0), (1736582393441, .ofNat 1), (1784853940919, .negSucc 0), (1881025890863, .ofNat 1), (1948607659397, .ofNat 1), (2080196238050, .ofNat 1), (2086857454850, .negSucc 0), (2144865551150, .ofNat 1), (2341648997450, .negSucc 0), (2456218881550, .ofNat 1), (2474569066135, .ofNat 2), (2486579647855, .negSucc 1), (2668615433050, .negSucc 0), (2740416745150, .negSucc 0), (2744927822350, .ofNat 1), (2817480980650, .negSucc 0), (2826503135050, .ofNat 1), (2905071062950, .negSucc 0), (3090201102275, .negSucc 0), (3100096562675, .ofNat 1), (3171600540850, .ofNat 1), (3186269530325, .negSucc 0), (3307374221018, .ofNat 2), (3323426910314, .negSucc 1), (3355075482470, .negSucc 1), (3365819125190, .ofNat 2), (3426202037342, .ofNat 2), (3442831469966, .negSucc 1), (3459378347210, .negSucc 1), (3478597922975, .ofNat 1), (3776763459230, .ofNat 2), (4606148812825, .negSucc 0), (4620898650025, .ofNat 1), (4749345148975, .negSucc 0), (5000961568210, .negSucc 1), (5016975677170, .ofNat 2), (5156431876030, .negSucc 1), (5185079922925, .ofNat 1), (5438770380575, .negSucc 0), (5629515344890, .ofNat 2), (5909077030325, .ofNat 1), (6068065649975, .ofNat 1), (6078054463775, .negSucc 0), (6116356585850, .negSucc 3), (6146042967050, .ofNat 4), (6238707885725, .ofNat 1), (6258685513325, .negSucc 0), (6432657353675, .ofNat 1), (7022829769025, .negSucc 0), (9116833401550, .negSucc 1), (9161082913150, .ofNat 2), (10756457762575, .ofNat 1), (10790902155775, .negSucc 0), (11090855413225, .ofNat 1), (11154253948985, .ofNat 4), (11208392295905, .negSucc 3), (11678439856510, .ofNat 2), (11715836626270, .negSucc 1), (11960585559755, .ofNat 4), (12018637522115, .negSucc 3), (12041500162930, .ofNat 2), (12108400195675, .negSucc 0), (12348116126150, .ofNat 4), (12408049008950, .negSucc 3), (13146263069590, .negSucc 1), (13543361011525, .ofNat 2), (13609095141325, .negSucc 1), (14758860650975, .negSucc 0), (14806121562575, .ofNat 1), (15217685334425, .negSucc 0), (16023905849630, .negSucc 1), (16075217696510, .ofNat 2), (16522058363090, .negSucc 1), (16613851431275, .ofNat 1), (17760662817275, .ofNat 1), (17817536117675, .negSucc 0), (18037895839670, .ofNat 2), (18312807775325, .ofNat 1), (19283005344470, .ofNat 2), (19344753499190, .negSucc 1), (19609195566625, .ofNat 2), (19704370863625, .negSucc 1), (19882477013210, .ofNat 2), (19992939857975, .negSucc 0), (20187273960575, .ofNat 2), (20285255021975, .negSucc 1), (20762464983575, .negSucc 0), (20828950672775, .ofNat 1), (21289983758050, .ofNat 4), (21393316937650, .negSucc 3), (21407930216225, .negSucc 0), (21706620417230, .negSucc 1), (22542104839310, .negSucc 1), (22614289301870, .ofNat 2), (23242895663330, .negSucc 1), (23372028284675, .ofNat 1), (25375344994790, .ofNat 2), (25859402539415, .negSucc 0), (25942209672455, .ofNat 1), (26615271704525, .ofNat 2), (26663321789345, .negSucc 0), (26744451730325, .negSucc 1), (27342257136475, .negSucc 1), (27474965662675, .ofNat 2), (27817696036375, .ofNat 2), (27952712155375, .negSucc 1), (29109582511235, .ofNat 1), (29211838179650, .negSucc 1), (29353620914450, .ofNat 2), (30202069982350, .ofNat 2), (30348658911550, .negSucc 1), (32365019162819, .ofNat 2), (32377974075125, .ofNat 2), (32522106193787, .negSucc 1), (32535123984125, .negSucc 1), (35153228995850, .ofNat 4), (35323848897050, .negSucc 3), (35481505809895, .ofNat 1), (35595124899415, .negSucc 0), (36085574162050, .negSucc 0), (36201127602850, .ofNat 1), (36584557803985, .ofNat 1), (37207405483150, .negSucc 0), (39941055073555, .negSucc 0), (40586474544875, .ofNat 2), (40621046713450, .ofNat 1), (40783465275875, .negSucc 1), (42698083262755, .negSucc 0), (42834811319635, .ofNat 1), (44025484814965, .negSucc 0), (44065315220150, .ofNat 4), (44279190870950, .negSucc 3), (47142106892825, .negSucc 5), (47370916076225, .ofNat 6), (48064659495295, .ofNat 1), (49707030622375, .ofNat 2), (49914660715615, .ofNat 1), (49948288933375, .negSucc 1), (50074497739855, .negSucc 0), (51466411825945, .ofNat 1), (53787931298150, .negSucc 0), (53960171332550, .ofNat 1), (53967633247150, .ofNat 2), (54229570841950, .negSucc 1), (55460094965450, .negSucc 0), (56188263917035, .negSucc 0), (60244062949805, .ofNat 1), (60436976847485, .negSucc 0), (60548352648350, .ofNat 1), (62116935373115, .ofNat 1), (63510802508650, .negSucc 0), (64683355969225, .ofNat 4), (64997303453425, .negSucc 3), (65407839774074, .negSucc 0), (65617289148698, .ofNat 1), (66876012103775, .negSucc 1), (67200601875575, .ofNat 2), (67441244119382, .negSucc 0), (67815933433745, .negSucc 0), (69002770483150, .ofNat 1), (70859347267450, .ofNat 1), (70975990835050, .negSucc 0), (72852008213950, .ofNat 1), (73085295349150, .negSucc 0), (73628727728066, .ofNat 1), (75116837484850, .ofNat 1), (77839292776525, .negSucc 5), (78217093986325, .ofNat 6), (79903771358825, .ofNat 1), (80159639692025, .negSucc 0), (82008528270550, .negSucc 0), (82387826426975, .ofNat 1), (89946603436925, .negSucc 0), (90995229583825, .ofNat 2), (91436884519225, .negSucc 1), (95271483039950, .negSucc 0), (95576561951150, .ofNat 1), (97573197987475, .negSucc 3), (98046779785675, .ofNat 4), (98233290802850, .negSucc 0), (107245830304550, .ofNat 1), (119101847874475, .ofNat 1), (119239544284070, .negSucc 1), (119483236522075, .negSucc 0), (119499759332975, .negSucc 1), (119818285977110, .ofNat 2), (120079764007175, .ofNat 2), (122804495994925, .ofNat 1), (130721337194350, .ofNat 1), (131139933839950, .negSucc 0), (134071352292775, .negSucc 0), (134785212962050, .ofNat 1), (136746382970995, .negSucc 3), (137184273054115, .ofNat 4), (140631062697725, .ofNat 1), (140997565861285, .negSucc 3), (147151255534150, .negSucc 0), (152791848926975, .negSucc 0), (153933568733455, .ofNat 4), (156902840377925, .negSucc 0), (157161122563325, .ofNat 1), (157308727810150, .negSucc 0), (157812462756550, .ofNat 1), (161315161045175, .negSucc 0), (161831725415975, .ofNat 1), (162199154581450, .negSucc 0), (166330140145025, .negSucc 0), (173681446447250, .negSucc 3), (174524427649250, .ofNat 4), (177080324456350, .ofNat 1), (181590312599075, .ofNat 1), (183896118425950, .ofNat 1), (184359554549870, .ofNat 1), (184484991673150, .negSucc 0), (184949911814990, .negSucc 0), (189613096200850, .ofNat 1), (190090939665410, .ofNat 1), (203829514239785, .negSucc 3), (204482218325945, .ofNat 4), (207009393378550, .negSucc 0), (207531077205830, .negSucc 0), (210166183076255, .negSucc 3), (229448149621565, .ofNat 4), (235735263668650, .negSucc 1), (236879429611450, .ofNat 2), (246385307750750, .negSucc 3), (247581164804750, .ofNat 4), (249290856329725, .negSucc 9), (250500815769925, .ofNat 10), (264030419486155, .ofNat 2), (265311918949315, .negSucc 1), (278131265003725, .negSucc 0), (279021898599325, .ofNat 1), (286776341808250, .negSucc 3), (286777832827675, .negSucc 0), (288168241002250, .ofNat 4), (313088633631025, .ofNat 1), (359480203111750, .negSucc 3), (361224978157750, .ofNat 4), (371584483963175, .negSucc 7), (373388008411775, .ofNat 8), (381621968260925, .ofNat 1), (382844000403725, .negSucc 0), (384580345704625, .ofNat 2), (386446946937625, .negSucc 1), (393485863647275, .ofNat 1), (408224727931855, .negSucc 0), (409531947590335, .ofNat 1), (417544375336450, .ofNat 2), (419570970960850, .negSucc 1), (420915652116265, .negSucc 0), (429586729865825, .negSucc 0), (440262271226750, .negSucc 3), (442399130552750, .ofNat 4), (459239995703825, .negSucc 0), (459533099527195, .ofNat 1), (460710576757025, .ofNat 1), (473516886761975, .negSucc 0), (503285313722275, .ofNat 2), (503802463577350, .negSucc 1), (505415742830950, .ofNat 2), (505728062026075, .negSucc 1), (507037771079875, .negSucc 1), (509498732330875, .ofNat 2), (516960302041925, .ofNat 1), (519464716331050, .negSucc 1), (533590271841130, .negSucc 0), (535298937792010, .ofNat 1), (536858023146725, .ofNat 1), (538577153110325, .negSucc 0), (545567467162375, .ofNat 2), (548215436353375, .negSucc 1), (550178570447590, .negSucc 0), (553547909876675, .ofNat 1), (567123674281150, .ofNat 2), (572909724298850, .negSucc 1), (575690402016050, .ofNat 2), (600655410413170, .ofNat 1), (604333874218025, .negSucc 0), (630445638114341, .ofNat 1), (632464454896757, .negSucc 0), (635004756861125, .ofNat 2), (638086819362125, .negSucc 1), (650044984376963, .ofNat 1), (655914068231870, .negSucc 0), (689433736020650, .ofNat 2), (692779975307450, .negSucc 1), (709684196824169, .negSucc 0), (712632908404970, .ofNat 1), (719286140369125, .negSucc 1), (722777271446125, .ofNat 2), (731806888003310, .ofNat 1), (733011535936190, .negSucc 0), (750950841936050, .negSucc 1), (752386290190010, .ofNat 2), (753355541200850, .ofNat 2), (754795586055770, .negSucc 1), (774296463965150, .negSucc 1), (775776537553430, .ofNat 2), (795991878318875, .ofNat 2), (799855308777875, .negSucc 1), (805957747742450, .negSucc 1), (809869548598850, .ofNat 2), (837201901085375, .negSucc 1), (841265348732375, .ofNat 2), (845335288079450, .ofNat 2), (846951152921090, .negSucc 1), (901867010095310, .negSucc 0), (904754974013870, .ofNat 1), (918439997004250, .negSucc 3), (922897742310250, .ofNat 4), (929904326471330, .negSucc 0), (974866457716375, .ofNat 2), (979598074795375, .negSucc 1), (1015219593898790, .ofNat 1), (1049450270374625, .negSucc 1), (1054543887847625, .ofNat 2), (1062589455140150, .negSucc 1), (1067746845030950, .ofNat 2), (1115562597921275, .ofNat 2), (1119134859125675, .negSucc 1), (1139403150692450, .negSucc 1), (1144933363948850, .ofNat 2), (1149312541803755, .ofNat 6), (1150243300447325, .ofNat 2), (1154890851334115, .negSucc 5), (1166844111922685, .negSucc 1), (1172507512776005, .ofNat 2), (1255773850193975, .negSucc 1), (1285281791807125, .negSucc 1), (1291520042420125, .ofNat 2), (1357566534371915, .ofNat 1), (1361913742024955, .negSucc 0), (1368995467232750, .negSucc 3), (1375640030990750, .ofNat 4), (1399770675336845, .ofNat 1), (1452381151084855, .ofNat 1), (1528194434753735, .negSucc 0), (1577972868611005, .negSucc 0), (1620429537721615, .negSucc 0), (1623096972430135, .ofNat 1), (1662819721429825, .ofNat 2), (1665998213992165, .negSucc 1), (1668144412659025, .negSucc 1), (1671333083409205, .ofNat 2), (1714513598779975, .ofNat 2), (1717790904582595, .negSucc 1), (1871813852175925, .negSucc 1), (1875391838610985, .ofNat 2), (1905093368676610, .ofNat 1), (1911193870023970, .negSucc 0), (1964319069257230, .ofNat 1), (1996991236639615, .ofNat 1), (2003386013887855, .negSucc 0), (2033688564795125, .ofNat 8), (2043559286544125, .negSucc 7), (2059073865757945, .ofNat 1), (2139323841246725, .negSucc 0), (2144538046560490, .negSucc 0), (2146174396810325, .ofNat 1), (2205831318176675, .negSucc 0), (2208004727491850, .ofNat 12), (2218721511105050, .negSucc 11), (2247986243633035, .negSucc 0), (2322694456210730, .negSucc 1), (2330132202251210, .ofNat 2), (2352876650667475, .ofNat 2), (2358124749749510, .ofNat 1), (2364296585425675, .negSucc 1), (2365675950887270, .negSucc 0), (2394902574020390, .negSucc 1), (2408208147118025, .ofNat 1), (2431434327461930, .ofNat 1), (2463448347175850, .ofNat 1), (2471336816165450, .negSucc 0), (2522964119390425, .ofNat 2), (2535209591601025, .negSucc 1), (2540032233616550, .ofNat 1), (2614625988299570, .ofNat 2), (2654509394406590, .negSucc 0), (2676838494676010, .negSucc 0), (2773070755017650, .negSucc 0), (2908312680247310, .ofNat 1), (2986563245635130, .ofNat 1), (2991479511523370, .negSucc 0), (3031347106015375, .ofNat 8), (3046060068622375, .negSucc 7), (3070549454559230, .ofNat 1), (3080381986335710, .negSucc 0), (3166006950555890, .ofNat 1), (3291176857959550, .ofNat 12), (3307150931647150, .negSucc 11), (3380080290311050, .negSucc 0), (3390904003575850, .ofNat 1), (3456476326786070, .negSucc 0), (3485160506590150, .negSucc 0), (3680592392551130, .negSucc 0), (3692378407462010, .ofNat 1), (3795014953977590, .negSucc 0), (3804911035954450, .ofNat 1), (3883081252289575, .negSucc 0), (3895515678234775, .ofNat 1), (4003798804174225, .negSucc 0), (4067554247662450, .ofNat 1), (4080579394133650, .negSucc 0), (4143193477803170, .ofNat 1), (4194006711320350, .ofNat 1), (4218421030641065, .negSucc 0), (4231929283624505, .ofNat 1), (4234309364540150, .ofNat 2), (4254861031230950, .negSucc 1), (4349563653355295, .negSucc 0), (4371132470638675, .ofNat 1), (4490905972421750, .ofNat 4), (4512703057787750, .negSucc 3), (4578791246657050, .negSucc 0), (4748619960241085, .ofNat 1), (4755028205013850, .negSucc 0), (4770254784691450, .ofNat 1), (4889153325160525, .negSucc 3), (4902852916050550, .negSucc 0), (4912883346018325, .ofNat 4), (5143109153038045, .ofNat 1), (5159578447841965, .negSucc 0), (5221561945873915, .negSucc 0), (5238282462678955, .ofNat 1), (5302998556759435, .ofNat 1), (5327948695001975, .ofNat 1), (5345009884089575, .negSucc 0), (5352671457359650, .ofNat 1), (5383890296522845, .negSucc 0), (5493584405727425, .ofNat 1), (5789528974091905, .negSucc 0), (5877842230471735, .ofNat 1), (5927285238211165, .ofNat 1), (5997600366690275, .negSucc 0), (6370820100412250, .ofNat 4), (6401741547094250, .negSucc 3), (6411599277036275, .negSucc 0), (6432130538480675, .ofNat 1), (6439835220547615, .negSucc 0), (6610923606892325, .negSucc 0), (6613104329620645, .negSucc 0), (6623990346944605, .ofNat 1), (6799073792238295, .negSucc 0), (6820845826886215, .ofNat 1), (7010443961945185, .negSucc 0), (7052998634198405, .ofNat 1), (7075583788489685, .negSucc 0), (7078919599551625, .negSucc 3), (7113277881768625, .ofNat 4), (7217451288728975, .ofNat 1), (7272262840442915, .ofNat 1), (7287605899767575, .negSucc 3), (7322977062932975, .ofNat 4), (7415216838184750, .ofNat 4), (7451207374486750, .negSucc 3), (7495249859070575, .ofNat 1), (7519251192871775, .negSucc 0), (7653626152169155, .ofNat 1), (7685684136656050, .negSucc 3), (7722987414491650, .ofNat 4), (7728262808057225, .ofNat 1), (7939465940131145, .negSucc 0), (8149883154934645, .ofNat 1), (8175980759380165, .negSucc 0), (8403247398093235, .ofNat 1), (8437302210767675, .negSucc 0), (9174214129421305, .negSucc 0), (9295130966175250, .ofNat 4), (9340245863793250, .negSucc 3), (9375970735767475, .negSucc 1), (9421477997725675, .ofNat 2), (9608113085333525, .negSucc 1), (9654747074647325, .ofNat 2), (9712936194733625, .ofNat 2), (9760078954054625, .negSucc 1), (9944148938933875, .negSucc 1), (9992413913672875, .ofNat 2), (10042188269131375, .negSucc 1), (10090929088090375, .ofNat 2), (10179625370261830, .negSucc 3), (10229033254673590, .ofNat 4), (10334904991315210, .ofNat 2), (10385066541730330, .negSucc 1), (10545473582853650, .ofNat 4), (10596657150116450, .negSucc 3), (11383924441720250, .ofNat 4), (11439177518578250, .negSucc 3), (11688448641120125, .negSucc 3), (11745179758269125, .ofNat 4), (12024160733008390, .negSucc 0), (12062664572221030, .ofNat 1), (12397968838697770, .negSucc 0), (12690315667501850, .negSucc 3), (12751909451835050, .ofNat 4), (12857729988987275, .ofNat 2), (12920136336371075, .negSucc 1), (13026892272500050, .ofNat 2), (13068607064628850, .negSucc 1), (13431873379417150, .ofNat 2), (13535436422104510, .ofNat 1), (13663961087506625, .ofNat 2), (13730280562483625, .negSucc 1), (14106815936627125, .negSucc 1), (14175284854280125, .ofNat 2), (14651717310699875, .negSucc 1), (14664197863555450, .negSucc 1), (14722830964590875, .ofNat 2), (14835157752150050, .ofNat 4), (14907161753553650, .negSucc 3), (16419408713123375, .negSucc 1), (16499102043506375, .ofNat 2), (17018300588309825, .ofNat 6), (17100900703517225, .negSucc 5), (17944238054677375, .negSucc 1), (18012670145328250, .negSucc 3), (18031332304948375, .ofNat 2), (18100096537962250, .ofNat 4), (18668414939512135, .negSucc 2), (18728195049171895, .ofNat 3), (18948296879613850, .ofNat 1), (19008973228891450, .negSucc 0), (19248780170792305, .negSucc 2), (19417443198632150, .ofNat 2), (19479621851050550, .negSucc 1), (19537363103850550, .ofNat 1), (20021094282527450, .ofNat 2), (20582075710816625, .negSucc 1), (20681972984113625, .ofNat 2), (21014784243657715, .ofNat 3), (21329843588759650, .negSucc 0), (21748106724879605, .negSucc 1), (21817748641942085, .ofNat 2), (21857955306054350, .negSucc 1), (22424213669694515, .negSucc 1), (22729224321490715, .negSucc 2), (22802007979172555, .ofNat 3), (23350691504890225, .negSucc 5), (23435832331485245, .negSucc 2), (23464026546686425, .ofNat 6), (23748234208252750, .ofNat 4), (23863498765450750, .negSucc 3), (24481551969581945, .ofNat 2), (25093144961681405, .negSucc 0), (25207261263809125, .negSucc 1), (25329607362566125, .ofNat 2), (25585982885502935, .ofNat 3), (25984731810204650, .ofNat 1), (26067940273383050, .negSucc 0), (26792547306894950, .ofNat 1), (26849074367564750, .negSucc 3), (26979389179226750, .ofNat 4), (27263023833709055, .ofNat 1), (27996558107261765, .ofNat 1), (28042644030207485, .negSucc 0), (28099984692325525, .ofNat 6), (28236370929063325, .negSucc 5), (28783859290917815, .ofNat 1), (28845261460535825, .negSucc 1), (28876031136809255, .negSucc 0), (28937629928821025, .ofNat 2), (29250663989956850, .negSucc 0), (29678694294780545, .ofNat 1), (29742005340137975, .negSucc 1), (32401604242156835, .negSucc 0), (32470723840729925, .ofNat 2), (32849277879760825, .negSucc 5), (33008715311440225, .ofNat 6), (34032820799192425, .negSucc 1), (34198002681147025, .ofNat 2), (34502506832159765, .negSucc 0), (34612990965314405, .ofNat 1), (35398311367018250, .ofNat 4), (35570120801332250, .negSucc 3), (35575123624869395, .negSucc 0), (38839009058479385, .ofNat 1), (39647148474453275, .ofNat 2), (39839580087389075, .negSucc 1), (42995767082685475, .negSucc 1), (43045475486549270, .ofNat 6), (43133448384469075, .ofNat 2), (43254401237736710, .negSucc 5), (44332423054167925, .negSucc 1), (44987376636318410, .ofNat 4), (45205727609363930, .negSucc 3), (48399758177691775, .ofNat 2), (49011358740907325, .negSucc 0), (49168303206176525, .ofNat 1), (50535027924562475, .negSucc 0), (52473438603704825, .ofNat 2), (52585375746845375, .negSucc 7), (52728123967352225, .negSucc 1), (52840604409212375, .ofNat 8), (53212332347270810, .negSucc 1), (53382729195277370, .ofNat 2), (54866601746667830, .negSucc 1), (55171429002723425, .ofNat 1), (55316802180808175, .ofNat 1), (55493937974666975, .negSucc 0), (57036495512854025, .ofNat 1), (57537620436881725, .negSucc 0), (57721867748205325, .ofNat 1), (59326354750981675, .negSucc 0), (59900408631528290, .ofNat 2), (62269382089766075, .negSucc 0), (62699002167457250, .ofNat 4), (63003318381379250, .negSucc 3), (64769327406333025, .ofNat 1), (68778370829781550, .negSucc 0), (68998613339054350, .ofNat 1), (70916558523971650, .negSucc 0), (77422889318738950, .ofNat 1), (78381975169826125, .negSucc 7), (78762410345807125, .ofNat 8), (80124603723240650, .negSucc 0), (80381179207155050, .ofNat 1), (82615524046242950, .negSucc 0), (83739247500228950, .negSucc 0), (84007397818004150, .ofNat 1), (86028863439069250, .negSucc 3), (86342540168629850, .negSucc 0), (86446413593055250, .ofNat 4), (89993999135030725, .ofNat 8), (90195191466880850, .ofNat 1), (90430794492942925, .negSucc 7), (92448428806194650, .negSucc 0), (94264147472905550, .ofNat 1), (95314981434501955, .negSucc 3), (95777602740702715, .ofNat 4), (99614905408990765, .negSucc 1), (100098396849305845, .ofNat 2), (100405386666344725, .ofNat 1), (100442719387349150, .ofNat 1), (100726905394356325, .negSucc 0), (103145214079385450, .ofNat 1), (103315004321817050, .negSucc 0), (103526259392778250, .ofNat 4), (103526797650790675, .ofNat 1), (104028735001812250, .negSucc 3), (106045797387591950, .ofNat 1), (106385377872455150, .negSucc 0), (109342557928138850, .ofNat 1), (109487142140252450, .negSucc 1), (110018549521828850, .ofNat 2), (113024996740800025, .negSucc 0), (113882751331030150, .negSucc 3), (114435493265000950, .ofNat 4), (117827307340385365, .ofNat 1), (118204614646685605, .negSucc 0), (119374331418472550, .negSucc 0), (121023655346487250, .negSucc 3), (121490332439050195, .ofNat 1), (121611056410569250, .ofNat 4), (127114498855325450, .negSucc 0), (127521545661684650, .ofNat 1), (131066244933729350, .negSucc 0), (132636619112669785, .negSucc 0), (134141998710706175, .ofNat 8), (134793071036650775, .negSucc 7), (137765530542193925, .negSucc 0), (138206684145744725, .ofNat 1), (138833504799369625, .negSucc 1), (139507347844482625, .ofNat 2), (142048396776666275, .negSucc 0), (143091086004924050, .ofNat 1), (152294963980230575, .ofNat 1), (152782643822191775, .negSucc 0), (155080809481562825, .ofNat 1), (157029522445937225, .ofNat 1), (165348818035678910, .ofNat 2), (165785638449080825, .ofNat 1), (165878299006951070, .negSucc 1), (166316518209286025, .negSucc 0), (170489195798446130, .ofNat 2), (170939596121072975, .ofNat 1), (171436397777207675, .negSucc 0), (177418765387175725, .ofNat 1), (177986896815843325, .negSucc 0), (182934374673823675, .ofNat 1), (183040635359834875, .ofNat 4), (183929042371445875, .negSucc 3), (185422619464792675, .ofNat 1), (186016380882723475, .negSucc 0), (186130946158111190, .negSucc 1), (186622669037134925, .negSucc 0), (190492483329367625, .ofNat 2), (191187053230537525, .ofNat 1), (191417058670336625, .negSucc 1), (193805746355967725, .negSucc 0), (194426352272827325, .ofNat 1), (199717923962379025, .negSucc 0), (199830795465479675, .negSucc 0), (201315986847489190, .ofNat 2), (201960642101242630, .negSucc 1), (204707235213716725, .ofNat 1), (207574514936012170, .ofNat 2), (208727755118576575, .negSucc 0), (218164528592707025, .ofNat 1), (222408878643415975, .negSucc 0), (226618705557311710, .negSucc 1), (228392974032924925, .negSucc 0), (228768938141166325, .ofNat 1), (229236717226866125, .negSucc 1), (230349341789727125, .ofNat 2), (234815694215382175, .negSucc 0), (235567622431864975, .ofNat 1), (242115663983736025, .negSucc 0), (242435814739130425, .ofNat 2), (243612502512621025, .negSucc 1), (251148778749540875, .negSucc 1), (252168949375852475, .ofNat 2), (252367755811983875, .ofNat 2), (253392877943930675, .negSucc 1), (259662296673254125, .ofNat 2), (260922594992051125, .negSucc 1), (264328876712332075, .ofNat 1), (267980951124364625, .ofNat 2), (269281624909117625, .negSucc 1), (281467818893934925, .ofNat 1), (282369136822301725, .negSucc 0), (290218113781829275, .ofNat 1), (301433555649990050, .ofNat 4), (302229886291820375, .ofNat 4), (302896595175873650, .negSucc 3), (303696790892387375, .negSucc 3), (316844547582331825, .negSucc 0), (331556838918534250, .ofNat 4), (333166084974000250, .negSucc 3), (351160457916586150, .negSucc 1), (352864852202588950, .ofNat 2), (353310993834099875, .negSucc 1), (355025825972790875, .ofNat 2), (367002283085755450, .ofNat 2), (368783567339547850, .negSucc 1), (378851547605239625, .ofNat 2), (380690343512992625, .negSucc 1), (414901827591155555, .negSucc 5), (416915597331615515, .ofNat 6), (421230724404089285, .ofNat 4), (423275212112137805, .negSucc 3), (434100605990893450, .ofNat 1), (435490685540420650, .negSucc 0), (447595961617553350, .ofNat 1), (463986726842372125, .ofNat 2), (464764741918528450, .negSucc 3), (465756185186344750, .ofNat 4), (466238735313665125, .negSucc 1), (467020526567976850, .ofNat 4), (468016781910166750, .negSucc 3), (488661228309836050, .negSucc 0), (489948819315729550, .negSucc 0), (490081518908261315, .negSucc 1), (491517736347050350, .ofNat 1), (491650860871008755, .ofNat 2), (494207363671022750, .ofNat 4), (496606051187660750, .negSucc 3), (505180388828135650, .negSucc 0), (505317213796601045, .negSucc 1), (551528812795070950, .ofNat 1), (551678190946098335, .ofNat 2), (633443545084972825, .negSucc 0), (635471961782970025, .ofNat 1), (653136090528028975, .negSucc 0), (667460016082120825, .negSucc 1), (670699603603720225, .ofNat 2), (671890922521005950, .negSucc 0), (673973877934355425, .ofNat 1), (674042455640333150, .ofNat 1), (676132081105930225, .negSucc 0), (687738706092256210, .negSucc 1), (689940987078653170, .ofNat 2), (692778723221140850, .negSucc 0), (694240351504174250, .ofNat 4), (694926433725060775, .ofNat 1), (697609920205720250, .negSucc 3), (709119184001860030, .negSucc 1), (713058900481362925, .ofNat 1), (731743067471585890, .ofNat 2), (734086259486438530, .negSucc 1), (734161571891040125, .negSucc 7), (737724902442429125, .ofNat 8), (754491556615780270, .ofNat 2), (756338597454598550, .ofNat 1), (758683352418666325, .negSucc 0), (772295906690067725, .ofNat 1), (774178234808336890, .ofNat 2), (774768957248527325, .negSucc 0), (784076479291712075, .negSucc 0), (786587253670017275, .ofNat 1), (796305105861779675, .ofNat 1), (807136323533228675, .ofNat 1), (808451913881091725, .negSucc 0), (809720940282295475, .negSucc 0), (812647912547029925, .negSucc 1), (816592184823284525, .ofNat 2), (823713354054552010, .negSucc 1), (832228644472085525, .ofNat 1), (851283034659573110, .negSucc 1), (854009018270304470, .ofNat 2), (869363141109607025, .negSucc 0), (876319436978933990, .ofNat 2), (877747792213756730, .negSucc 1), (879125592306492230, .negSucc 1), (882624373640191175, .ofNat 1), (903562528283978570, .ofNat 2), (908582530934100575, .negSucc 0), (958277891380778990, .ofNat 2), (986461033585594910, .negSucc 1), (1025161981982291825, .negSucc 1), (1029121928533884425, .ofNat 2), (1030137713688203225, .ofNat 2), (1034116880257663025, .negSucc 1), (1071409890943898975, .negSucc 1), (1076610091749325175, .ofNat 2), (1094316305271550375, .negSucc 7), (1099627684772677375, .ofNat 8), (1228665223340923375, .ofNat 2), (1234628679472906375, .negSucc 1), (1253758726541241550, .negSucc 1), (1259843976635233150, .ofNat 2), (1267293704586317975, .ofNat 1), (1271351840045421575, .negSucc 0), (1306691436335115425, .ofNat 1), (1333979385341573950, .ofNat 4), (1340453994856298350, .negSucc 3), (1426575521356134275, .negSucc 0), (1471422504177702125, .ofNat 2), (1478564208352755125, .negSucc 1), (1487758471296513175, .ofNat 1), (1492522580346451975, .negSucc 0), (1522849992061424465, .ofNat 1), (1527726471388446305, .negSucc 0), (1528585680598994150, .negSucc 1), (1534010029989669025, .ofNat 1), (1536004832274372950, .ofNat 2), (1570192478861261495, .ofNat 1), (1597544433107219450, .ofNat 4), (1605298283354419850, .negSucc 3), (1620288220829940185, .negSucc 0), (1621217056044251750, .negSucc 3), (1625476717434256745, .ofNat 1), (1629085803861377750, .ofNat 4), (1670659875363513455, .negSucc 0), (1674749751506611075, .negSucc 0), (1714251805647031685, .negSucc 0), (1778412160027208650, .ofNat 1), (1784107002052691050, .negSucc 0), (1805563490714646950, .negSucc 0), (1811345276893190150, .ofNat 1), (1812244916015368625, .ofNat 2), (1821040837680409625, .negSucc 1), (1823936712549365165, .ofNat 1), (1833699584691266950, .ofNat 1), (1861694998198003850, .negSucc 0), (1884983862460483315, .ofNat 1), (1891019969027102755, .negSucc 0), (1940421610453353835, .negSucc 0), (1943584397044747045, .ofNat 1), (1946635240107232795, .ofNat 1), (1967580194530971650, .ofNat 2), (1977130052338730450, .negSucc 1), (2000745598343095405, .negSucc 0), (2001934709527392850, .negSucc 0), (2032498598222467550, .ofNat 1), (2071793324843793950, .ofNat 1), (2078427633785009150, .negSucc 0), (2121901045200296335, .negSucc 0), (2136201407481424850, .ofNat 1), (2165257685363062850, .ofNat 1), (2172191286436964450, .negSucc 0), (2184306574368103015, .ofNat 1), (2224460611781647750, .ofNat 4), (2232571395788857550, .ofNat 1), (2235257265763285750, .negSucc 3), (2332189950786490550, .negSucc 0), (2390452230560175950, .ofNat 1), (2437401527513700650, .negSucc 0), (2555489975438136625, .ofNat 2), (2567893315318473625, .negSucc 1), (2597161744158599450, .negSucc 0), (2667040535481252350, .negSucc 0), (2671430826035555150, .ofNat 1), (2676893278584694750, .negSucc 3), (2689885862189716750, .ofNat 4), (2742041332450591850, .negSucc 0), (2750821913559197450, .ofNat 1), (2776180037341320575, .ofNat 4), (2789654519692301975, .negSucc 3), (2827286140713304550, .negSucc 0), (2953811496113485175, .negSucc 5), (2968148131467517775, .ofNat 6), (3086679140963361650, .ofNat 1), (3129325945387741750, .ofNat 4), (3144514458616147750, .negSucc 3), (3286817756116272350, .ofNat 1), (3297342823537845950, .negSucc 0), (3384725435612058475, .ofNat 2), (3388998619000716050, .ofNat 1), (3401153557178968675, .negSucc 1), (3436355909612307325, .ofNat 2), (3453034625125334725, .negSucc 1), (3506369966298838625, .negSucc 1), (3523388502413719625, .ofNat 2), (3537419816165985925, .negSucc 5), (3554589055999072525, .ofNat 6), (3589837766955128875, .ofNat 2), (3607261422835907875, .negSucc 1), (3699926652413036150, .negSucc 0), (3937912640060247725, .negSucc 0), (3950522647402387325, .ofNat 1), (3998033443725289675, .ofNat 1), (4010835970263492475, .negSucc 0), (4060334794673519675, .negSucc 0), (4122324638867008525, .ofNat 1), (4219529959444365125, .ofNat 2), (4240009892735154125, .negSucc 1), (4356784716461437225, .negSucc 1), (4377930830178617425, .ofNat 2), (4432855428239227025, .ofNat 1), (4500532610349749575, .negSucc 0), (4587542362154115175, .negSucc 0), (4602232617666805975, .ofNat 1), (4641640526024406275, .negSucc 1), (4664169217429958075, .ofNat 2), (4730160259423155025, .negSucc 0), (4794499160446782025, .negSucc 0), (4809852134253278425, .ofNat 1), (4925591354659362875, .negSucc 1), (4932689952589891625, .negSucc 1), (4943550947818184575, .negSucc 0), (4949498231332989875, .ofNat 2), (4956631283056588625, .ofNat 2), (5164134891027229075, .ofNat 1), (5293144224811818175, .negSucc 0), (5397103382351765725, .ofNat 1), (5610499970752616450, .ofNat 1), (5628465947220591650, .negSucc 0), (5750858147779755925, .ofNat 1), (5784919658962542350, .ofNat 1), (5905589757137058775, .ofNat 1), (5915311114793014975, .negSucc 0), (5927406545437538375, .ofNat 2), (5956175837705801375, .negSucc 1), (5969482918847148050, .negSucc 0), (5988598432652524850, .ofNat 1), (6071662950426310525, .ofNat 1), (6091105665738222925, .negSucc 0), (6155062698707681150, .negSucc 0), (6260419311579460075, .ofNat 1), (6315664547120643050, .negSucc 0), (6719766835708187450, .ofNat 1), (6739297793163880735, .ofNat 4), (6760878412751054095, .negSucc 3), (6834789526418872225, .negSucc 0), (6929221736215713875, .negSucc 1), (6944677388012306950, .ofNat 1), (6948809641656022105, .ofNat 4), (6962853444078612875, .ofNat 2), (6966915675363010150, .negSucc 0), (7148921722722882550, .negSucc 0), (7160574094375383850, .ofNat 1), (7171814042500331350, .ofNat 1), (7277953602828888775, .negSucc 0), (7301259109262373175, .ofNat 1), (7371167993895614650, .negSucc 0), (7504211227787299825, .negSucc 0), (7586337111960435115, .negSucc 3), (7817530166527407550, .negSucc 0), (8047445273987747950, .ofNat 1), (8192694730343151475, .ofNat 1), (8205249980058148115, .ofNat 4), (8231524880481292355, .negSucc 3), (8460335471666173445, .ofNat 4), (8573112549179242750, .negSucc 3), (8614723054327720750, .ofNat 4), (9080006126128870450, .ofNat 2), (9124076892666942850, .negSucc 1), (9236539821666559535, .negSucc 3), (9489630462645962350, .ofNat 2), (9535689384065451550, .negSucc 1), (10882463406733892750, .negSucc 3), (10935282589617170750, .ofNat 4), (11224601383478816350, .negSucc 0), (11260544868973733950, .ofNat 1), (11573552721825308050, .negSucc 0), (12285848308508465425, .ofNat 10), (12345478967894076025, .negSucc 9), (12635383189154332150, .ofNat 1), (12778790403493588250, .negSucc 3), (12840813609280942250, .ofNat 4), (13032599322716790250, .negSucc 3), (13095854416838688250, .ofNat 4), (14312620599277632275, .negSucc 1), (14382088411547456075, .ofNat 2), (14958302731575871325, .ofNat 8), (15030904430113506725, .negSucc 7), (16051312113278979250, .negSucc 3), (16129218848026485250, .ofNat 4), (16379040237197154475, .ofNat 1), (16431489297531082075, .negSucc 0), (16888233197939034925, .ofNat 1), (17427038843731190275, .negSucc 0), (17482843811453338675, .ofNat 1), (17693100505467544325, .ofNat 1), (17749757457429725525, .negSucc 0), (17968812072033714325, .negSucc 0), (18243145080767053475, .ofNat 1), (18437665855303812775, .negSucc 0), (18942911335937441825, .negSucc 1), (18983320644611180375, .ofNat 8), (19034852752214153225, .ofNat 2), (19075458191725667375, .negSucc 7), (19617383826825514975, .ofNat 1), (19916885869983156425, .negSucc 0), (19969365587271751175, .negSucc 0), (20033311608854777975, .ofNat 1), (20273977535971412225, .ofNat 1), (20338898987753303825, .negSucc 0), (20590174880140303025, .negSucc 0), (20870239222787770025, .negSucc 0), (20904256630353943175, .ofNat 1), (20937070027299354425, .ofNat 1), (21519054949921068575, .negSucc 0), (22479246934405553075, .ofNat 1), (22822144518410657525, .negSucc 0), (23493348299867457725, .ofNat 1), (24096883257767905375, .ofNat 2), (24213840019866592375, .negSucc 1), (24589023187880267950, .negSucc 1), (24708368602988960350, .ofNat 2), (24828991869551139550, .ofNat 2), (24908499415398620350, .negSucc 1), (25600877627153765650, .ofNat 2), (26162330394148011550, .ofNat 2), (26289312021569443150, .negSucc 1), (27949663044064760950, .negSucc 1), (28295893036307231125, .ofNat 8), (28433230134836372125, .negSucc 7), (28857898500301464125, .ofNat 2), (28997963351571381125, .negSucc 1), (30229868347582650950, .ofNat 2), (30326670612299498150, .negSucc 1), (30436295199423293450, .negSucc 1), (30584020965395821850, .ofNat 2), (31169657000875375850, .ofNat 2), (31331432657470161050, .ofNat 2), (31483503067420356650, .negSucc 1), (31769772203529590125, .negSucc 1), (31923970140656579125, .ofNat 2), (34029357237718903550, .negSucc 1), (35542191107974882625, .ofNat 2), (35714698877772931625, .negSucc 1), (38046781893737726375, .negSucc 1), (38231445958835525375, .ofNat 2), (39524858312631134450, .ofNat 2), (39716696377380214850, .negSucc 1), (40127769009021137150, .negSucc 1), (40322533364366811950, .ofNat 2), (45263651662925925250, .ofNat 4), (45483343565925543250, .negSucc 3), (46686713117050156850, .ofNat 1), (46836213588238202450, .negSucc 0), (46859475685540245875, .negSucc 1), (47086913088593448875, .ofNat 2), (48138113524834099550, .ofNat 1), (52554606611180946650, .negSucc 0), (54978481996863237575, .negSucc 1), (55109536379490052250, .ofNat 4), (55154534419811230775, .ofNat 2), (55377016321470814250, .negSucc 3), (56687657602983338225, .negSucc 1), (61888539597571970675, .ofNat 2), (66077669364900389875, .negSucc 1), (66398384296091960875, .ofNat 2), (66937565626790155675, .negSucc 1), (67151913498663174475, .ofNat 2), (69018526216224046525, .negSucc 1), (75350719597806143575, .ofNat 2), (87519329120826083425, .negSucc 1), (87944113407056190025, .ofNat 2), (88854345662832517975, .ofNat 2), (89285609592526512175, .negSucc 1), (90664709128584255875, .ofNat 2), (91104759848126178875, .negSucc 1), (100226657253621691625, .negSucc 7), (100713117895977988625, .ofNat 8), (103377721902039633025, .negSucc 0), (103708758659670305425, .ofNat 1), (106591537090704077575, .negSucc 0), (108817513589646408050, .negSucc 11), (109104988951347155375, .negSucc 1), (109345670858490387650, .ofNat 12), (109634541512151842375, .ofNat 2), (116370914639043524725, .ofNat 1), (122028259126013687125, .negSucc 7), (122620536140399660125, .ofNat 8), (127545268774110054875, .ofNat 2), (128164323176177505875, .negSucc 1), (132487824193957717450, .negSucc 11), (133130867809576773850, .ofNat 12), (145071499243746225350, .negSucc 0), (145536048063846726950, .ofNat 1), (149581494038888595050, .negSucc 0), (154353772615904828150, .ofNat 1), (154848045187158142550, .negSucc 0), (159152335495155755450, .ofNat 1), (163305040432690913150, .ofNat 1), (173753971037597418350, .negSucc 0), (179569515318603936850, .negSucc 0), (180144533891529262450, .ofNat 1), (184850690258977391650, .ofNat 1), (185151987297420639550, .negSucc 0), (185442620241794282050, .negSucc 0), (190597343842158035950, .ofNat 1), (202138994305922966650, .ofNat 1), (208083942084540339850, .negSucc 0), (228673119775675189825, .ofNat 1), (229405378203652179025, .negSucc 0), (235782128680618459975, .ofNat 1), (240953065805645617825, .ofNat 4), (242122556900943001225, .negSucc 3), (243304569934302308425, .negSucc 0), (244083681279240811225, .ofNat 1), (250868442574746939775, .negSucc 0), (257414263073772015925, .negSucc 0), (273884690223138543325, .ofNat 1), (281389410945547798250, .ofNat 4), (282755164102958272250, .negSucc 3), (283051609024308059075, .ofNat 1), (283957998574876236275, .negSucc 0), (291376212795495551675, .negSucc 0), (291851140911074112725, .ofNat 1), (292309259441908666475, .ofNat 1), (293365896429477802925, .ofNat 4), (294789778721205713525, .negSucc 3), (300434540654422874525, .negSucc 0), (318627398884109014175, .negSucc 0), (327998293667210307575, .ofNat 1), (336985782487391290750, .ofNat 4), (338621378492543224750, .negSucc 3), (370083475495607348825, .ofNat 2), (371879714641441364225, .negSucc 1), (386778970630747529975, .ofNat 2), (388656243121506388175, .negSucc 1), (415041070357642177750, .ofNat 4), (416874776574962815375, .ofNat 2), (417055515927541975750, .negSucc 3), (418898122231215022375, .negSucc 1), (443548145626073338375, .negSucc 3), (445700953289719201375, .ofNat 4), (452606900281388199550, .ofNat 4), (454803675565319167150, .negSucc 3), (457493027355660788975, .negSucc 0), (458958014256397188575, .ofNat 1), (471715608516976668425, .negSucc 0), (481566558108308195950, .negSucc 3), (483903892143123704350, .ofNat 4), (514993763209564473275, .ofNat 1), (516007637395009374125, .ofNat 2), (518512134837368811125, .negSucc 1), (531183524008150467125, .negSucc 3), (533761679215344600125, .ofNat 4), (560236863457438749050, .ofNat 4), (562956032109143280650, .negSucc 3), (576713540351706221450, .negSucc 3), (579512680290945565850, .ofNat 4), (623076552807998696125, .negSucc 1), (626100720513693317125, .ofNat 2), (642006789769822322650, .negSucc 1), (644062627741021469050, .ofNat 2), (654220414681548073625, .negSucc 1), (657395742402627874625, .ofNat 2), (661965550073547368950, .negSucc 1), (722698430139388818850, .ofNat 2), (746182804079223572375, .negSucc 1), (749804480947774283375, .ofNat 2), (781658024416065688850, .negSucc 1), (784161054403744166450, .ofNat 2), (805958273879777575550, .negSucc 1), (879901951432445934650, .ofNat 2), (887721821389220697250, .ofNat 4), (892030472792947899250, .negSucc 3), (919019512934779107875, .negSucc 1), (923480070982414374875, .ofNat 2), (1002200993480216727575, .negSucc 5), (1007065281608921012975, .ofNat 6), (1066325950096968148175, .ofNat 6), (1071501475459773916775, .negSucc 5), (1080821723687549800250, .ofNat 4), (1086067605814968418250, .negSucc 3), (1170388707284227495750, .negSucc 3), (1176069312204646189750, .ofNat 4), (1240524483370042944325, .negSucc 5), (1246545499670245835725, .ofNat 6), (1277008553635920918925, .ofNat 6), (1283206649215665181525, .negSucc 5), (1421586463061749428725, .ofNat 2), (1424975154955385636750, .negSucc 3), (1426138675712261824325, .negSucc 1), (1431891422026602482750, .ofNat 4), (1465780860877140602675, .ofNat 2), (1600260809594360956025, .negSucc 1), (1730814196921288311025, .ofNat 2), (1736356620465433511425, .negSucc 1), (1784621892162364631575, .ofNat 2), (1948354321028987426725, .negSucc 1), (2591574994700789454875, .ofNat 8), (2604153477024573705875, .negSucc 7), (3155302128829782481375, .ofNat 8), (3170616720201762640375, .negSucc 7), (3692319449663956364750, .negSucc 3), (3710240511190761626750, .ofNat 4), (3928569289830935282750, .ofNat 4), (3947637014851798640750, .negSucc 3), (4435191239371556018425, .negSucc 7), (4456717907409761445025, .ofNat 8), (4570353359784368742250, .negSucc 3), (4592536051416695184250, .ofNat 4), (4704768355500761280250, .ofNat 4), (4727603444478766458250, .negSucc 3), (5399947286098889548325, .negSucc 7), (5426156499270975927725, .ofNat 8), (5912833525628172765475, .negSucc 0), (5931767636408720629075, .ofNat 1), (6096652184455991607925, .negSucc 0), (6291161022586959689275, .ofNat 1), (6311306615934655261675, .negSucc 0), (6486741158004170871325, .ofNat 1), (6655997373764676411775, .ofNat 1), (7081875561484010905975, .negSucc 0), (7318905890485679813225, .negSucc 0), (7342342534578942680825, .ofNat 1), (7534156359426384979025, .ofNat 1), (7546436643557773486175, .negSucc 0), (7558282279855066947425, .negSucc 0), (7768378836921505755575, .ofNat 1), (8175850209970189093375, .ofNat 2), (8215532560493829316375, .negSucc 1), (8238794171146247366525, .ofNat 1), (8481098736252152238725, .negSucc 0), (8698974856054213840375, .negSucc 1), (8741196247171839847375, .ofNat 2), (10120068153808245072125, .ofNat 2), (10169186970994110765125, .negSucc 1), (10417701358608828549125, .negSucc 1), (10468264769917268586125, .ofNat 2), (10779190651438324226125, .negSucc 1), (10831508589121417007125, .ofNat 2), (11468887765474182035125, .ofNat 4), (11524553220777025064125, .negSucc 3), (13342483195499528102375, .negSucc 1), (13407242343651964973375, .ofNat 2), (13734888263639319221375, .ofNat 4), (13801551991139624660375, .negSucc 3), (16340178250316259015250, .negSucc 3), (16419487027299121113250, .ofNat 4), (16916270722480028760875, .ofNat 2), (16998375624982235043875, .negSucc 1), (19894542632995908862250, .negSucc 3), (19991102892050963944250, .ofNat 4), (22953949953064135171750, .negSucc 3), (23065359367931938537750, .ofNat 4), (27946961712492359120750, .negSucc 3), (28082605236072754814750, .ofNat 4), (36181823268557430676625, .ofNat 8), (36357435560448053893625, .negSucc 7), (44052201544490941052125, .ofNat 8), (44266013546684277305125, .negSucc 7), (95472831484168014574250, .ofNat 4), (95936218932218264920250, .negSucc 3), (101581577351342755168250, .negSucc 3), (102074614241167936282250, .ofNat 4), (118176279731567248906750, .ofNat 4), (118749860758060261192750, .negSucc 3), (121651867477948255960750, .negSucc 3), (122242317635808104134750, .ofNat 4), (150491794343561576350375, .negSucc 1), (151222222125468623077375, .ofNat 2), (160120880571012475153375, .ofNat 2), (160898044137588631696375, .negSucc 1), (186278757099598384059125, .negSucc 1), (187182880676290140816125, .ofNat 2), (191757252166942318632125, .ofNat 2), (192687966196739400645125, .negSucc 1), (211404126857800603700125, .negSucc 1), (212430199064197586609125, .ofNat 2), (224930635563687529301125, .ofNat 2), (226022360105443287482125, .negSucc 1), (261676047977041765436375, .negSucc 1), (262946120249990578355375, .ofNat 2), (269371992272599709627375, .ofNat 2), (270679417622146516298375, .negSucc 1), (422510323329606125965750, .ofNat 4), (424561021705877274499750, .negSucc 3), (514416030938894214866750, .ofNat 4), (516912803351603496272750, .negSucc 3), (935558573086984993209875, .negSucc 7), (940099405205871107820875, .ofNat 8), (1139064068507551475776375, .negSucc 7), (1144592635992836313175375, .ofNat 8), (3891287825169235045631125, .ofNat 2), (3910174600672831539572125, .negSucc 1), (4140268483336179714680125, .negSucc 1), (4160363712700506048149125, .ofNat 2), (4816636433575329644957375, .ofNat 2), (4840014486058359355388375, .negSucc 1), (4958294663173794238916375, .negSucc 1), (4982360268801404502395375, .ofNat 2)]) .nil

def upr8 : Tr := .node (.node .nil (.node (.node (.node (.leaf [(2, .ofNat 1)]) .nil) .nil) .nil)) (.node (.node .nil (.node (.node (.leaf [(7, .negSucc 0), (62, .ofNat 1), (2527, .ofNat 1)]) .nil) .nil)) (.node (.node (.node (.leaf [(47, .ofNat 1), (67, .ofNat 1), (73, .ofNat 1), (97, .ofNat 1), (103, .ofNat 1), (1503, .ofNat 1), (1557, .ofNat 1), (8183, .ofNat 1), (8477, .ofNat 1), (139278, .ofNat 2), (211589, .negSucc 1), (219191, .negSucc 1), (245051, .ofNat 1), (320306, .ofNat 2), (1000073, .ofNat 2), (1304103, .ofNat 2), (2532253, .ofNat 1), (2694277, .ofNat 1), (3087329, .negSucc 1), (3134423, .ofNat 1), (3226607, .ofNat 1), (3973979, .ofNat 1), (4081379, .ofNat 1), (5471087, .ofNat 1), (5667653, .ofNat 1), (8282198, .negSucc 1), (79829507, .ofNat 2)]) .nil) upr7) (.node (.node (.leaf [(1169, .negSucc 0), (1211, .negSucc 0), (6623, .ofNat 1), (27029, .ofNat 1), (28417, .negSucc 0), (29503, .negSucc 0), (32399, .negSucc 0), (39878, .negSucc 0), (45758, .negSucc 0), (390773, .ofNat 1), (441047, .ofNat 1)]) .nil) .nil)))

def upr9 : Tr := .node (.node (.node (.node (.node (.leaf [(1, .ofNat 1)]) (.leaf [(67464113710, .ofNat 1), (149384823215, .negSucc 0)])) .nil) .nil) (.node .nil (.node (.node (.leaf [(21, .ofNat 2), (543, .negSucc 1)]) .nil) (.node (.leaf [(2562055, .negSucc 0)]) .nil)))) (.node (.node (.node (.node .nil (.leaf [(14, .negSucc 0), (31, .ofNat 1)])) .nil) (.node (.node (.leaf [(19, .ofNat 4)]) .nil) .nil)) (.node (.node .nil (.node (.leaf [(133, .negSucc 0), (490, .negSucc 0), (1085, .ofNat 2), (1178, .ofNat 1), (9610, .negSucc 0), (12670, .ofNat 1), (28055, .negSucc 0), (48013, .ofNat 2), (162925, .ofNat 1), (176890, .ofNat 3), (391685, .negSucc 3), (1443050, .negSucc 1), (3195325, .ofNat 1), (4212775, .negSucc 1), (4573870, .negSucc 2), (10127855, .ofNat 2), (37313150, .ofNat 3), (58815925, .negSucc 0), (82621975, .negSucc 0), (108930325, .ofNat 1), (964811450, .negSucc 0), (1520811775, .ofNat 2), (39323847325, .negSucc 0)]) .nil)) .nil))

def upr10 : Tr := .node (.node .nil (.node (.node (.node (.leaf [(62, .ofNat 1), (114, .negSucc 0), (2527, .ofNat 1), (65341, .negSucc 0)]) .nil) .nil) .nil)) (.node (.node (.node (.node (.leaf [(21, .negSucc 0)]) .nil) .nil) .nil) .nil)

def upr11 : Tr := .node (.node .nil (.node (.node (.node (.leaf [(21, .negSucc 0)]) (.leaf [(2, .negSucc 0)])) .nil) .nil)) (.node (.node .nil (.node (.node (.leaf [(3, .negSucc 0)]) .nil) .nil)) (.node (.node (.node (.leaf [(1159, .ofNat 1)]) .nil) .nil) .nil))

def upr12 : Tr := .node (.node (.node (.node (.node (.leaf [(7, .ofNat 1), (62, .negSucc 0), (114, .ofNat 1), (181, .negSucc 0), (2527, .negSucc 0), (65341, .ofNat 1)]) .nil) .nil) (.node (.node (.leaf [(21, .negSucc 0)]) .nil) .nil)) .nil) (.node (.node .nil (.node (.node (.leaf [(6, .negSucc 0), (3439, .negSucc 0)]) .nil) .nil)) (.node (.node (.node .nil (.leaf [(4525381589, .negSucc 0), (4748545927, .ofNat 1)])) .nil) .nil))

def upr13 : Tr := .node (.node (.node (.node (.node (.leaf [(2, .ofNat 1)]) (.leaf [(226, .ofNat 1)])) .nil) .nil) (.node .nil (.node .nil (.node (.leaf [(133, .ofNat 1), (490, .ofNat 1), (1085, .negSucc 1), (1178, .negSucc 0), (9610, .ofNat 1), (48013, .negSucc 0), (176890, .negSucc 0), (391685, .ofNat 2)]) .nil)))) (.node (.node .nil (.node (.node (.leaf [(361, .ofNat 1)]) .nil) .nil)) .nil)

def upr14 : Tr := .node .nil (.leaf [(21546953647030, .ofNat 1), (22381430789270, .negSucc 0), (47711111646995, .negSucc 0), (49558882461955, .ofNat 1), (806609520641590, .ofNat 1), (837848145772310, .negSucc 0), (4186885501474645, .negSucc 0), (4349036509240805, .ofNat 1), (6240829332386735, .negSucc 0), (6482526117547615, .ofNat 1), (7146761639451295, .negSucc 0), (7399847816786015, .ofNat 1), (8452768842599755, .ofNat 1), (8780130311108795, .negSucc 0), (11416872617541610, .ofNat 1), (11453431795128970, .negSucc 0), (16858138981409231, .ofNat 1), (17511026246641279, .negSucc 0), (18469694910278717, .ofNat 1), (19133276763342623, .ofNat 1), (19184995016235853, .negSucc 0), (19874276274304207, .negSucc 0), (31120675759274815, .negSucc 0), (31220330572798255, .ofNat 1), (32238783870386485, .negSucc 0), (32342019096371845, .ofNat 1), (33788162252926942, .negSucc 0), (33896358907609534, .ofNat 1), (35002108202133898, .negSucc 0), (35114192161775146, .ofNat 1), (68046244406290010, .ofNat 1), (70491019654420190, .ofNat 1), (70681560586132090, .negSucc 0), (73221017852699710, .negSucc 0), (113951950113057715, .negSucc 0), (114316847727331555, .ofNat 1), (122189440482676345, .negSucc 0), (122580716237741065, .ofNat 1), (129082469988859810, .negSucc 0), (134081616152820290, .ofNat 1), (137526923269391095, .negSucc 0), (142853108854178855, .ofNat 1), (150673826899642165, .negSucc 0), (156087257806216135, .negSucc 0), (156509169869292485, .ofNat 1), (162132253816692215, .ofNat 1), (177113156496342530, .ofNat 1), (183972450070148770, .negSucc 0), (213136171376954570, .negSucc 0), (217498649232912950, .negSucc 0), (218195124704672150, .ofNat 1), (221390575508145130, .ofNat 1), (249159186257566610, .ofNat 1), (258808700946141490, .negSucc 0), (275640271010719790, .ofNat 1), (276522927930498830, .negSucc 0), (285543514280566010, .ofNat 1), (286457883425007770, .negSucc 0), (308544595423434650, .negSucc 0), (309532618767093050, .ofNat 1), (330641302046499361, .negSucc 0), (331700083595893297, .ofNat 1), (359125676640391150, .negSucc 0), (360275671023993550, .ofNat 1), (385517773056337670, .negSucc 0), (400448225630413030, .ofNat 1), (450171622830912850, .negSucc 0), (451613165086414450, .ofNat 1), (481604151872878675, .ofNat 1), (483146347560345475, .negSucc 0), (551333785264825850, .negSucc 0), (553099269600215450, .ofNat 1), (580313972291281655, .ofNat 1), (602788552834425895, .negSucc 0), (665881105975837955, .ofNat 1), (683205889866176725, .ofNat 1), (685393655841420325, .negSucc 0), (691669557164292595, .negSucc 0), (722956629345195494, .ofNat 1), (750955519206946246, .negSucc 0), (795206855418008975, .ofNat 1), (797753271553128575, .negSucc 0), (853646497481890555, .ofNat 1), (886706785324485995, .negSucc 0), (996808593411307025, .ofNat 1), (1000000579834203425, .negSucc 0), (1218152165434471330, .negSucc 0), (1220810524514971525, .ofNat 1), (1222052939563817410, .ofNat 1), (1224719811257619925, .negSucc 0), (1330239786000101690, .ofNat 1), (1377347178041676730, .negSucc 0), (1511465666032346845, .ofNat 2), (1570002179835930605, .negSucc 1), (1573329290040729410, .negSucc 0), (1634261677572766690, .ofNat 1), (1654123291097983930, .ofNat 1), (1717338193942492870, .ofNat 1), (1718184693906001370, .negSucc 0), (1783847803227249830, .negSucc 0), (1885911268194516710, .ofNat 1), (1958949428083912390, .negSucc 0), (2252939388991611335, .ofNat 2), (2340191928434689015, .negSucc 1), (2546757439273759775, .ofNat 2), (2554912681134940175, .negSucc 1), (2697336937747757945, .ofNat 1), (2705974366177024265, .negSucc 0), (2945530954714510885, .negSucc 0), (3049840179949427045, .ofNat 1), (3483800570804472265, .ofNat 1), (3618722286053983385, .negSucc 0), (3662701573145535845, .negSucc 0), (3796110145332585325, .ofNat 2), (3802677429444091355, .negSucc 0), (3804551822220431605, .ofNat 1), (3808266071880382525, .negSucc 1), (3949948707146053195, .ofNat 1), (4175946379573572715, .negSucc 0), (4337673733614377435, .ofNat 1), (5139923754579923230, .negSucc 0), (5338984325104915070, .ofNat 1), (5897804081500279030, .negSucc 0), (6126216077740877270, .ofNat 1), (6968352036863727371, .negSucc 0), (7238224548268412539, .ofNat 1), (11234563949098208215, .ofNat 1), (11270539336780170055, .negSucc 0), (11638200977209521085, .ofNat 1), (11675468893790236045, .negSucc 0), (11741386382892112345, .negSucc 1), (11778984720394313065, .ofNat 2), (22556994462139015150, .negSucc 1), (22629226604338041550, .ofNat 2), (22746479953275591170, .negSucc 0), (23627412724486394530, .ofNat 1), (24850884526216125475, .negSucc 0), (24930462176859349075, .ofNat 1), (33622689858660041450, .negSucc 1), (33730356636654816650, .ofNat 2), (38326882535389528150, .negSucc 0), (38449613107230042550, .ofNat 1), (43257739305391992850, .negSucc 0), (43396259496189574450, .ofNat 1), (50367205610824523305, .ofNat 1), (52317842461362730745, .negSucc 0), (56847082405993565395, .ofNat 1), (59048673946400207555, .negSucc 0), (77957201108749424555, .negSucc 0), (78517012373081574950, .ofNat 1), (78768440018386646150, .negSucc 0), (80976351911407091995, .ofNat 1), (84866668471219669475, .ofNat 2), (85138429023152237075, .negSucc 1), (95784994176225127025, .ofNat 2), (96091717455848343425, .negSucc 1), (103995136534187280770, .ofNat 1), (104328150380635344290, .negSucc 0), (107732644883995649350, .negSucc 0), (108077627001972374950, .ofNat 1), (129644369267181205150, .ofNat 1), (130059517239661671550, .negSucc 0), (151556093650366760950, .negSucc 0), (152041407477350968150, .ofNat 1), (173859098826109201675, .negSucc 0), (174415831469284716475, .ofNat 1), (206343068147571434185, .ofNat 1), (209493343997152677455, .negSucc 0), (214334386857840864665, .negSucc 0), (217606667573227748095, .ofNat 1), (220107834375057111350, .ofNat 2), (220812664995039948950, .negSucc 1), (238550856528847509275, .ofNat 1), (239314745504367401675, .negSucc 0), (251227428697455434165, .ofNat 1), (260957042924413820485, .negSucc 0), (268993488154734848885, .ofNat 1), (278519275788284773045, .negSucc 0), (287069674805901239975, .negSucc 0), (287988931030679415575, .ofNat 1), (318149658578950354265, .negSucc 0), (330471057800607321385, .ofNat 1), (335588493082954970675, .ofNat 1), (336663116556991429475, .negSucc 0), (352987662434713478725, .negSucc 0), (354118001632618674325, .ofNat 1), (381358200018476914715, .ofNat 1), (396127559350396855435, .negSucc 0), (405035595006961717225, .negSucc 0), (406332602404969288825, .ofNat 1), (439752931721844150130, .negSucc 1), (441161111182538085010, .ofNat 2), (459591409844634111790, .negSucc 0), (461063116198291682830, .ofNat 1), (487381633259055032275, .negSucc 0), (488942329631874172675, .ofNat 1), (588158981648983143110, .ofNat 1), (610937386161719629990, .negSucc 0), (751676206459374215350, .negSucc 0), (754083228490776956950, .ofNat 1), (848381376989422553650, .negSucc 0), (851098068894656756050, .ofNat 1), (919379435577827278775, .negSucc 1), (922323477889713403175, .ofNat 2), (973738634526940618145, .ofNat 1), (976856746189905759665, .negSucc 0), (1370395762465063302325, .negSucc 1), (1374784051948818091525, .ofNat 2), (3126462152993176525850, .ofNat 2), (3136473728746051115450, .negSucc 1), (3587458127204518066850, .ofNat 2), (3598945907015442272450, .negSucc 1), (4238640484224052556545, .ofNat 2), (4252213484062347016465, .negSucc 1), (4303296546135189183415, .negSucc 0), (4317076588000551260455, .ofNat 1), (5416899323354947802765, .ofNat 1), (5626686690107746057885, .negSucc 0), (6922880481627748021525, .negSucc 0), (6945048970794827469925, .ofNat 1), (7601615625039540010510, .ofNat 1), (7896013366228549716590, .negSucc 0), (7943657281667147148025, .negSucc 0), (7969094508391336460425, .ofNat 1), (8087998371957563774590, .negSucc 0), (8401232895892376569310, .ofNat 1), (8971169313964021296475, .ofNat 1), (8999896845846225016075, .negSucc 0), (9409280530927719354410, .ofNat 1), (9686009331240581045690, .negSucc 0), (9773686082478405391690, .negSucc 0), (10061132122093093429210, .ofNat 1), (13627944375797790795050, .negSucc 0), (13671583860556510843850, .ofNat 1), (13836004595275619662150, .ofNat 1), (13880310331710045360550, .negSucc 0), (15616043889246509418850, .ofNat 1), (15666049678124436376450, .negSucc 0), (16320527072220036159550, .negSucc 0), (16372788761348095160350, .ofNat 1), (20100815455347957491350, .negSucc 0), (20165182406482519208950, .ofNat 1), (30176162546409393903325, .ofNat 1), (30272792834089416868525, .negSucc 0), (30636867318110300680475, .negSucc 1), (30734972877357957584075, .ofNat 2), (34578382897617270856025, .negSucc 1), (34689110001561251976425, .ofNat 2), (36138309945630080067575, .ofNat 1), (36254032257270782140775, .negSucc 0), (44508948508270477302275, .ofNat 1), (44651475328639863962675, .negSucc 0), (74489847601273287740785, .negSucc 1), (77374713655680552144065, .ofNat 2), (90693101759781411733565, .negSucc 1), (94205492495713389195085, .ofNat 2), (125512327400000264078075, .negSucc 1), (125914243723369697199275, .ofNat 2), (127428546138931565819725, .ofNat 1), (127836598589375341431325, .negSucc 0), (146217849797513179918225, .ofNat 1), (146686069468193913265825, .negSucc 0), (152814143773340842170175, .negSucc 1), (153303486135931984540975, .ofNat 2), (1111680614114288053262950, .ofNat 2), (1115240444406988746622150, .negSucc 1), (1353496701992447459221550, .ofNat 2), (1357830877203969005934350, .negSucc 1), (4623835817041231102601450, .negSucc 0), (4638642291671619531936650, .ofNat 1), (4919687919663002477013050, .ofNat 1), (4935441773660900414629850, .negSucc 0), (5723384406359801613941950, .negSucc 0), (5741711862040733176405150, .ofNat 1), (5891710273071433053597550, .ofNat 1), (5910576742846662352886350, .negSucc 0), (10238493594877011727188925, .ofNat 1), (10271279360130014677859725, .negSucc 0), (10893594679253791199100325, .negSucc 0), (10928478213106279489537525, .ofNat 1), (12673208328368132145157175, .ofNat 1), (12713790551661623462039975, .negSucc 0), (13045929890372458904394575, .negSucc 0), (13087705644874752352819775, .ofNat 1), (45309950191400095332185075, .ofNat 2), (45455041984136460688938275, .negSucc 1), (55165905902176044023433175, .ofNat 2), (55342558495071446419291975, .negSucc 1)])

def upr15 : Tr := .node (.node (.node (.node (.node (.leaf [(151, .ofNat 1)]) (.leaf [(107, .ofNat 1)])) .nil) (.node upr14 .nil)) (.node (.node (.node .nil (.leaf [(107870, .negSucc 0), (238855, .ofNat 1), (4038110, .negSucc 0), (20960705, .ofNat 1), (31243315, .ofNat 1), (42316895, .negSucc 0), (84396499, .negSucc 0), (92464393, .negSucc 0), (95786467, .negSucc 0), (340658290, .negSucc 0), (352897510, .negSucc 0), (646222490, .ofNat 1), (688497755, .ofNat 1), (754314785, .ofNat 1), (781415915, .ofNat 1), (886677370, .negSucc 0), (1067018530, .ofNat 1), (1247359690, .negSucc 0), (1930008430, .ofNat 1), (2905211995, .negSucc 0), (3333584695, .negSucc 0), (3619320526, .negSucc 0), (4273590095, .negSucc 0), (7566814505, .negSucc 1), (7876520890, .ofNat 1), (8280997970, .negSucc 0), (8597469230, .negSucc 0), (9441392590, .negSucc 0), (11278836715, .negSucc 1), (17440867685, .negSucc 0), (18336495505, .ofNat 1), (19037253295, .ofNat 1), (20905940735, .ofNat 1), (25731877670, .ofNat 1), (29526035870, .ofNat 1), (34885494559, .ofNat 1), (113875159930, .ofNat 1), (252152139845, .negSucc 0), (284592192455, .negSucc 0), (390275276095, .ofNat 1), (1033010379365, .negSucc 0), (1048781530195, .ofNat 1), (1257713882785, .negSucc 0), (1592745045685, .ofNat 1), (1909184458735, .negSucc 0), (2944486278190, .negSucc 0), (27118493852185, .negSucc 0), (38055786952790, .negSucc 0), (40490753295110, .ofNat 1), (47105456645890, .negSucc 0), (48490837437010, .ofNat 1), (372916746950765, .ofNat 2), (454034711685385, .ofNat 2)])) .nil) .nil)) (.node (.node (.node (.node (.leaf [(181, .ofNat 1)]) .nil) .nil) (.node (.node .nil (.leaf [(1, .ofNat 1)])) .nil)) (.node (.node (.node .nil (.leaf [(131, .ofNat 1)])) (.node (.leaf [(437, .negSucc 0)]) .nil)) .nil))

def upr16 : Tr := .node (.node .nil (.node (.node (.node (.leaf [(46, .negSucc 0)]) (.leaf [(45793, .negSucc 0), (790970, .negSucc 0), (134860385, .ofNat 1)])) .nil) (.node .nil (.node (.leaf [(589, .ofNat 1), (2170, .ofNat 1), (2603, .ofNat 1), (4805, .negSucc 0), (9590, .ofNat 1), (21235, .negSucc 0)]) .nil)))) (.node (.node .nil (.node (.node (.leaf [(19, .negSucc 0)]) .nil) (.node (.leaf [(522935, .negSucc 0), (4631710, .ofNat 1), (19576055, .negSucc 0), (188779535, .ofNat 1), (388211515, .ofNat 1), (605848630, .ofNat 1), (1636558198, .negSucc 0), (1651452145, .negSucc 0), (1710785755, .negSucc 0), (1793005186, .negSucc 0), (1857424534, .negSucc 0), (3970225769, .ofNat 1), (4112868611, .ofNat 1), (6046982845, .negSucc 0), (6484114135, .negSucc 0), (7066955855, .ofNat 1), (9356345215, .ofNat 1), (11541799850, .negSucc 0), (13350869510, .ofNat 2), (14627147570, .ofNat 2), (15152673830, .ofNat 2), (16373250950, .negSucc 0), (19057390450, .negSucc 0), (23888841550, .negSucc 0), (25556842525, .ofNat 1), (29257120550, .negSucc 0), (32388683905, .negSucc 0), (33552349195, .negSucc 0), (36255055675, .ofNat 1), (38184003445, .ofNat 1), (40144837985, .negSucc 0), (41679035615, .negSucc 0), (42198507425, .ofNat 1), (45770229295, .negSucc 0), (52896720575, .ofNat 1), (56335849990, .negSucc 0), (64783624075, .ofNat 1), (82870486190, .negSucc 0), (124743667835, .ofNat 1), (135146423825, .ofNat 2), (201444669475, .ofNat 2), (279033172759, .ofNat 1), (338201173370, .negSucc 0), (355568565010, .ofNat 1), (369157172590, .ofNat 1), (405393459470, .ofNat 1), (552046970965, .ofNat 1), (596174224345, .ofNat 1), (617593657555, .ofNat 1), (623069302135, .negSucc 0), (1197011182450, .negSucc 1), (1784224215350, .negSucc 1), (2276323251455, .negSucc 0), (3377640622615, .negSucc 0), (4166589745850, .ofNat 1), (4889558885690, .negSucc 0), (5716948721050, .negSucc 0), (6879717952450, .ofNat 1), (8042487183850, .negSucc 0), (9226020151525, .negSucc 0), (12658957882325, .ofNat 1), (13784425243645, .negSucc 0), (14492286512585, .ofNat 1), (14611704549545, .negSucc 0), (15046131857015, .ofNat 1), (15233661180425, .negSucc 0), (16523052775495, .ofNat 1), (17808364478525, .ofNat 1), (20337241846390, .ofNat 1), (23335962495790, .negSucc 0), (24388712683570, .negSucc 0), (45032464088435, .negSucc 0), (48787859000825, .negSucc 1), (72721525680475, .negSucc 1), (199288956518365, .negSucc 0), (224928018070735, .ofNat 1), (228359061565945, .negSucc 0), (723181531964150, .negSucc 0), (866066329967650, .negSucc 0), (1066671400607050, .negSucc 0), (1601330535063475, .ofNat 1), (1917718302071225, .ofNat 1), (2361915244201325, .ofNat 1), (6660446704692725, .negSucc 1), (8109246967287025, .negSucc 1), (58992527955849850, .ofNat 2), (71824758853113650, .ofNat 2), (245368822876695350, .negSucc 0), (261068533039058150, .ofNat 1), (303717551882706850, .negSucc 0), (312649945118321650, .ofNat 1), (543316679226968275, .ofNat 1), (578080323157914475, .negSucc 0), (672517436311708025, .ofNat 1), (692296307047712225, .negSucc 0), (2404421260394073725, .ofNat 2), (2927438155190616025, .ofNat 2)]) .nil))) .nil)

def upr17 : Tr := .node (.node .nil (.node (.node (.node (.leaf [(2, .ofNat 1)]) (.leaf [(14, .negSucc 0), (31, .ofNat 1)])) .nil) .nil)) .nil

def upr18 : Tr := .node (.node (.node (.node (.node .nil (.leaf [(107, .negSucc 0), (4027321, .ofNat 1)])) .nil) (.node (.node .nil (.leaf [(395485, .negSucc 0)])) .nil)) (.node (.node .nil (.node (.leaf [(870067, .negSucc 0)]) .nil)) .nil)) (.node (.node (.node (.node .nil (.leaf [(107870, .ofNat 1), (238855, .negSucc 0), (4038110, .ofNat 1), (84396499, .ofNat 1), (688497755, .negSucc 0)])) .nil) .nil) (.node (.node (.node (.leaf [(59, .ofNat 1), (61, .ofNat 1), (83, .ofNat 1), (89, .ofNat 1), (101, .ofNat 1), (2014, .ofNat 2), (3002, .ofNat 2), (8183, .ofNat 1), (8477, .ofNat 1), (15523, .ofNat 1), (21299, .negSucc 0), (25631, .ofNat 1), (29963, .negSucc 0), (245051, .ofNat 1), (320306, .ofNat 2), (1000073, .ofNat 2), (1198763, .negSucc 1), (2532253, .ofNat 1), (3087329, .negSucc 1), (3134423, .ofNat 1), (4081379, .ofNat 1), (4892249, .negSucc 1), (5143477, .ofNat 1), (5340043, .ofNat 1), (5864219, .ofNat 1), (7217918, .ofNat 2), (70729913, .negSucc 1), (99256342, .negSucc 1), (120846878, .negSucc 1), (914143333, .negSucc 0), (972633997, .ofNat 1), (1131526703, .negSucc 0), (1164805127, .ofNat 1)]) .nil) .nil) .nil))

def upr19 : Tr := .node (.node (.node (.node upr1 upr3) (.node upr4 upr5)) (.node (.node upr6 upr8) (.node upr9 upr10))) (.node (.node (.node upr11 upr12) (.node upr13 upr15)) (.node (.node upr16 upr17) (.node upr18 .nil)))

def upr20 : Tr := .node (.leaf [(1121, .ofNat 1)]) (.leaf [(813610, .ofNat 1), (841190, .ofNat 1), (1144570, .ofNat 1), (1227310, .ofNat 1), (1350370, .negSucc 0), (1392790, .ofNat 1), (1801565, .negSucc 0), (1862635, .negSucc 0), (2534405, .negSucc 0), (2717615, .negSucc 0), (2990105, .ofNat 1), (3084035, .negSucc 0), (6943265, .ofNat 3), (10349395, .ofNat 3), (13590605, .ofNat 1), (14017535, .negSucc 0), (25580450, .ofNat 1), (30628969, .negSucc 0), (31729411, .negSucc 0), (38129350, .ofNat 1), (50070650, .ofNat 1), (51643550, .negSucc 0), (56642425, .negSucc 0), (61497490, .negSucc 1), (84429275, .negSucc 0), (91666070, .negSucc 1), (110870725, .negSucc 0), (114353575, .ofNat 1), (197162525, .ofNat 1), (214062170, .ofNat 2), (270525325, .negSucc 0), (293713210, .negSucc 1), (325547425, .ofNat 1), (353451490, .ofNat 2), (380569525, .negSucc 0), (413189770, .negSucc 1), (473994805, .negSucc 0), (650364965, .ofNat 1), (661437350, .negSucc 0), (782642585, .negSucc 0), (914920205, .ofNat 1), (985916050, .negSucc 0), (1104254935, .ofNat 1), (1198905358, .negSucc 0), (1294683950, .negSucc 0), (1335354650, .ofNat 1), (1464611275, .ofNat 1), (1746296650, .negSucc 0), (2183099825, .ofNat 1), (2396081450, .ofNat 1), (2506518665, .negSucc 3), (2866800175, .ofNat 1), (2883420050, .negSucc 0), (2956856725, .negSucc 0), (3370758650, .ofNat 1), (3379253290, .ofNat 1), (3736131595, .negSucc 3), (5098059575, .negSucc 0), (6995011975, .ofNat 1), (7482632285, .negSucc 0), (8417726275, .negSucc 0), (9234542450, .negSucc 1), (9780543710, .negSucc 0), (9840440575, .ofNat 1), (11555872447, .ofNat 1), (13370976010, .negSucc 0), (13764695350, .negSucc 1), (13791006670, .ofNat 2), (16530941770, .negSucc 0), (20447915425, .ofNat 2), (24883772305, .ofNat 1), (29607161165, .ofNat 1), (30478968275, .ofNat 2), (30537229055, .negSucc 1), (34919768870, .ofNat 1), (36604228205, .ofNat 1), (39213140575, .negSucc 0), (42574266910, .negSucc 1), (43223693170, .ofNat 1), (45154241950, .ofNat 1), (54568037230, .negSucc 0), (56282216410, .ofNat 1), (61955820350, .negSucc 0), (67464113710, .negSucc 0), (71175671525, .negSucc 0), (74557004150, .ofNat 1), (77322345355, .negSucc 0), (87158187950, .negSucc 0), (94271591015, .ofNat 1), (95709606305, .negSucc 0), (97659642325, .ofNat 1), (117522620425, .negSucc 0), (120829225295, .ofNat 1), (124624907765, .negSucc 0), (129279271135, .ofNat 1), (137385598525, .ofNat 1), (149384823215, .ofNat 1), (220399126130, .negSucc 0), (238778883350, .ofNat 2), (342186239045, .negSucc 2), (347316387950, .ofNat 1), (355915694050, .ofNat 2), (398636031535, .negSucc 1), (416619611905, .negSucc 2), (476292051550, .ofNat 1), (511530176815, .negSucc 0), (527599187605, .ofNat 1), (528724670275, .negSucc 1), (632420218255, .negSucc 0), (788099036825, .negSucc 1), (898362960775, .negSucc 0), (975365500270, .negSucc 1), (1013939777725, .ofNat 1), (1054646685575, .negSucc 0), (1260686143850, .negSucc 0), (1468659063550, .negSucc 0), (1534914359650, .negSucc 0), (1840399506575, .ofNat 1), (1884584861950, .negSucc 0), (1943786480650, .ofNat 1), (2159737893455, .ofNat 1), (2329969225150, .negSucc 0), (2525199322975, .negSucc 0), (2791519318525, .ofNat 1), (3030792402970, .ofNat 2), (3038799185275, .ofNat 1), (3252030783575, .ofNat 1), (3398738939225, .ofNat 1), (3552399047575, .negSucc 0), (3690059419730, .ofNat 2), (4173009337175, .ofNat 1), (4304098635725, .negSucc 0), (5159217569975, .ofNat 1), (7956929081150, .ofNat 1), (8980609459850, .negSucc 0), (8983041802105, .negSucc 1), (11610823149275, .negSucc 0), (12315551618650, .negSucc 0), (12353731543475, .ofNat 1), (12606036562070, .negSucc 1), (13412622818630, .ofNat 2), (14155943747575, .ofNat 1), (14371877979025, .negSucc 0), (14794557751225, .ofNat 1), (15603753234370, .negSucc 1), (16062662701330, .ofNat 2), (23229099414325, .ofNat 1), (27270150012725, .ofNat 1), (27913366673155, .ofNat 1), (29699379098395, .negSucc 0), (32597741719550, .ofNat 1), (33095417165650, .negSucc 0), (34551167876105, .ofNat 1), (35567324552945, .negSucc 0), (37975327214650, .ofNat 1), (39688499870950, .ofNat 1), (48729980001850, .ofNat 1), (50260764713950, .negSucc 0), (60246347107450, .ofNat 1), (72180713807575, .negSucc 0), (73282709438225, .ofNat 1), (84088224546725, .negSucc 0), (87881678285675, .negSucc 0), (102838719322150, .ofNat 1), (107902098575525, .negSucc 0), (109418765099350, .negSucc 0), (111291693295175, .ofNat 1), (123529232295245, .ofNat 4), (127293776385650, .ofNat 1), (131037511510850, .negSucc 0), (133402625737925, .negSucc 0), (150399679897705, .ofNat 4), (205743451955450, .negSucc 0), (300222712859825, .ofNat 1), (319432201338425, .negSucc 0), (324309028839775, .ofNat 1), (366032259758725, .negSucc 0), (371615702029075, .ofNat 1), (382544993281675, .negSucc 0), (455107697929850, .ofNat 2), (554104083833650, .ofNat 2), (855752929568950, .ofNat 1), (1007738473987525, .negSucc 1), (1226944757060225, .negSucc 1), (1894881486902675, .negSucc 0), (2659115456758450, .negSucc 0), (2829256640426050, .ofNat 1), (3291453360828950, .negSucc 0), (3388255654780550, .ofNat 1), (4191507156888275, .ofNat 1), (4459697087194475, .negSucc 0), (5188247950428025, .ofNat 1), (5340835348192225, .negSucc 0), (8385704888571325, .negSucc 0), (11767784760757550, .negSucc 1), (14327548453412950, .negSucc 1), (26057237684534575, .ofNat 2), (31725285861128675, .ofNat 2), (108380399342396825, .negSucc 0), (115315024683171425, .ofNat 1), (134153268432496075, .negSucc 0), (138098742574684675, .ofNat 1)])

def upr21 : Tr := .node (.node .nil (.node (.node (.node .nil (.leaf [(30590, .negSucc 0), (67735, .ofNat 1)])) .nil) .nil)) (.node (.node (.node (.node (.leaf [(57, .negSucc 0), (362, .ofNat 1)]) .nil) .nil) (.node (.node (.leaf [(133, .negSucc 0)]) .nil) (.node (.leaf [(5177, .negSucc 0), (5363, .negSucc 0), (22879, .negSucc 0)]) .nil))) (.node (.node upr20 .nil) .nil))

def upr22 : Tr := .node (.node .nil (.node (.node .nil (.node (.leaf [(1, .ofNat 1)]) .nil)) .nil)) (.node .nil (.node (.node (.node (.leaf [(101, .ofNat 1), (1000073, .ofNat 1), (4081379, .ofNat 1), (4892249, .negSucc 0)]) .nil) (.node (.leaf [(1007, .ofNat 1)]) .nil)) .nil))

def upr23 : Tr := .node .nil (.leaf [(194452790, .negSucc 0), (201044410, .negSucc 0), (273552230, .negSucc 0), (293327090, .negSucc 0), (322738430, .ofNat 1), (332876810, .negSucc 0), (430574035, .ofNat 1), (445169765, .ofNat 1), (605722795, .ofNat 1), (649509985, .ofNat 1), (714635095, .negSucc 0), (737084365, .ofNat 1), (1659440335, .negSucc 2), (2473505405, .negSucc 2), (3248154595, .negSucc 0), (3350190865, .ofNat 1), (6113727550, .negSucc 0), (7320323591, .ofNat 1), (7583329229, .ofNat 1), (9112914650, .negSucc 0), (11966885350, .negSucc 0), (12342808450, .ofNat 1), (13537539575, .ofNat 1), (14697900110, .ofNat 2), (20178596725, .ofNat 1), (21908190730, .ofNat 2), (26498103275, .ofNat 1), (27330504425, .negSucc 0), (47121843475, .negSucc 0), (51160858630, .negSucc 1), (64655552675, .ofNat 1), (70197457190, .ofNat 2), (77805834575, .negSucc 0), (84474906110, .negSucc 1), (90956116475, .ofNat 1), (98752355030, .ofNat 2), (113284758395, .ofNat 1), (155437226635, .negSucc 0), (158083526650, .ofNat 1), (187051577815, .ofNat 1), (218665928995, .negSucc 0), (235633935950, .ofNat 1), (263916929465, .negSucc 0), (286538380562, .ofNat 1), (309429464050, .ofNat 1), (319149761350, .negSucc 0), (350042094725, .negSucc 0), (417364899350, .ofNat 1), (521760858175, .negSucc 0), (572663466550, .negSucc 0), (599057960935, .ofNat 4), (685165241825, .negSucc 0), (689137391950, .ofNat 1), (706688757275, .ofNat 1), (805611317350, .negSucc 0), (807641536310, .negSucc 0), (892935451205, .ofNat 4), (1218436238425, .ofNat 1), (1671807862025, .negSucc 0), (1788349116115, .ofNat 1), (2011836579725, .ofNat 1), (2207055645550, .ofNat 2), (2337549946690, .ofNat 1), (2351865297425, .negSucc 0), (2761853514833, .negSucc 0), (3195663266390, .ofNat 1), (3289762188650, .ofNat 2), (3296050594130, .negSucc 1), (3950895083030, .ofNat 1), (4887051786575, .negSucc 1), (5947221580895, .negSucc 0), (7076111518435, .negSucc 0), (7284473417725, .negSucc 1), (7298397744145, .ofNat 2), (8345824759930, .negSucc 0), (8748410540995, .negSucc 0), (9371940597425, .ofNat 1), (10175249791490, .ofNat 2), (10330462667630, .negSucc 0), (10791863826050, .negSucc 0), (13041760897970, .ofNat 1), (13451449721990, .negSucc 0), (14807441063650, .ofNat 1), (16123923176690, .ofNat 1), (17010985494475, .ofNat 1), (17819123991850, .negSucc 0), (18480040539845, .ofNat 1), (20830806920050, .ofNat 1), (22530910252585, .negSucc 0), (22874595906895, .ofNat 1), (23340654515675, .negSucc 0), (28087906281575, .ofNat 1), (28878184845505, .negSucc 0), (29785352955835, .ofNat 1), (30897745801265, .negSucc 0), (32835158047475, .negSucc 0), (35702972748385, .negSucc 0), (52675391145070, .ofNat 1), (57068153120650, .negSucc 1), (81782511131755, .ofNat 3), (83008616720050, .negSucc 0), (85063850877950, .negSucc 1), (95274011536865, .ofNat 2), (99572087245295, .ofNat 3), (113833800320450, .negSucc 0), (122255712258785, .ofNat 1), (126096205837595, .negSucc 0), (126365196195725, .ofNat 2), (151148432162945, .ofNat 1), (188355669801175, .ofNat 2), (214708747625225, .ofNat 1), (233112354564530, .ofNat 2), (242331606876275, .negSucc 0), (252060557852425, .ofNat 1), (301303988380150, .ofNat 1), (351009516188450, .ofNat 1), (366844531956350, .ofNat 1), (439855482071425, .negSucc 0), (450415782006050, .ofNat 1), (464564968875350, .negSucc 0), (516177356535745, .negSucc 0), (556862644810850, .ofNat 1), (603522638191025, .ofNat 1), (667173117127475, .negSucc 0), (724359384309830, .negSucc 1), (726273005280725, .negSucc 0), (777235357274425, .negSucc 0), (812298606474775, .negSucc 0), (849023372370425, .ofNat 1), (881924201315470, .negSucc 1), (997349231584825, .negSucc 0), (1028679573938275, .ofNat 1), (1233052999224025, .negSucc 0), (1901706050394850, .negSucc 0), (2146365660904150, .ofNat 1), (2146946990703095, .ofNat 2), (2774986732676725, .ofNat 1), (2943416836857350, .ofNat 1), (2952541838890525, .negSucc 0), (3012842738334730, .ofNat 2), (3205616853652570, .negSucc 1), (3383270555670425, .negSucc 0), (3434878836986975, .ofNat 1), (3535899302542775, .negSucc 0), (3729297023014430, .ofNat 2), (3838976385617870, .negSucc 1), (5551754760023675, .negSucc 0), (6517565853041275, .negSucc 0), (6671294634884045, .negSucc 0), (7098151604516405, .ofNat 1), (7790860270972450, .negSucc 0), (7909804702590350, .ofNat 1), (8257729122389095, .negSucc 0), (8500590568153855, .ofNat 1), (9076103204301350, .negSucc 0), (9485551469157050, .negSucc 0), (11646465220442150, .negSucc 0), (12012322766634050, .ofNat 1), (14398876958680550, .negSucc 0), (17251190600010425, .ofNat 1), (17514567555735775, .negSucc 0), (20097085666667275, .ofNat 1), (21003721110276325, .ofNat 1), (24578453917993850, .negSucc 0), (25788601559550475, .ofNat 1), (26151084858744650, .ofNat 1), (26598714697546825, .negSucc 0), (29523486518563555, .negSucc 3), (30423212556170350, .negSucc 0), (31317965251093150, .ofNat 1), (31883227551364075, .ofNat 1), (35945523495551495, .negSucc 3), (49172685017352550, .ofNat 1), (71753228373498175, .negSucc 0), (76344296119883575, .ofNat 1), (77509857892706225, .negSucc 0), (87481710082335275, .ofNat 1), (88816152784948925, .negSucc 0), (91428253394320325, .ofNat 1), (108770739805234150, .negSucc 1), (132430876036242350, .negSucc 1), (204524950166979050, .negSucc 0), (240849495283018475, .ofNat 2), (293239796937393775, .ofNat 2), (452876675369739325, .ofNat 1), (635528594165269550, .ofNat 1), (676192337061825950, .negSucc 0), (786657353238119050, .ofNat 1), (809793101492551450, .negSucc 0), (1001770210496297725, .negSucc 0), (1065867603839479525, .ofNat 1), (1239991260152297975, .negSucc 0), (1276459648217941775, .ofNat 1), (2004183468368546675, .ofNat 1), (2812500557821054450, .ofNat 2), (3424284080365695050, .ofNat 2), (6227679806603763425, .negSucc 1), (7582343320809753325, .negSucc 1), (25902915442832841175, .ofNat 1), (27560290899277970575, .negSucc 0), (32062631155366561925, .ofNat 1), (33005599475349637325, .negSucc 0)])

def upr24 : Tr := .node (.node .nil (.node (.node .nil (.node (.leaf [(437, .negSucc 0)]) .nil)) .nil)) (.node (.node .nil (.node (.node (.leaf [(7, .negSucc 0), (2527, .ofNat 1)]) (.leaf [(185154973, .ofNat 1), (194605511, .negSucc 0)])) .nil)) (.node (.node upr23 .nil) .nil))

def upr25 : Tr := .node (.node (.node (.node (.node (.leaf [(151, .ofNat 1)]) (.leaf [(77435963, .negSucc 0), (84396499, .ofNat 1)])) .nil) (.node (.node .nil (.leaf [(9573782713901, .ofNat 1), (9917750955119, .ofNat 1), (9944559157309, .negSucc 0), (10301848707871, .negSucc 0), (17514123827326, .negSucc 0), (17570207659102, .ofNat 1), (18143373785194, .negSucc 0), (18201472604938, .ofNat 1), (54240515752067, .negSucc 0), (56341159366003, .ofNat 1), (171388211738833, .negSucc 0), (171937032092641, .ofNat 1), (187158406458269, .ofNat 1), (193786192305373, .negSucc 0), (221359942663841, .negSucc 0), (229932839574769, .ofNat 1), (232727274064093, .ofNat 1), (241621310015587, .ofNat 1), (241740408531437, .negSucc 0), (250978895481683, .negSucc 0), (265338739219571, .ofNat 1), (275614860682339, .negSucc 0), (326589655316462, .ofNat 1), (339237921364558, .negSucc 0), (374745209086982, .ofNat 1), (389258458443238, .negSucc 0), (3200321464892417, .negSucc 0), (3324264512899153, .ofNat 1), (3612051449630363, .negSucc 0), (3751940104921867, .ofNat 1), (5392409951446315, .negSucc 0), (5409677558753755, .ofNat 1), (6086158029995785, .negSucc 0), (6105647161537945, .ofNat 1), (13985604688581190, .negSucc 0), (14030389475326630, .ofNat 1), (30968124667572635, .ofNat 1), (31067290981080395, .negSucc 0), (47761345284238790, .ofNat 1), (47914286948961830, .negSucc 0), (53905971122819810, .ofNat 1), (54078589145050370, .negSucc 0), (198654736073892490, .negSucc 0), (199290869454546730, .ofNat 1), (227946321612647890, .negSucc 0), (228676252683212530, .ofNat 1), (439878344163619085, .ofNat 1), (441286925220782045, .negSucc 0), (504738283570863185, .ofNat 1), (506354559512827745, .negSucc 0), (1946659992472119715, .ofNat 1), (1952893598710105555, .negSucc 0), (2197103048828478385, .ofNat 1), (2204138625315198145, .negSucc 0)])) .nil)) .nil) (.node .nil (.node (.node (.node (.leaf [(166, .ofNat 1), (178, .ofNat 1), (1501, .ofNat 1), (3710, .negSucc 0), (5530, .negSucc 0), (7490, .ofNat 1), (8215, .ofNat 1), (12245, .ofNat 1), (16366, .ofNat 1), (16585, .negSucc 0), (16954, .ofNat 1), (28595, .negSucc 0), (39235, .ofNat 1), (47215, .negSucc 0), (55195, .ofNat 1), (160153, .ofNat 2), (253270, .ofNat 1), (347510, .negSucc 0), (418190, .ofNat 1), (488870, .negSucc 0), (1339310, .ofNat 2), (1996330, .ofNat 2), (2965615, .negSucc 1), (4420445, .negSucc 1), (5687185, .ofNat 1), (6174658, .negSucc 0), (6268846, .ofNat 1), (10322795, .ofNat 1), (14163835, .negSucc 0), (17044615, .ofNat 1), (19925395, .negSucc 0), (50372210, .negSucc 0), (57815233, .negSucc 0), (60423439, .negSucc 0), (69077890, .negSucc 0), (130291945, .ofNat 1), (152958185, .ofNat 1), (182840630, .ofNat 1), (213003490, .ofNat 1), (222612670, .ofNat 1), (281912470, .negSucc 0), (337921570, .ofNat 1), (404861395, .negSucc 0), (471650585, .negSucc 0), (492928055, .negSucc 0), (624234755, .ofNat 1), (748254905, .negSucc 0), (1154014370, .negSucc 0), (1683948245, .ofNat 1), (1791694205, .negSucc 0), (2053073785, .negSucc 0), (2084391295, .ofNat 1), (2145693655, .negSucc 0), (4799915470, .ofNat 1), (10628384255, .negSucc 0), (14914970170, .negSucc 0), (15869291530, .ofNat 1), (18461751470, .negSucc 0), (19004715230, .ofNat 1), (47035392145, .negSucc 0), (66005467430, .negSucc 1), (80363173870, .negSucc 1), (146154963595, .ofNat 2), (177947027855, .ofNat 2), (607905316445, .negSucc 0), (646801608005, .ofNat 1), (752465257495, .negSucc 0), (774595409455, .ofNat 1)]) (.leaf [(89, .ofNat 1)])) .nil) .nil))

def upr26 : Tr := .node (.leaf [(694295, .negSucc 1), (744485, .negSucc 1), (6149470, .ofNat 2), (6594010, .ofNat 2), (15517075, .ofNat 2), (25111730, .negSucc 3), (31326925, .negSucc 1), (55604545, .ofNat 2), (74318006, .ofNat 2), (76988114, .ofNat 2), (137436950, .negSucc 3), (204858850, .negSucc 1), (250640495, .ofNat 4), (268759085, .ofNat 4), (277467050, .ofNat 4), (304324675, .ofNat 2), (440626375, .ofNat 2), (453616025, .ofNat 2), (478394350, .ofNat 4), (598055675, .ofNat 2), (614391325, .negSucc 1), (625074625, .ofNat 2), (656401550, .negSucc 1), (678652450, .ofNat 2), (727254773, .ofNat 2), (727545875, .ofNat 2), (789906950, .ofNat 4), (911994125, .ofNat 2), (990165050, .ofNat 4), (1059301775, .negSucc 5), (1116936625, .ofNat 2), (1212674050, .ofNat 2), (1453460575, .ofNat 4), (1502730425, .negSucc 1), (1749079675, .negSucc 5), (2044698775, .ofNat 2), (2192508325, .negSucc 3), (2679359690, .negSucc 1), (2685206825, .negSucc 1), (3902690750, .negSucc 3), (5297064550, .negSucc 1), (5536375250, .negSucc 3), (5601664075, .negSucc 9), (5932867885, .ofNat 2), (6443977750, .negSucc 3), (8077662250, .negSucc 3), (8349650225, .negSucc 7), (8641672375, .ofNat 2), (9382387150, .ofNat 2), (9892867250, .negSucc 3), (11309019925, .ofNat 2), (11393339125, .negSucc 1), (12259116625, .ofNat 2), (12873507950, .negSucc 1), (14268807875, .ofNat 2), (15491848550, .ofNat 2), (16162643875, .negSucc 1), (17886252125, .ofNat 2), (18110189150, .negSucc 1), (18812257625, .negSucc 1), (20637709750, .negSucc 3), (21905634625, .ofNat 2), (23581562375, .negSucc 1), (23876805050, .negSucc 1), (25602839150, .negSucc 1), (25825507085, .ofNat 6), (26219448395, .negSucc 1), (28880789875, .negSucc 1), (30761869250, .negSucc 3), (45697785875, .ofNat 8), (49614738950, .ofNat 12), (52870068325, .ofNat 2), (56692000975, .ofNat 2), (68115567625, .ofNat 8), (73954044850, .ofNat 12), (95146605050, .ofNat 2), (100912432250, .ofNat 4), (109861207675, .negSucc 3), (143154845750, .ofNat 4), (159066121375, .negSucc 3), (163755385025, .negSucc 3), (166622853250, .ofNat 4), (172700360350, .negSucc 3), (208865266750, .ofNat 4), (210681768325, .negSucc 1), (215898098675, .negSucc 1), (218253515375, .ofNat 2), (223448957125, .negSucc 1), (225651939625, .negSucc 1), (228740205610, .negSucc 3), (232229400070, .ofNat 2), (236960959550, .ofNat 4), (255801281750, .ofNat 4), (262644060875, .negSucc 3), (285156408950, .negSucc 3), (288918274925, .ofNat 2), (307034606375, .ofNat 2), (316985729875, .negSucc 1), (329229879125, .negSucc 1), (333351858350, .ofNat 4), (368950603625, .negSucc 1), (382407940775, .ofNat 6), (403214121625, .negSucc 1), (404751817750, .negSucc 3), (462487376375, .negSucc 1), (524699267575, .negSucc 5), (533632209250, .ofNat 4), (566417123875, .negSucc 1), (603309313250, .negSucc 3), (631417762675, .ofNat 6), (738136257775, .negSucc 5), (764730934975, .negSucc 1), (795414047750, .ofNat 4), (890887096925, .ofNat 2), (967248848090, .ofNat 6), (1010884134470, .ofNat 4), (1179098905775, .ofNat 2), (1181614177625, .negSucc 7), (1408871360750, .ofNat 4), (1761273962875, .negSucc 7), (1933102564750, .negSucc 3), (2022200731075, .ofNat 8), (2141765306485, .negSucc 3), (2238386297755, .negSucc 1), (2326275967750, .ofNat 4), (2460219359150, .negSucc 1), (2558990435050, .negSucc 3), (2719449370750, .negSucc 3), (3014223731225, .ofNat 8), (3119643727375, .negSucc 1), (4112995424125, .ofNat 4), (4280441393375, .ofNat 2), (5151039642875, .negSucc 1), (5447628580975, .ofNat 2), (5643412326125, .negSucc 1), (5666335963325, .ofNat 2), (5834714438875, .ofNat 2), (6021637892375, .ofNat 2), (6773331138350, .ofNat 4), (6791225002625, .ofNat 4), (7450213219750, .ofNat 4), (7890714287050, .negSucc 1), (7939037679125, .negSucc 1), (8246686360150, .ofNat 2), (8512944017375, .ofNat 2), (9323008057685, .negSucc 5), (9465220870595, .ofNat 4), (10425965144875, .ofNat 2), (10443447451150, .negSucc 3), (10465725573250, .ofNat 4), (11105034799250, .ofNat 4), (14998090377775, .negSucc 1), (15599855099750, .ofNat 4), (16496900700875, .negSucc 7), (18260519797475, .negSucc 1), (23035794934775, .negSucc 1), (23124776498975, .ofNat 2), (24075003728825, .negSucc 1), (24589719912625, .negSucc 7), (27608593203625, .ofNat 2), (28172454138850, .negSucc 1), (29975044049650, .ofNat 4), (33063445254875, .ofNat 2), (34347924423050, .negSucc 1), (35897454848150, .ofNat 4), (36429388042250, .negSucc 3), (40721859560375, .ofNat 2), (44212304665550, .ofNat 2), (49984509174250, .ofNat 4), (57422869816375, .ofNat 2), (60150850023250, .negSucc 3), (62381862736025, .ofNat 4), (66373311824225, .negSucc 5), (70317190872250, .ofNat 4), (76056118365325, .ofNat 2), (77216275523275, .ofNat 2), (78789519050375, .negSucc 1), (79487221449475, .negSucc 5), (80665073522125, .ofNat 2), (94814505975875, .ofNat 2), (97898674616575, .negSucc 1), (104299497247925, .negSucc 1), (110679984600125, .negSucc 1), (110839492901375, .negSucc 1), (133191167908625, .ofNat 2), (155702351217125, .negSucc 1), (192641227539250, .negSucc 3), (204031326565150, .ofNat 2), (213235747312450, .ofNat 2), (244533254089250, .negSucc 3), (276067867525975, .ofNat 10), (287144471237750, .negSucc 3), (292847657971750, .negSucc 3), (321610241989925, .negSucc 1), (336118974711275, .ofNat 8), (360679327534750, .negSucc 3), (425654704984775, .negSucc 1), (426562718122625, .ofNat 8), (541466491197625, .ofNat 2), (552525069947650, .negSucc 1), (587877904728850, .ofNat 2), (635819900597875, .ofNat 8), (648448385508875, .ofNat 2), (683915583206150, .negSucc 1), (704029675695350, .ofNat 2), (713879338550875, .negSucc 1), (798647082398375, .ofNat 2), (854926227304625, .negSucc 1), (888139188653150, .ofNat 2), (901686830304050, .negSucc 1), (1017092143516750, .ofNat 4), (1052950940061125, .negSucc 1), (1238333064725750, .ofNat 4), (1484791348109125, .negSucc 1), (1966593917731975, .negSucc 1), (1996592267101825, .ofNat 2), (2037271849731125, .ofNat 2), (2252132603501375, .negSucc 7), (2445172540944350, .negSucc 11), (2451632225947625, .negSucc 1), (2742023214749875, .negSucc 7), (2865992602164125, .ofNat 2), (2977053776014150, .negSucc 11), (5414310626376775, .ofNat 4), (6322931284307750, .ofNat 4), (6592047646888475, .ofNat 4), (7572203727555250, .ofNat 4), (8315921971453775, .ofNat 2), (8691076346105825, .ofNat 2), (9326136897684250, .ofNat 4), (9367341001167625, .ofNat 2), (9966702146508625, .negSucc 3), (10170255944124850, .ofNat 4), (10820990901923650, .negSucc 3), (11594895566478875, .ofNat 2), (11935903737009875, .negSucc 3), (12588743757891350, .ofNat 4), (12958981200182150, .negSucc 3), (14000776415252875, .negSucc 1), (14700591301295375, .negSucc 1), (16767022539586625, .negSucc 1), (19947460202440750, .ofNat 4), (20650731702015125, .negSucc 1), (22519852447705025, .negSucc 5), (23960765568545225, .ofNat 6), (24286491330641750, .ofNat 4), (26299096853790250, .negSucc 3), (27875075463902275, .negSucc 5), (28694886943260475, .ofNat 6), (32019754959337250, .negSucc 3), (58233714461964125, .ofNat 8), (70900885981389625, .ofNat 8), (82967877438913250, .negSucc 3), (88276504726219250, .ofNat 4), (99660500176876975, .negSucc 7), (102697646445955750, .negSucc 3), (105718004527801750, .ofNat 4), (121338949870770275, .negSucc 7), (183714585757593625, .ofNat 2), (195469403322342625, .negSucc 1), (227401931416044875, .ofNat 2), (234089867168703875, .negSucc 1), (242212674458762875, .negSucc 1), (257710441216865875, .ofNat 4), (299810871076096625, .negSucc 1), (308628368056969625, .ofNat 4), (367170263809546750, .negSucc 3), (380115289362066125, .ofNat 2), (447038236365995750, .negSucc 3), (515784328091682250, .negSucc 3), (627979275835165250, .negSucc 3), (813019869863996375, .ofNat 8), (989870380524704875, .ofNat 8), (2145312259491899750, .ofNat 4), (2282578193635097750, .negSucc 3), (2655467715245427250, .ofNat 4), (2733565545647445250, .negSucc 3), (3381610101421512625, .negSucc 1), (3597979474889613625, .ofNat 2), (4185757299498873875, .negSucc 1), (4308861249060564875, .ofNat 2), (4750334288874920875, .negSucc 1), (5054280285906287875, .ofNat 2), (5879964226614874625, .negSucc 1), (6052895136790771625, .ofNat 2), (9493973964218280250, .ofNat 4), (11559131540320747250, .ofNat 4), (21022370920769049125, .negSucc 7), (25595219839281654625, .negSucc 7), (87438775479613397875, .ofNat 2), (93033469279288580875, .negSucc 1), (108231724458470881625, .ofNat 2), (111414840868566034625, .negSucc 1)]) .nil

def upr27 : Tr := .node (.node (.node (.node (.node (.leaf [(133, .ofNat 1)]) .nil) .nil) .nil) (.node (.node (.node .nil (.leaf [(1, .ofNat 1), (1330, .ofNat 1), (2945, .negSucc 0)])) upr26) (.node .nil (.node (.leaf [(10430, .ofNat 1), (23095, .negSucc 0)]) .nil)))) (.node (.node .nil (.node .nil (.node (.leaf [(142, .negSucc 0), (146, .ofNat 1), (178, .negSucc 0), (194, .ofNat 1), (1501, .ofNat 1), (36239, .ofNat 1), (37541, .ofNat 1), (160153, .ofNat 1), (937037, .negSucc 0), (970703, .negSucc 0), (1418498, .ofNat 1), (4141099, .negSucc 0), (6268846, .ofNat 1), (13672457, .negSucc 0), (60423439, .negSucc 0)]) .nil))) .nil)

def upr28 : Tr := .node (.node .nil (.node (.node (.node (.leaf [(2, .ofNat 1)]) (.leaf [(722, .negSucc 1)])) .nil) .nil)) (.node (.node .nil (.node (.node (.leaf [(266, .negSucc 0), (589, .ofNat 1)]) .nil) .nil)) .nil)

def upr29 : Tr := .node .nil (.leaf [(20321534482270, .negSucc 0), (22185959778010, .ofNat 1), (44997683496455, .ofNat 1), (49126053794165, .negSucc 0), (760735993401310, .negSucc 0), (830530694717530, .ofNat 1), (3948768790490305, .ofNat 1), (4311053657631715, .negSucc 0), (5885900649976115, .ofNat 1), (6425910168922745, .negSucc 0), (6740310740525155, .ofNat 1), (7323165455990305, .negSucc 0), (7972042652499295, .negSucc 0), (8703447950313085, .ofNat 1), (11298563056738070, .negSucc 0), (11353401823119110, .ofNat 1), (15899382262087379, .negSucc 0), (17358091519596377, .ofNat 1), (17419285721068553, .negSucc 0), (18045128321825507, .negSucc 0), (19017440474609339, .ofNat 1), (19700701809026441, .ofNat 1), (30798181709955905, .ofNat 1), (30947663930241065, .negSucc 0), (31904703208517195, .ofNat 1), (32059556047495235, .negSucc 0), (33438025856523554, .ofNat 1), (33600320838547442, .negSucc 0), (34639392054961526, .ofNat 1), (34807517994423398, .negSucc 0), (64176315814463090, .negSucc 0), (66482051711988710, .negSucc 0), (70064254380139670, .ofNat 1), (72581532980623730, .ofNat 1), (112771100889088205, .ofNat 1), (113318447310498965, .negSucc 0), (120923228664203015, .ofNat 1), (121510142296800095, .negSucc 0), (121741286861531290, .ofNat 1), (129705486874923355, .ofNat 1), (132910597671136270, .negSucc 0), (141605483449338865, .negSucc 0), (142104699303453985, .ofNat 1), (147210257362260715, .ofNat 1), (155142277556023555, .negSucc 0), (160716251599952545, .negSucc 0), (167040370344891770, .negSucc 0), (182365703781326510, .ofNat 1), (201014682957412130, .ofNat 1), (215244777220136650, .ofNat 1), (216289490427775450, .negSucc 0), (219457033363969190, .negSucc 0), (234988995569932490, .negSucc 0), (256548362946611870, .ofNat 1), (272783895145323730, .negSucc 0), (274107880524992290, .ofNat 1), (282584514132580870, .negSucc 0), (283956067849243510, .ofNat 1), (305347242102984550, .ofNat 1), (306829277118472150, .negSucc 0), (327214967310266207, .ofNat 1), (328803139634357111, .negSucc 0), (355404167037900050, .ofNat 1), (357129158613303650, .negSucc 0), (363592591650290030, .ofNat 1), (396950861214426890, .negSucc 0), (445506631920747950, .ofNat 1), (447668945304000350, .negSucc 0), (476613435273159725, .negSucc 0), (478926728804359925, .ofNat 1), (545620481790578950, .ofNat 1), (547310334056706395, .negSucc 0), (548268708293663350, .negSucc 0), (597524023988710385, .ofNat 1), (628011090470103095, .negSucc 0), (676126036085180075, .negSucc 0), (679407685048045475, .ofNat 1), (681840612510397646, .negSucc 0), (685628775005652485, .ofNat 1), (744396955720422698, .ofNat 1), (786966369869635825, .negSucc 0), (790785994072315225, .ofNat 1), (805097881511356495, .negSucc 0), (878962621260516685, .ofNat 1), (986478970681656175, .negSucc 0), (991266950316000775, .ofNat 1), (1205528826932559710, .ofNat 1), (1208159638250567675, .negSucc 0), (1211379988126578830, .negSucc 0), (1214023568364540275, .ofNat 1), (1254586338455072210, .negSucc 0), (1363074150289949510, .ofNat 1), (1425505533367000105, .negSucc 1), (1483850847005237690, .ofNat 1), (1556290370405049115, .ofNat 2), (1560049928571084370, .negSucc 0), (1619669671064246830, .negSucc 0), (1619988649821039470, .negSucc 0), (1703178714046560310, .ofNat 1), (1768268346430505290, .ofNat 1), (1778655651046013390, .negSucc 0), (1941840699454358570, .ofNat 1), (2124810134641377515, .negSucc 1), (2319753570981110945, .ofNat 2), (2520366170472995425, .negSucc 1), (2532599033264766025, .ofNat 2), (2669385259636382215, .negSucc 0), (2682341402280281695, .ofNat 1), (2778012606579088465, .ofNat 1), (3018235618499173915, .negSucc 0), (3285669732654454885, .negSucc 0), (3454396270407401105, .ofNat 1), (3586411414499403695, .ofNat 1), (3587117724603730255, .ofNat 1), (3756772216365408275, .negSucc 1), (3771324295388812115, .negSucc 0), (3775006106187104075, .ofNat 2), (3915451338524690285, .negSucc 0), (3938451798744743935, .ofNat 1), (4299790120220365405, .negSucc 0), (4847605815930828070, .ofNat 1), (5292355641042863410, .negSucc 0), (5562383944163770270, .ofNat 1), (6072712007192922010, .negSucc 0), (6572047655620292639, .ofNat 1), (7175008613349037757, .negSucc 0), (11118143597294081705, .negSucc 0), (11172106678817024465, .ofNat 1), (11517597858274707395, .negSucc 0), (11573499733145779835, .ofNat 1), (11619713985141935015, .ofNat 2), (11676111491395236095, .negSucc 1), (21452841282947121530, .ofNat 1), (22323243224189388050, .ofNat 2), (22431591437487927650, .negSucc 1), (23421059774927561390, .negSucc 0), (24593362406773471325, .ofNat 1), (24712728882738306725, .negSucc 0), (33274268202093616150, .ofNat 2), (33435768369085778950, .negSucc 1), (37929712768183419050, .ofNat 1), (38113808625944190650, .negSucc 0), (42809472576838707950, .ofNat 1), (43017252863035080350, .negSucc 0), (47502719983668626245, .negSucc 0), (51860918073053885935, .ofNat 1), (53614072980060282055, .negSucc 0), (58532965003636886965, .ofNat 1), (73523616211569362495, .ofNat 1), (77703364576469330650, .negSucc 0), (78080506044426937450, .ofNat 1), (80269134864145894685, .negSucc 0), (83987221129548999325, .negSucc 1), (84394861957447850725, .ofNat 2), (94792403562999996175, .negSucc 1), (95252488482434820775, .ofNat 2), (102917466725542852990, .negSucc 0), (103416987495214948270, .ofNat 1), (106616244418876523450, .ofNat 1), (107133717595841611850, .negSucc 0), (128300904300681918050, .negSucc 0), (128923626259402617650, .ofNat 1), (149985564182487312650, .ofNat 1), (150713534922963623450, .negSucc 0), (172057450133610660725, .ofNat 1), (172892549098373932925, .negSucc 0), (194607917352448888165, .negSucc 0), (197579030594471008595, .ofNat 1), (212462470815414306895, .ofNat 1), (215706172659924448985, .negSucc 0), (217826924174279317450, .negSucc 1), (218884170104253573850, .ofNat 2), (236078826927512301925, .negSucc 0), (236939612847363181985, .negSucc 0), (237224660390792140525, .ofNat 1), (253695280297593530465, .negSucc 0), (258677942112846887555, .ofNat 1), (275633065676489075915, .ofNat 1), (284094859522938532825, .ofNat 1), (285473743860105796225, .negSucc 0), (300055839133701992885, .ofNat 1), (327584847688811624255, .negSucc 0), (332110892118364763725, .negSucc 0), (333722827329419451925, .ofNat 1), (349329759197048054075, .ofNat 1), (351025267993905847475, .negSucc 0), (359669582007947421935, .negSucc 0), (392667930011092079405, .ofNat 1), (400838334955076103575, .ofNat 1), (402783846052087460975, .negSucc 0), (435195906522654055310, .ofNat 2), (437308175713694957630, .negSucc 1), (454828804561270027730, .ofNat 1), (457036364091756384290, .negSucc 0), (482331046385904202925, .ofNat 1), (484672090945132913525, .negSucc 0), (554709181744775570990, .negSucc 0), (605601688465984087370, .ofNat 1), (743886815718862565450, .ofNat 1), (747497348765966677850, .negSucc 0), (839589860129428537550, .ofNat 1), (843664897987279841150, .negSucc 0), (909852187540751348425, .ofNat 2), (914268251008580535025, .negSucc 1), (963648078728733979615, .negSucc 0), (968325246223181691895, .ofNat 1), (1356194770107912387275, .ofNat 2), (1362777204333544571075, .negSucc 1), (3094063581459568478950, .negSucc 1), (3109080945088880363350, .ofNat 2), (3550282395316388345950, .negSucc 1), (3567514065032774654350, .ofNat 2), (4194716748636238540415, .negSucc 1), (4215076248393680230295, .ofNat 2), (4258702799543114684105, .ofNat 1), (4279372862341157799665, .negSucc 0), (5108829219657036079385, .negSucc 0), (5577545321635189323755, .ofNat 1), (6851140787517615917675, .ofNat 1), (6884393521268235090275, .negSucc 0), (7169296252999376597590, .negSucc 0), (7628017421893626498310, .ofNat 1), (7827052550802972863170, .ofNat 1), (7861339589629145623175, .ofNat 1), (7899495429715429591775, .negSucc 0), (8327859682827814328530, .negSucc 0), (8874155571822825362690, .negSucc 0), (8878203828845223148325, .negSucc 0), (8921295126668528727725, .ofNat 1), (9135146241312206768210, .ofNat 1), (9688326378701301414470, .ofNat 1), (9973261972555162482230, .negSucc 0), (13486722154286932859350, .ofNat 1), (13552181381425012932550, .negSucc 0), (13692626309314214277050, .negSucc 0), (13759084913965852824650, .ofNat 1), (15454219600238773569950, .negSucc 0), (15529228283555664006350, .ofNat 1), (16151402439347289670850, .ofNat 1), (16229794973039378172050, .negSucc 0), (19892516849593056377450, .ofNat 1), (19989067276294898953850, .negSucc 0), (29863456198778208474275, .negSucc 0), (30008401630298242922075, .ofNat 1), (30319386827767188756325, .ofNat 2), (30466545166638674111725, .negSucc 1), (34220057686242998619175, .ofNat 2), (34386148342158970299775, .negSucc 1), (35763819687126141414025, .negSucc 0), (35937403154587194523825, .ofNat 1), (44047715881241767692925, .negSucc 0), (44261506111795847683525, .ofNat 1), (70253458164234048627565, .ofNat 2), (76698951964364564789095, .negSucc 1), (85535200237898108696585, .ofNat 2), (93382737102737726407355, .negSucc 1), (124211681520207515227525, .ofNat 2), (124814556005261664909325, .negSucc 1), (126108043070134347521075, .negSucc 0), (126720121745800010938475, .ofNat 1), (144702638918782473390575, .negSucc 0), (145404968424803573411975, .ofNat 1), (151230577516622284220225, .ofNat 2), (151964591060508997776425, .negSucc 1), (1100160607750409420586650, .negSucc 1), (1105500353189460460625450, .ofNat 2), (1339470829432940231664850, .negSucc 1), (1345972092250222551734050, .ofNat 2), (4575920419973446324336150, .ofNat 1), (4598130131919028968338950, .negSucc 0), (4868706697697582762225350, .negSucc 0), (4892337478694429668650550, .ofNat 1), (5664074723392342529859650, .ofNat 1), (5691565906913739873554450, .negSucc 0), (5830656280604371571176850, .negSucc 0), (5858955985267215520110050, .ofNat 1), (10132395215655488289601475, .negSucc 0), (10181573863534992715607675, .ofNat 1), (10780707687758933259213275, .ofNat 1), (10833032988537665694869075, .negSucc 0), (12541879744654472744689225, .negSucc 0), (12602753079594709720013425, .ofNat 1), (12910738907052537050463025, .ofNat 1), (12973402538805977223100825, .negSucc 0), (44840417028794912997136525, .negSucc 1), (45058054717899461032266325, .ofNat 2), (54594238483500644603501225, .negSucc 1), (54859217372843748197289425, .ofNat 2)])

def upr30 : Tr := .node .nil (.node .nil (.node (.node upr29 .nil) .nil))

def upr31 : Tr := .node (.node (.node .nil (.node (.node .nil (.leaf [(19504588372430, .negSucc 0), (19599255947390, .ofNat 1), (43188731396095, .ofNat 1), (43398352454935, .negSucc 0), (730153641907790, .negSucc 0), (733697519548670, .ofNat 1), (15260211115872811, .negSucc 0), (15334278158567203, .ofNat 1), (124491195945278195, .ofNat 1), (125095427083048235, .negSucc 0)])) .nil)) (.node .nil (.node .nil (.node (.leaf [(91586, .negSucc 0)]) .nil)))) (.node (.node (.node .nil (.node (.leaf [(1, .ofNat 1)]) .nil)) .nil) (.node (.node (.node .nil (.leaf [(45793, .ofNat 1)])) .nil) .nil))

def upr32 : Tr := .node (.node (.node (.leaf [(21, .negSucc 0)]) .nil) (.node (.leaf [(166, .negSucc 0), (178, .negSucc 0), (1501, .negSucc 0), (3710, .ofNat 2), (5530, .ofNat 2), (7490, .negSucc 1), (8215, .negSucc 1), (12245, .negSucc 1), (16366, .negSucc 0), (16585, .ofNat 2), (16954, .negSucc 0), (28595, .ofNat 3), (39235, .negSucc 1), (40565, .ofNat 1), (47215, .ofNat 3), (55195, .negSucc 1), (59185, .ofNat 1), (66633, .ofNat 1), (69027, .ofNat 1), (72485, .ofNat 1), (105350, .ofNat 1), (149450, .ofNat 1), (160153, .negSucc 2), (173950, .ofNat 1), (218050, .ofNat 1), (233275, .negSucc 0), (253270, .negSucc 1), (267050, .ofNat 1), (330925, .negSucc 0), (347510, .ofNat 2), (385175, .negSucc 0), (418190, .negSucc 1), (423178, .ofNat 1), (438382, .ofNat 1), (482825, .negSucc 0), (488870, .ofNat 2), (591325, .negSucc 0), (1233575, .negSucc 1), (1339310, .negSucc 5), (1418498, .ofNat 1), (1838725, .negSucc 1), (1996330, .negSucc 5), (2724050, .negSucc 0), (2965615, .ofNat 4), (3864350, .negSucc 0), (4141099, .ofNat 1), (4420445, .ofNat 4), (4497850, .negSucc 0), (5638150, .negSucc 0), (6031825, .ofNat 1), (6174658, .ofNat 4), (6268846, .negSucc 0), (6905150, .negSucc 0), (8556775, .ofNat 1), (9959525, .ofNat 1), (10322795, .negSucc 2), (10925950, .ofNat 2), (12484475, .ofNat 1), (13672457, .negSucc 0), (14163835, .ofNat 3), (15289975, .ofNat 1), (16285850, .ofNat 2), (17044615, .negSucc 2), (19925395, .ofNat 3), (31896725, .ofNat 2), (38031350, .negSucc 0), (47544175, .ofNat 2), (52182550, .ofNat 1), (57815233, .ofNat 4), (60423439, .ofNat 1), (62795950, .negSucc 0), (69077890, .ofNat 2), (73409350, .ofNat 1), (84212275, .ofNat 1), (115547075, .negSucc 0), (139048175, .ofNat 1), (152958185, .negSucc 1), (162549275, .negSucc 0), (182840630, .negSucc 1), (222612670, .negSucc 1), (281912470, .ofNat 2), (282513850, .negSucc 1), (404861395, .ofNat 2), (421105550, .negSucc 1), (445320575, .ofNat 2), (492928055, .ofNat 2), (624234755, .negSucc 1), (663779725, .ofNat 2), (983382050, .ofNat 1), (1349291650, .negSucc 0), (1623723850, .ofNat 1), (1683948245, .negSucc 1), (1791694205, .ofNat 3), (1898156050, .negSucc 0), (2084391295, .negSucc 1), (2145693655, .ofNat 3), (2177488825, .negSucc 0), (2642696035, .ofNat 1), (2987717225, .ofNat 1), (3595388525, .negSucc 0), (4203059825, .ofNat 1), (6600978650, .ofNat 1), (7905187150, .ofNat 1), (9736248550, .ofNat 1), (11514717725, .negSucc 1), (14616452725, .negSucc 0), (14914970170, .ofNat 2), (15869291530, .negSucc 1), (17163447175, .negSucc 1), (17504342975, .negSucc 0), (18461751470, .ofNat 2), (19004715230, .negSucc 1), (21558836075, .negSucc 0), (60794509475, .ofNat 2), (66005467430, .ofNat 6), (74018712775, .ofNat 2), (80363173870, .ofNat 6), (146154963595, .negSucc 3), (170682447950, .negSucc 0), (177947027855, .negSucc 3), (204405553450, .negSucc 0), (251751569650, .negSucc 0), (377939706175, .ofNat 1), (452612296925, .ofNat 1), (538465655350, .negSucc 1), (557449904225, .ofNat 1), (607905316445, .ofNat 3), (646801608005, .negSucc 2), (655594313150, .negSucc 1), (752465257495, .ofNat 3), (774595409455, .negSucc 2), (1571972316425, .negSucc 1), (1913912430325, .negSucc 1), (2239651165850, .ofNat 1), (2382953292650, .negSucc 0), (2772240422350, .ofNat 1), (2853772561150, .negSucc 0), (4959227581525, .negSucc 0), (5276539433725, .ofNat 1), (6138532363775, .negSucc 0), (6319067813975, .ofNat 1), (13923183374050, .ofNat 2), (16951795811450, .ofNat 2), (21946817920475, .negSucc 1), (26720755311775, .negSucc 1), (57910980145550, .negSucc 0), (61616363709950, .ofNat 1), (71682216635050, .negSucc 0), (73790404795450, .ofNat 1), (128231456036575, .ofNat 1), (136436233929175, .negSucc 0), (158724908263325, .ofNat 1), (163393039189925, .negSucc 0), (567482006229425, .ofNat 2), (690922387347325, .ofNat 2)]) .nil)) (.node .nil (.node (.leaf [(158, .ofNat 1), (1349, .ofNat 1), (1387, .negSucc 0), (1691, .ofNat 1), (1843, .negSucc 0), (15531, .negSucc 0), (16089, .negSucc 0), (68637, .negSucc 0), (1439206, .negSucc 0), (6360362, .negSucc 0), (13475731, .negSucc 0), (59554037, .negSucc 0)]) .nil))

end BP.EL
