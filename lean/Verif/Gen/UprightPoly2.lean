import Verif.Lemmas.Laurent
import Verif.Gen.UprightPoly1

/-!
# Generated by tools/gen_upright_poly.py
-/

namespace BP.EL

def upr33 : Tr := .node .nil (.leaf [(108730615, .negSucc 0), (118706245, .ofNat 1), (230574470, .ofNat 1), (239504230, .negSucc 0), (510557755, .negSucc 0), (530330795, .ofNat 1), (963042590, .ofNat 1), (1051398170, .negSucc 0), (4070327095, .negSucc 0), (4443764485, .ofNat 1), (8631547910, .ofNat 1), (8965833190, .negSucc 0), (39251752015, .ofNat 1), (42852954445, .negSucc 0), (44803962605, .negSucc 0), (46539144445, .ofNat 1), (66783265015, .negSucc 0), (69369668135, .ofNat 1), (83844487915, .ofNat 1), (88124013905, .negSucc 0), (90453282995, .ofNat 1), (93956385955, .negSucc 0), (125970329270, .ofNat 1), (137527639010, .negSucc 0), (180399351319, .ofNat 1), (187385913671, .negSucc 0), (197644650133, .ofNat 1), (204745655527, .ofNat 1), (205299093797, .negSucc 0), (212675109143, .negSucc 0), (340279345142, .negSucc 0), (343376150705, .negSucc 0), (355713018395, .negSucc 0), (371498710946, .ofNat 1), (372808392194, .negSucc 0), (374879636915, .ofNat 1), (386202705686, .negSucc 0), (388348366385, .ofNat 1), (407012177222, .ofNat 1), (421635369218, .ofNat 1), (728164500490, .ofNat 1), (754326099310, .ofNat 1), (756365082410, .negSucc 0), (783539875790, .negSucc 0), (825504297001, .ofNat 1), (855163134019, .ofNat 1), (901241249563, .negSucc 0), (933621174697, .negSucc 0), (1257311451005, .negSucc 0), (1348201435415, .negSucc 0), (1372665105815, .ofNat 1), (1381314620690, .negSucc 0), (1434810604210, .ofNat 1), (1469388081295, .ofNat 1), (1471678918655, .negSucc 0), (1471893908645, .ofNat 1), (1528674558895, .ofNat 1), (1604198979085, .negSucc 0), (1612364251085, .negSucc 0), (1670293505615, .negSucc 0), (1674808396765, .ofNat 1), (1734981153535, .ofNat 1), (1895292153970, .ofNat 1), (1945406540735, .ofNat 1), (1968693619730, .negSucc 0), (2123890363805, .negSucc 0), (2280775303930, .negSucc 0), (2369105881370, .ofNat 1), (2399814500650, .negSucc 0), (2619988565950, .ofNat 1), (2666258453890, .ofNat 1), (2769518143010, .negSucc 0), (2775963078790, .ofNat 2), (3030647378770, .negSucc 1), (3041331620530, .ofNat 2), (3150601020070, .ofNat 2), (3320362498390, .negSucc 1), (3404388012550, .negSucc 0), (3439656959410, .negSucc 1), (3716727965650, .ofNat 1), (3962484408050, .negSucc 0), (4125434975830, .negSucc 0), (4285206108470, .ofNat 1), (4326027632150, .ofNat 1), (4967057919950, .negSucc 0), (5313874965725, .ofNat 1), (5422767031850, .ofNat 1), (5801403253175, .negSucc 0), (6083250710950, .negSucc 0), (6209953796095, .ofNat 1), (6450454823855, .negSucc 0), (6641366364850, .ofNat 1), (6734377159745, .negSucc 0), (6976330830155, .negSucc 0), (7125609754795, .ofNat 1), (7352231246435, .ofNat 1), (7401572592155, .negSucc 0), (7538287742075, .ofNat 1), (7616383267265, .ofNat 1), (7736376305206, .ofNat 1), (7939361828405, .ofNat 1), (8035993100054, .negSucc 0), (8229897638225, .negSucc 0), (8347065932065, .negSucc 0), (8666062082335, .negSucc 0), (8667768782015, .negSucc 0), (8774072617825, .ofNat 1), (9112878222595, .ofNat 1), (9134891732195, .ofNat 1), (9461141084605, .ofNat 1), (9488670668755, .negSucc 0), (9516718483055, .negSucc 0), (9579061185475, .negSucc 0), (10389842049965, .ofNat 1), (10998485394175, .ofNat 1), (11713562136710, .negSucc 0), (12007555570525, .negSucc 0), (12788237947730, .ofNat 1), (13470055145675, .ofNat 1), (14705882665025, .negSucc 0), (16174230500405, .ofNat 2), (16800631144645, .negSucc 1), (16836234631090, .negSucc 0), (17230743646510, .negSucc 0), (17488273577810, .ofNat 1), (17700813182570, .ofNat 1), (18377277380630, .ofNat 1), (18386335797130, .negSucc 0), (18811600365130, .ofNat 1), (19088998311670, .negSucc 0), (20181181908790, .ofNat 1), (20962765017110, .negSucc 0), (24108758670415, .ofNat 2), (25042450196735, .negSucc 1), (25937173302715, .ofNat 1), (28100153513425, .ofNat 2), (28316812598545, .negSucc 0), (30678238208275, .negSucc 1), (37280233825985, .ofNat 1), (38724034350865, .negSucc 0), (39194657761405, .negSucc 0), (40692542771395, .negSucc 0), (40712600693645, .ofNat 1), (41885134482275, .ofNat 2), (42268496261555, .ofNat 1), (44686902798035, .negSucc 0), (45727939970825, .negSucc 1), (46417551109315, .ofNat 1), (55002447908270, .negSucc 0), (57132599868430, .ofNat 1), (58017628346711, .ofNat 1), (63112543542470, .negSucc 0), (63340530216293, .negSucc 0), (65556785816230, .ofNat 1), (70320061908730, .negSucc 0), (73931155398290, .ofNat 1), (74568503000179, .negSucc 0), (76756549872110, .ofNat 1), (76771666354990, .ofNat 1), (77456415245411, .ofNat 1), (80714064257270, .negSucc 0), (83798678177930, .negSucc 0), (84290935135630, .ofNat 1), (92024315299690, .negSucc 0), (114783685662485, .ofNat 1), (123958790404505, .ofNat 1), (125314662409055, .negSucc 0), (128412399640595, .ofNat 1), (129550916287415, .negSucc 0), (135331548926315, .negSucc 0), (140193760264985, .negSucc 0), (141436731584645, .ofNat 1), (243410629897330, .negSucc 0), (248887073976050, .negSucc 1), (252837512701970, .ofNat 1), (271721538416150, .ofNat 2), (370982619700150, .negSucc 1), (405018896884450, .ofNat 2), (473301704933695, .negSucc 0), (516725378080285, .ofNat 1), (538980680486945, .ofNat 1), (559854492411505, .negSucc 0), (608321998159355, .ofNat 1), (631881282265195, .negSucc 0), (702291761205335, .negSucc 0), (766724421333605, .ofNat 1), (834221886898195, .negSucc 0), (866333034734650, .ofNat 1), (866529892362755, .ofNat 1), (945815872307950, .negSucc 0), (1016655501582010, .negSucc 0), (1109929867051630, .ofNat 1), (1188689512775450, .negSucc 0), (1297747359678350, .ofNat 1), (1430456871306050, .ofNat 1), (1561695975206150, .negSucc 0), (1672224229836650, .negSucc 0), (1825644590733950, .ofNat 1), (1918308862626725, .negSucc 0), (2094306574396175, .ofNat 1), (2208082142640065, .ofNat 1), (2241793320390295, .negSucc 0), (2293597436653585, .negSucc 0), (2328614191411655, .ofNat 1), (2632098206859925, .ofNat 1), (2688390766059085, .ofNat 1), (2792507602268765, .negSucc 0), (2866109620054205, .negSucc 0), (2873583439287775, .negSucc 0), (3013290801475465, .ofNat 1), (3128448411722935, .ofNat 1), (3129064530307415, .ofNat 1), (3155781933778745, .negSucc 0), (3167440215034825, .negSucc 0), (3289749038356795, .negSucc 0), (3316856932746715, .ofNat 1), (3404527160043985, .negSucc 0), (3415471931542405, .negSucc 0), (3435535372382855, .ofNat 1), (3458041087956475, .ofNat 1), (3536378749912865, .ofNat 1), (3702782223209725, .ofNat 1), (3750732980037365, .negSucc 0), (4042498736625175, .negSucc 0), (4080923284556035, .ofNat 1), (4228595931352310, .ofNat 1), (4238970554531315, .negSucc 0), (4616553899130530, .negSucc 0), (4852101224404910, .negSucc 0), (5070993008964530, .negSucc 0), (5297263486544330, .ofNat 1), (5536237779170390, .ofNat 1), (6293903430202390, .ofNat 1), (6537655685579510, .negSucc 0), (9363319562280115, .negSucc 0), (10144155418346425, .negSucc 1), (10222369348074745, .ofNat 1), (11074843993187275, .ofNat 2), (15120533548101275, .negSucc 1), (16507786329467825, .ofNat 2), (41436910524157085, .negSucc 0), (45238593129668855, .ofNat 1), (46767880779756815, .ofNat 1), (47481276267390905, .negSucc 0), (51058660102056845, .negSucc 0), (51837506975469515, .ofNat 1), (57966370141520485, .ofNat 1), (60211309806501365, .negSucc 0), (81345071911304990, .ofNat 1), (84495429231222910, .negSucc 0), (86549865402064910, .negSucc 0), (89901795587886190, .ofNat 1), (100688937612256090, .ofNat 1), (103650219170248810, .negSucc 0), (104588450197202810, .negSucc 0), (107664417191121290, .ofNat 1), (150366628217855350, .negSucc 0), (164162207755862050, .ofNat 1), (180075773639506850, .negSucc 0), (196597056902656550, .ofNat 1), (221786335569269450, .negSucc 0), (242134407937800350, .ofNat 1), (332954676768108275, .ofNat 1), (363502031459408825, .negSucc 0), (398739213058908025, .ofNat 1), (435322054570168075, .negSucc 0), (491098314474810925, .ofNat 1), (536154760433700775, .negSucc 0), (797117653493063465, .negSucc 1), (827988674631944185, .ofNat 2), (970509066547329685, .negSucc 1), (1008095244419024165, .ofNat 2), (1384865167517881525, .negSucc 1), (1511921401965248575, .ofNat 2), (1686105175480706225, .negSucc 1), (1840799061574154675, .ofNat 2), (12265948626586950650, .ofNat 2), (13391303845977915950, .negSucc 1), (14934074411400540850, .ofNat 2), (16304220259656798550, .negSucc 1), (51018009911765620150, .negSucc 0), (54282352786645781350, .ofNat 1), (55698722793009844450, .ofNat 1), (59262556999866200050, .negSucc 0), (63150097435629903650, .negSucc 0), (65007354283861972850, .ofNat 1), (68943884277374454950, .ofNat 1), (70971537541859014550, .negSucc 0), (112968450518909587475, .ofNat 1), (120196638313287087275, .negSucc 0), (123332886184521798425, .negSucc 0), (131224233356846585825, .ofNat 1), (139832358607466215225, .ofNat 1), (143944855914265797025, .negSucc 0), (152661458042757721675, .negSucc 0), (157151261699830675075, .ofNat 1), (499936325473955230525, .ofNat 2), (545803626109454735575, .negSucc 1), (608683968348534947225, .ofNat 2), (664528461228269837675, .negSucc 1)])

def upr34 : Tr := .node (.node (.node (.node (.node (.leaf [(2, .ofNat 1)]) .nil) .nil) .nil) upr32) (.node (.node .nil (.node (.node (.leaf [(8869, .ofNat 1), (229327, .negSucc 0)]) .nil) .nil)) (.node (.node upr33 .nil) .nil))

def upr35 : Tr := .node (.leaf [(4130, .negSucc 0), (4270, .negSucc 0), (5810, .negSucc 0), (6230, .negSucc 0), (7070, .negSucc 0), (9145, .ofNat 1), (9455, .ofNat 1), (12865, .ofNat 1), (13795, .ofNat 1), (15655, .ofNat 1), (35245, .negSucc 2), (52535, .negSucc 2), (71155, .ofNat 1), (129850, .negSucc 0), (155477, .ofNat 1), (161063, .ofNat 1), (193550, .negSucc 0), (262150, .ofNat 1), (287525, .ofNat 1), (312170, .ofNat 2), (428575, .ofNat 1), (465310, .ofNat 2), (580475, .negSucc 0), (1000825, .negSucc 0), (1086610, .negSucc 1), (1373225, .ofNat 1), (1490930, .ofNat 2), (1652525, .negSucc 0), (1794170, .negSucc 1), (1931825, .ofNat 1), (2097410, .ofNat 2), (2406065, .ofNat 1), (3301345, .negSucc 0), (3357550, .ofNat 1), (3972805, .ofNat 1), (4644265, .negSucc 0), (5004650, .ofNat 1), (5605355, .negSucc 0), (6085814, .ofNat 1), (6778450, .negSucc 0), (7434575, .negSucc 0), (8864450, .ofNat 1), (11081725, .negSucc 0), (12162850, .negSucc 0), (12723445, .ofNat 4), (14636650, .ofNat 1), (15009425, .ofNat 1), (17110450, .negSucc 0), (17153570, .negSucc 0), (18965135, .ofNat 4), (25878475, .ofNat 1), (35507675, .negSucc 0), (37982905, .ofNat 1), (42729575, .ofNat 1), (46875850, .ofNat 2), (49647430, .ofNat 1), (49951475, .negSucc 0), (58659251, .negSucc 0), (69871550, .ofNat 2), (70005110, .negSucc 1), (83913410, .ofNat 1), (103796525, .negSucc 1), (126313565, .negSucc 0), (154715575, .negSucc 1), (155011315, .ofNat 2), (177257710, .negSucc 0), (185808265, .negSucc 0), (199051475, .ofNat 1), (216113030, .ofNat 2), (219409610, .negSucc 0), (229209350, .negSucc 0), (285696530, .negSucc 0), (314496550, .ofNat 1), (342457430, .ofNat 1), (361297825, .ofNat 1), (378461950, .negSucc 0), (392499215, .ofNat 1), (442427350, .ofNat 1), (478535995, .negSucc 0), (485835565, .ofNat 1), (495734225, .negSucc 0), (596561525, .ofNat 1), (632613745, .ofNat 1), (656239955, .negSucc 0), (697388825, .negSucc 0), (758298595, .negSucc 0), (1118777290, .ofNat 1), (1212075550, .negSucc 1), (1736985985, .ofNat 3), (1763027350, .negSucc 0), (1806678650, .negSucc 1), (2023533155, .ofNat 2), (2114820365, .ofNat 3), (2417726150, .negSucc 0), (2678168465, .negSucc 0), (2683881575, .ofNat 2), (3210254915, .ofNat 1), (4000502725, .ofNat 2), (4560218075, .ofNat 1), (4951093910, .ofNat 2), (5146902425, .negSucc 0), (5353536475, .ofNat 1), (6399422050, .ofNat 1), (7455122150, .ofNat 1), (7791443450, .ofNat 1), (9342129475, .negSucc 0), (9866936450, .negSucc 0), (10963136515, .negSucc 0), (11827254950, .ofNat 1), (12818270675, .ofNat 1), (14170148825, .negSucc 0), (15384733010, .negSucc 1), (15425376575, .negSucc 0), (16507770475, .negSucc 0), (17252481925, .negSucc 0), (18032482475, .ofNat 1), (18731266090, .negSucc 1), (21848216425, .ofNat 1), (26188921675, .negSucc 0), (40390502950, .negSucc 0), (45586850050, .ofNat 1), (45599196965, .ofNat 2), (58938188575, .ofNat 1), (62515490450, .ofNat 1), (62709297175, .negSucc 0), (63990033310, .ofNat 2), (68084379790, .negSucc 1), (71857582475, .negSucc 0), (72953695325, .ofNat 1), (75099277925, .negSucc 0), (79206869210, .ofNat 2), (81536358890, .negSucc 1), (117914210225, .negSucc 0), (138427157425, .negSucc 0), (141692216615, .negSucc 0), (150758269535, .ofNat 1), (165470770150, .negSucc 0), (167997041450, .ofNat 1), (175386638965, .negSucc 0), (180544794685, .ofNat 1), (192768158450, .negSucc 0), (201464466350, .negSucc 0), (255130785350, .ofNat 1), (305819020850, .negSucc 0), (366399562475, .ofNat 1), (371993448925, .negSucc 0), (426843779425, .ofNat 1), (446099889775, .ofNat 1), (522023955950, .negSucc 0), (555425203550, .ofNat 1), (564932453275, .negSucc 0), (627051940585, .negSucc 3), (646161301450, .negSucc 0), (665165033050, .ofNat 1), (677170689025, .ofNat 1), (763450151765, .negSucc 3), (1044383004850, .ofNat 1), (1523973161725, .negSucc 0), (1621483255525, .ofNat 1), (1646238725075, .negSucc 0), (1858031775425, .ofNat 1), (1886374121975, .negSucc 0), (1941852757775, .ofNat 1), (2310191360050, .negSucc 1), (2812711085450, .negSucc 1), (4343923500350, .negSucc 0), (5115423725825, .ofNat 2), (6228145974925, .ofNat 2), (9618687750775, .ofNat 1), (13498048003850, .ofNat 1), (14361708834650, .negSucc 0), (16707885080350, .ofNat 1), (17199267283150, .negSucc 0), (21276686075575, .negSucc 0), (22638056280175, .ofNat 1), (26336284012325, .negSucc 0), (27110839330925, .ofNat 1), (42567029891225, .ofNat 1), (59734948024150, .ofNat 2), (72728672352350, .ofNat 2), (132270242053475, .negSucc 1), (161042060208775, .negSucc 1), (550154311382725, .ofNat 1), (585355455244525, .negSucc 0), (680981058032975, .ofNat 1), (701008845556775, .negSucc 0)]) .nil

def upr36 : Tr := .node (.node (.node (.node (.node (.leaf [(6, .ofNat 1), (133, .negSucc 0), (3439, .ofNat 1)]) (.leaf [(46, .negSucc 0)])) .nil) .nil) (.node (.node (.node .nil (.leaf [(6, .negSucc 0), (133, .ofNat 1), (3439, .negSucc 0)])) .nil) (.node (.node (.leaf [(1, .negSucc 0)]) .nil) .nil))) (.node (.node (.node (.node .nil (.leaf [(1991, .ofNat 1)])) .nil) (.node (.node .nil (.leaf [(1, .ofNat 1)])) .nil)) (.node (.node .nil upr35) .nil))

def upr37 : Tr := .node (.leaf [(461965, .ofNat 1), (1045870, .negSucc 0), (2315855, .ofNat 1), (4091690, .negSucc 0), (17293645, .ofNat 1), (39152110, .negSucc 0), (166769365, .negSucc 0), (203227705, .ofNat 1), (302924315, .ofNat 1), (410289895, .negSucc 0), (535211570, .negSucc 0), (818279099, .negSucc 0), (896502593, .negSucc 0), (928712267, .negSucc 0), (1445748722, .ofNat 1), (1458906155, .ofNat 1), (1511321945, .ofNat 1), (1583955254, .ofNat 1), (1640863826, .ofNat 1), (3302904290, .negSucc 0), (3421571510, .negSucc 0), (3507329491, .negSucc 0), (3633341329, .negSucc 0), (5341953455, .ofNat 1), (5728118765, .ofNat 1), (6243005845, .negSucc 0), (6265548490, .ofNat 1), (6675434755, .ofNat 1), (7313573785, .ofNat 1), (7576336915, .ofNat 1), (8265470885, .negSucc 0), (8596915370, .negSucc 0), (10196119150, .ofNat 1), (10345440530, .ofNat 1), (11794265890, .negSucc 1), (12093965690, .negSucc 0), (12921740230, .negSucc 1), (13385994370, .negSucc 1), (14464262050, .ofNat 1), (16835452550, .ofNat 1), (18712690430, .ofNat 1), (21103595450, .ofNat 1), (22577120975, .negSucc 0), (25845976450, .ofNat 1), (28167924995, .negSucc 0), (28612424795, .ofNat 1), (29640416105, .ofNat 1), (32028008825, .negSucc 0), (32321277695, .negSucc 0), (33732056855, .negSucc 0), (35091672926, .negSucc 0), (35464273915, .ofNat 1), (36819596485, .ofNat 1), (37278502075, .negSucc 0), (40433790005, .ofNat 1), (41435243095, .negSucc 0), (46729389925, .negSucc 0), (49767544610, .ofNat 1), (57230376425, .negSucc 0), (73208456410, .ofNat 1), (73365201505, .negSucc 1), (76368006890, .ofNat 1), (80289675970, .negSucc 0), (83358071230, .negSucc 0), (91540458590, .negSucc 0), (109355677715, .negSucc 1), (110199563065, .negSucc 0), (119389441675, .negSucc 1), (169100586685, .negSucc 0), (177784282505, .ofNat 1), (177957847025, .negSucc 1), (184578586295, .ofNat 1), (202696729735, .ofNat 1), (246500157101, .negSucc 0), (249487335670, .ofNat 1), (286274173870, .ofNat 1), (298769646430, .ofNat 1), (314112140390, .negSucc 0), (326116426010, .negSucc 0), (338237621159, .ofNat 1), (358127854330, .negSucc 0), (487682750135, .negSucc 0), (526665121955, .negSucc 0), (545587222145, .negSucc 0), (550424450765, .ofNat 1), (1057449340550, .ofNat 2), (1104093941930, .ofNat 1), (1576198073650, .ofNat 2), (2010922334245, .ofNat 1), (2444779442845, .negSucc 0), (2759306909455, .negSucc 0), (2983834989485, .ofNat 1), (3680799013150, .negSucc 0), (3783973329095, .ofNat 1), (4319475786910, .ofNat 1), (5050398645950, .ofNat 1), (6077598370550, .negSucc 0), (7104798095150, .ofNat 1), (8150340671975, .ofNat 1), (10015709330365, .negSucc 0), (10168620923195, .ofNat 1), (11183025573175, .negSucc 0), (12177272524655, .ofNat 1), (12194356341785, .negSucc 0), (12802602883315, .negSucc 0), (13291874331085, .negSucc 0), (13457539249075, .ofNat 1), (14596598191805, .negSucc 0), (15442701964685, .ofNat 1), (15732052924975, .negSucc 0), (17966083604210, .negSucc 0), (18510788447735, .negSucc 0), (20615177630810, .ofNat 1), (21545185644230, .ofNat 1), (28548714784190, .negSucc 0), (39782042266465, .ofNat 1), (43099588444675, .ofNat 2), (64242782776025, .ofNat 2), (176053472798735, .ofNat 1), (198703226726165, .negSucc 0), (201734238244355, .ofNat 1), (262931483871185, .negSucc 0), (368975673498790, .negSucc 0), (392584260209110, .ofNat 1), (456718123131890, .negSucc 0), (470150293411010, .ofNat 1), (638864402676850, .ofNat 1), (765089986563350, .ofNat 1), (942306125199950, .ofNat 1), (1414628320213025, .negSucc 0), (1694127827390275, .negSucc 0), (2086534991514175, .negSucc 0), (3615671068261765, .ofNat 2), (4402162639384385, .ofNat 2), (5883892380378775, .ofNat 2), (7163774226706475, .ofNat 2), (52114475369069150, .negSucc 1), (63450571722257350, .negSucc 1), (216760798684793650, .ofNat 1), (230630049366342850, .negSucc 0), (268306536864992150, .ofNat 1), (276197485149369350, .negSucc 0), (479970339944900225, .negSucc 0), (510680823596902025, .ofNat 1), (594107331629625475, .negSucc 0), (611580145687889275, .ofNat 1), (2124085149316737775, .negSucc 1), (2586122495841037475, .negSucc 1)]) .nil

def upr38 : Tr := .node (.node (.node (.node (.node (.leaf [(2, .negSucc 0)]) (.leaf [(67464113710, .ofNat 1), (149384823215, .negSucc 0)])) .nil) .nil) (.node .nil (.node .nil upr37))) (.node (.node .nil (.node (.node (.leaf [(722, .negSucc 1)]) .nil) .nil)) .nil)

def upr39 : Tr := .node (.node (.node (.node (.node (.leaf [(149, .negSucc 0)]) .nil) .nil) .nil) (.node (.node (.node .nil (.leaf [(42316895, .negSucc 0), (7876520890, .ofNat 1), (17440867685, .negSucc 0), (1592745045685, .ofNat 1)])) .nil) .nil)) (.node .nil (.node (.node (.node .nil (.leaf [(173, .ofNat 1)])) .nil) .nil))

def upr40 : Tr := .node (.node (.node .nil (.node (.node (.leaf [(362, .ofNat 1)]) .nil) .nil)) (.node (.node (.node .nil (.leaf [(1852535, .ofNat 1), (2019055, .negSucc 0), (668765135, .negSucc 0), (728878855, .ofNat 1), (1263428870, .negSucc 0), (1376995510, .ofNat 1)])) .nil) (.node .nil (.node (.leaf [(4690, .negSucc 0), (10385, .ofNat 1)]) .nil)))) (.node (.node .nil (.node .nil (.node (.leaf [(41921410, .ofNat 1), (443338685, .negSucc 0)]) .nil))) (.node (.node (.node (.leaf [(83, .ofNat 1)]) .nil) .nil) .nil))

def upr41 : Tr := .node (.node (.node (.node (.node .nil (.leaf [(2, .ofNat 1)])) .nil) .nil) .nil) (.node (.node (.node (.node (.leaf [(38, .negSucc 0)]) .nil) .nil) .nil) (.node (.node (.node .nil (.leaf [(29, .ofNat 1)])) .nil) .nil))

def upr42 : Tr := .node (.node (.node (.node (.node (.leaf [(19, .ofNat 1)]) (.leaf [(78422751470, .negSucc 0), (173650378255, .ofNat 1)])) .nil) .nil) (.node .nil (.node (.node (.leaf [(42, .negSucc 0), (93, .ofNat 1)]) .nil) (.node (.leaf [(4690, .negSucc 0), (10385, .ofNat 1), (175570, .negSucc 0), (911335, .ofNat 1), (1358405, .ofNat 1), (1839865, .negSucc 0), (3669413, .negSucc 0), (4020191, .negSucc 0), (4164629, .negSucc 0), (14811230, .negSucc 0), (15343370, .negSucc 0), (28096630, .ofNat 1), (29934685, .ofNat 1), (32796295, .ofNat 1), (33974605, .ofNat 1), (38551190, .negSucc 0), (46392110, .ofNat 1), (54233030, .negSucc 0), (83913410, .ofNat 1), (126313565, .negSucc 0), (144938465, .negSucc 0), (157361762, .negSucc 0), (185808265, .negSucc 0), (328991935, .negSucc 1), (342457430, .ofNat 1), (360043390, .negSucc 0), (373803010, .negSucc 0), (410495330, .negSucc 0), (490384205, .negSucc 1), (758298595, .negSucc 0), (797238935, .ofNat 1), (827706665, .ofNat 1), (908953945, .ofNat 1), (1118777290, .ofNat 1), (1283740690, .ofNat 1), (1516760633, .ofNat 1), (4951093910, .ofNat 1), (10963136515, .negSucc 0), (12373573585, .negSucc 0), (16968490265, .ofNat 1), (44913494755, .negSucc 0), (45599196965, .ofNat 1), (54683212295, .negSucc 0), (69249784595, .ofNat 1), (83008019945, .negSucc 0), (128021142530, .negSucc 0), (1179064950095, .negSucc 0), (1654599432730, .negSucc 0), (1760467534570, .ofNat 1), (2048063332430, .negSucc 0), (2108297279870, .ofNat 1), (16213771606555, .ofNat 2), (19740639638495, .ofNat 2)]) .nil)))) (.node (.node .nil (.node (.node (.leaf [(2527, .negSucc 0)]) .nil) (.node (.leaf [(45793, .ofNat 1)]) .nil))) (.node (.node (.node (.leaf [(1169, .ofNat 1), (1211, .ofNat 1), (6623, .negSucc 0), (27029, .negSucc 0), (28417, .ofNat 1), (29503, .ofNat 1), (32399, .ofNat 1), (39878, .ofNat 1), (45758, .ofNat 1), (390773, .negSucc 0), (441047, .negSucc 0)]) .nil) (.node (.leaf [(3439, .negSucc 0)]) .nil)) .nil))

def upr43 : Tr := .node (.node (.node .nil (.node (.node (.leaf [(3, .ofNat 1), (266, .negSucc 0), (589, .ofNat 1), (1083, .negSucc 0), (6878, .ofNat 1)]) (.leaf [(4525381589, .ofNat 1), (4748545927, .negSucc 0)])) .nil)) (.node (.node (.node (.leaf [(817, .ofNat 1)]) .nil) .nil) .nil)) (.node (.node (.node (.node (.leaf [(63, .negSucc 0)]) .nil) (.node (.leaf [(254, .ofNat 1), (2489, .negSucc 0)]) .nil)) .nil) (.node (.node (.node (.leaf [(38407, .negSucc 0), (40301, .ofNat 1)]) .nil) .nil) .nil))

def upr44 : Tr := .node (.node (.node (.node upr21 upr22) (.node upr24 upr25)) (.node (.node upr27 upr28) (.node upr30 upr31))) (.node (.node (.node upr34 upr36) (.node upr38 upr39)) (.node (.node upr40 upr41) (.node upr42 upr43)))

def upr45 : Tr := .node (.node (.node .nil (.node (.node (.leaf [(9369517, .ofNat 1), (10179727, .negSucc 0)]) .nil) .nil)) (.node (.node .nil (.node (.leaf [(1007, .ofNat 1)]) .nil)) .nil)) (.node (.node (.node (.node .nil (.leaf [(1, .ofNat 1)])) .nil) .nil) (.node (.node (.node (.leaf [(1007, .ofNat 1)]) .nil) .nil) .nil))

def upr46 : Tr := .node (.node (.node (.node (.node (.leaf [(127, .ofNat 1)]) .nil) .nil) .nil) (.node .nil (.node .nil (.node (.leaf [(546385, .negSucc 0), (4839410, .ofNat 1), (20453905, .negSucc 0), (197244985, .ofNat 1), (410289895, .ofNat 1), (633016730, .ofNat 1), (1709946458, .negSucc 0), (1725508295, .negSucc 0), (1787502605, .negSucc 0), (1873409006, .negSucc 0), (1940717114, .negSucc 0), (4148262799, .ofNat 1), (4297302181, .ofNat 1), (6318147995, .negSucc 0), (6774881585, .negSucc 0), (7383859705, .ofNat 1), (9775912265, .ofNat 1), (12059369350, .negSucc 0), (13949563210, .ofNat 2), (15283073470, .ofNat 2), (15832165930, .ofNat 2), (17107477450, .negSucc 0), (19911981950, .negSucc 0), (24960090050, .negSucc 0), (26702889275, .ofNat 1), (30569099050, .negSucc 0), (33841091255, .negSucc 0), (35056938845, .negSucc 0), (37880842925, .ofNat 1), (39896290595, .ofNat 1), (41945054935, .negSucc 0), (43548050665, .negSucc 0), (44090817175, .ofNat 1), (47822705945, .negSucc 0), (55268770825, .ofNat 1), (58862121290, .negSucc 0), (67688719325, .ofNat 1), (86586651490, .negSucc 0), (130337554285, .ofNat 1), (141206801575, .ofNat 2), (210478062725, .ofNat 2), (291545871089, .ofNat 1), (353367145270, .negSucc 0), (371513343710, .ofNat 1), (385711305890, .ofNat 1), (423572538370, .ofNat 1), (576802440515, .ofNat 1), (622908494495, .ofNat 1), (645288440405, .ofNat 1), (651009629585, .negSucc 0), (1250688813950, .negSucc 1), (1864234269850, .negSucc 1), (2378400527305, .negSucc 0), (3529104327665, .negSucc 0), (4353432335350, .ofNat 1), (5108821615990, .negSucc 0), (5973314134550, .negSucc 0), (7188225483950, .ofNat 1), (8403136833350, .negSucc 0), (9639743028275, .negSucc 0), (13226624155075, .ofNat 1), (14402560904795, .negSucc 0), (15142164831535, .ofNat 1), (15442701964685, .negSucc 0), (15720846290065, .ofNat 1), (15916785000175, .negSucc 0), (17263996846145, .ofNat 1), (18606945845275, .ofNat 1), (21249225785690, .ofNat 1), (24382418213090, .negSucc 0), (25482376929470, .negSucc 0), (47051857096885, .negSucc 0), (50975655368575, .negSucc 1), (75982580643725, .negSucc 1), (208225681025915, .negSucc 0), (235014476280185, .ofNat 1), (238599378228095, .negSucc 0), (755611197074650, .negSucc 0), (904903385123150, .negSucc 0), (1114504198840550, .negSucc 0), (1673139079236725, .ofNat 1), (2003714638486975, .ofNat 1), (2467830726004075, .ofNat 1), (6959121444813475, .negSucc 1), (8472890329048775, .negSucc 1), (61637932796919350, .ofNat 2), (75045600057289150, .ofNat 2), (256371909104349850, .negSucc 0), (272775642143948650, .ofNat 1), (317337173043366350, .negSucc 0), (326670122029457150, .ofNat 1), (567680655873917525, .ofNat 1), (604003207604457725, .negSucc 0), (702675168881739775, .ofNat 1), (723340984493797975, .negSucc 0), (2512242841577664475, .ofNat 2), (3058713408786607775, .ofNat 2)]) .nil)))) (.node .nil (.node (.node (.node (.leaf [(5177, .ofNat 1), (5363, .ofNat 1), (22879, .ofNat 1)]) .nil) .nil) .nil))

def upr47 : Tr := .node .nil (.leaf [(229987310, .negSucc 0), (237783490, .negSucc 0), (323541470, .negSucc 0), (346930010, .negSucc 0), (383568710, .ofNat 1), (393707090, .negSucc 0), (509257615, .ofNat 1), (526520585, .ofNat 1), (716413255, .ofNat 1), (768202165, .ofNat 1), (849330715, .negSucc 0), (871779985, .ofNat 1), (1962688315, .negSucc 2), (2925516545, .negSucc 2), (3860372215, .negSucc 0), (3962408485, .ofNat 1), (7230956950, .negSucc 0), (8658047699, .ofNat 1), (8969115281, .ofNat 1), (10778218850, .negSucc 0), (14222423950, .negSucc 0), (14598347050, .ofNat 1), (16011404675, .ofNat 1), (17383810790, .ofNat 2), (23866056025, .ofNat 1), (25911717970, .ofNat 2), (31492510175, .ofNat 1), (32324911325, .negSucc 0), (55732941775, .negSucc 0), (60510051070, .negSucc 1), (76470780575, .ofNat 1), (83025418910, .ofNat 2), (92024159675, .negSucc 0), (99911944790, .negSucc 1), (107577538775, .ofNat 1), (116798470670, .ofNat 2), (133986541655, .ofNat 1), (183841999015, .negSucc 0), (186971886850, .ofNat 1), (221233592035, .ofNat 1), (258625185055, .negSucc 0), (278693944550, .ofNat 1), (312145403885, .negSucc 0), (338900724218, .ofNat 1), (367751247850, .ofNat 1), (377471545150, .negSucc 0), (414009178025, .negSucc 0), (493634627150, .ofNat 1), (617108020075, .negSucc 0), (677312627950, .negSucc 0), (708530481715, .ofNat 4), (814306334525, .negSucc 0), (815071128550, .ofNat 1), (835829849975, .ofNat 1), (952829629150, .negSucc 0), (955230852590, .negSucc 0), (1056111472745, .ofNat 4), (1441094637325, .ofNat 1), (1977315897725, .negSucc 0), (2115154030735, .ofNat 1), (2379481843025, .ofNat 1), (2610375458950, .ofNat 2), (2764716434410, .ofNat 1), (2781647788325, .negSucc 0), (3266557710437, .negSucc 0), (3797987232830, .ofNat 1), (3890937004850, .ofNat 2), (3898374560570, .negSucc 1), (4672886062670, .ofNat 1), (5780117087675, .negSucc 1), (7034023494155, .negSucc 0), (8409828872695, .negSucc 0), (8615646225025, .negSucc 1), (8632115098405, .ofNat 2), (9870950096770, .negSucc 0), (10347104853055, .negSucc 0), (11084579488325, .ofNat 1), (12034686301610, .ofNat 2), (12218262952070, .negSucc 0), (12763981073450, .negSucc 0), (15499893842090, .ofNat 1), (15909582666110, .negSucc 0), (17513369379850, .ofNat 1), (19070426904410, .ofNat 1), (20119591980775, .ofNat 1), (21075410609650, .negSucc 0), (21857103785705, .ofNat 1), (24637451839450, .ofNat 1), (26648233953565, .negSucc 0), (27054725108155, .ofNat 1), (27605951787575, .negSucc 0), (33220721642675, .ofNat 1), (34321193507485, .negSucc 0), (35228361617815, .ofNat 1), (36544034374085, .negSucc 0), (38835491497775, .negSucc 0), (42227373859765, .negSucc 0), (62301350948230, .ofNat 1), (67496851152850, .negSucc 1), (96727538546695, .ofNat 3), (98177704039450, .negSucc 0), (100608513982550, .negSucc 1), (112684490802485, .ofNat 2), (117768001665755, .ofNat 3), (134635916115050, .negSucc 0), (145298673731645, .ofNat 1), (149139167310455, .negSucc 0), (149457313267025, .ofNat 2), (178769465451605, .ofNat 1), (222775995247075, .ofNat 2), (253944863942525, .ofNat 1), (275711566566170, .ofNat 2), (286615555340975, .negSucc 0), (298122385683325, .ofNat 1), (356364615698350, .ofNat 1), (415153387167050, .ofNat 1), (433882111400150, .ofNat 1), (520235164074325, .negSucc 0), (535310903221850, .ofNat 1), (549460090091150, .negSucc 0), (610504183110805, .negSucc 0), (658624346400650, .ofNat 1), (713811039078725, .ofNat 1), (789093077617775, .negSucc 0), (856729627127870, .negSucc 1), (858992945332025, .negSucc 0), (919268214441325, .negSucc 0), (960738960957475, .negSucc 0), (1004174851585325, .ofNat 1), (1043088014753830, .negSucc 1), (1185331285705525, .negSucc 0), (1216661628058975, .ofNat 1), (1458382481315725, .negSucc 0), (2249225937776650, .negSucc 0), (2538594918734350, .ofNat 1), (2539282481389955, .ofNat 2), (3282090907176025, .ofNat 1), (3481300116689150, .ofNat 1), (3492092631784225, .negSucc 0), (3563412984933970, .ofNat 2), (3791414857365730, .negSucc 1), (4001533195285325, .negSucc 0), (4062572431563275, .ofNat 1), (4182053489809475, .negSucc 0), (4410792925697270, .ofNat 2), (4540515217507430, .negSucc 1), (6566288624799575, .negSucc 0), (7708593115525975, .negSucc 0), (7890414466639505, .negSucc 0), (8395275755595545, .ofNat 1), (9214570777343050, .negSucc 0), (9355251247226150, .ofNat 1), (9766755764043955, .negSucc 0), (10053997981623595, .ofNat 1), (10734680439605150, .negSucc 0), (11218951737632450, .negSucc 0), (13841610497593550, .negSucc 0), (14207468043785450, .ofNat 1), (17030143814073950, .negSucc 0), (20403692435545325, .ofNat 1), (20715199190286475, .negSucc 0), (23769649544839975, .ofNat 1), (24841964561900425, .ofNat 1), (29069948034987650, .negSucc 0), (30649280387528575, .ofNat 1), (30929963310088850, .ofNat 1), (31459393525524925, .negSucc 0), (34918641415356895, .negSucc 3), (35982784393846150, .negSucc 0), (37041045195455350, .ofNat 1), (37709604159735175, .ofNat 1), (42514248601337555, .negSucc 3), (58158556391081950, .ofNat 1), (84865493456980075, .negSucc 0), (90295538050420675, .ofNat 1), (91674095883251525, .negSucc 0), (103468215478091975, .ofNat 1), (105046515730421825, .negSucc 0), (108135954522216425, .ofNat 1), (128647626267104350, .negSucc 1), (156631442215454150, .negSucc 1), (241900067963990450, .negSucc 0), (284862601020016775, .ofNat 2), (346826764905648475, .ofNat 2), (535635864777407425, .ofNat 1), (751665799190394950, .ofNat 1), (799760479875154550, .negSucc 0), (930411996469450450, .ofNat 1), (957775597196774050, .negSucc 0), (1184834817490545025, .negSucc 0), (1260645440074105225, .ofNat 1), (1466588647794342275, .negSucc 0), (1509721309821220475, .ofNat 1), (2370430193552646575, .ofNat 1), (3326460050620841050, .ofNat 2), (4050041577285314450, .ofNat 2), (7365732969231862325, .negSucc 1), (8967949206846053425, .negSucc 1), (30636443137969807075, .ofNat 1), (32596689236201863675, .negSucc 0), (37921792178682278825, .ofNat 1), (39037079582520129425, .negSucc 0)])

def upr48 : Tr := .node (.node (.node (.node (.node (.leaf [(19, .ofNat 1)]) .nil) .nil) .nil) (.node (.node (.node .nil (.leaf [(7490, .ofNat 1), (16585, .negSucc 0)])) (.node (.leaf [(46, .ofNat 1)]) .nil)) (.node .nil (.node (.leaf [(3513426253370, .ofNat 1), (3849292680590, .ofNat 1), (3987590621210, .ofNat 1), (37668078374345, .ofNat 1), (1185155726971475, .ofNat 1), (1337629206505025, .ofNat 1), (3073786978563350, .ofNat 1), (6806242595390275, .negSucc 0), (10497093581747350, .negSucc 0), (11847572971901650, .negSucc 0), (43660775102017850, .ofNat 1), (50098544237878850, .ofNat 1), (96677430583039525, .negSucc 0), (110932490812446025, .negSucc 0), (427841217436702475, .negSucc 0), (482884143548314025, .negSucc 0)]) .nil)))) (.node (.node (.node (.node (.leaf [(870067, .negSucc 0)]) .nil) .nil) (.node (.node .nil (.leaf [(188389121, .negSucc 0), (205673123, .ofNat 1)])) .nil)) (.node (.node upr47 .nil) .nil))

def upr49 : Tr := .node (.node (.node .nil (.node (.node (.leaf [(1, .ofNat 1), (361, .negSucc 1)]) (.leaf [(1, .ofNat 1)])) .nil)) (.node (.node (.node (.leaf [(362, .negSucc 0)]) (.leaf [(70, .negSucc 0), (155, .ofNat 1)])) (.node (.leaf [(46, .negSucc 0)]) .nil)) .nil)) (.node (.node .nil (.node .nil (.node (.leaf [(7514215, .negSucc 0)]) .nil))) (.node (.node (.node (.leaf [(239, .ofNat 1)]) (.leaf [(71, .ofNat 1)])) .nil) .nil))

def upr50 : Tr := .node (.leaf [(2905, .negSucc 1), (3115, .negSucc 1), (25730, .ofNat 2), (27590, .ofNat 2), (64925, .ofNat 2), (105070, .negSucc 3), (131075, .negSucc 1), (232655, .ofNat 2), (310954, .ofNat 2), (322126, .ofNat 2), (575050, .negSucc 3), (857150, .negSucc 1), (1048705, .ofNat 4), (1124515, .ofNat 4), (1160950, .ofNat 4), (1273325, .ofNat 2), (1843625, .ofNat 2), (1897975, .ofNat 2), (2001650, .ofNat 4), (2502325, .ofNat 2), (2570675, .negSucc 1), (2615375, .ofNat 2), (2746450, .negSucc 1), (2839550, .ofNat 2), (3042907, .ofNat 2), (3044125, .ofNat 2), (3305050, .ofNat 4), (3815875, .ofNat 2), (4142950, .ofNat 4), (4432225, .negSucc 5), (4673375, .ofNat 2), (5073950, .ofNat 2), (6081425, .ofNat 4), (6287575, .negSucc 1), (7318325, .negSucc 5), (8555225, .ofNat 2), (9173675, .negSucc 3), (11210710, .negSucc 1), (11235175, .negSucc 1), (16329250, .negSucc 3), (22163450, .negSucc 1), (23164750, .negSucc 3), (23437925, .negSucc 9), (24823715, .ofNat 2), (26962250, .negSucc 3), (33797750, .negSucc 3), (34935775, .negSucc 7), (36157625, .ofNat 2), (39256850, .ofNat 2), (41392750, .negSucc 3), (47318075, .ofNat 2), (47670875, .negSucc 1), (51293375, .ofNat 2), (53864050, .negSucc 1), (59702125, .ofNat 2), (64819450, .ofNat 2), (67626125, .negSucc 1), (74837875, .ofNat 2), (75774850, .negSucc 1), (78712375, .negSucc 1), (86350250, .negSucc 3), (91655375, .ofNat 2), (98667625, .negSucc 1), (99902950, .negSucc 1), (107124850, .negSucc 1), (108056515, .ofNat 6), (109704805, .negSucc 1), (120840125, .negSucc 1), (128710750, .negSucc 3), (191204125, .ofNat 8), (207593050, .ofNat 12), (221213675, .ofNat 2), (237205025, .ofNat 2), (285002375, .ofNat 8), (309431150, .ofNat 12), (398102950, .ofNat 2), (422227750, .ofNat 4), (459670325, .negSucc 3), (598974250, .ofNat 4), (665548625, .negSucc 3), (685168975, .negSucc 3), (697166750, .ofNat 4), (722595650, .negSucc 3), (873913250, .ofNat 4), (881513675, .negSucc 1), (903339325, .negSucc 1), (913194625, .ofNat 2), (934932875, .negSucc 1), (944150375, .negSucc 1), (957071990, .negSucc 3), (971671130, .ofNat 2), (991468450, .ofNat 4), (1070298250, .ofNat 4), (1098929125, .negSucc 3), (1193123050, .negSucc 3), (1208863075, .ofNat 2), (1284663625, .ofNat 2), (1326300125, .negSucc 1), (1377530875, .negSucc 1), (1394777650, .ofNat 4), (1543726375, .negSucc 1), (1600033225, .ofNat 6), (1687088375, .negSucc 1), (1693522250, .negSucc 3), (1935093625, .negSucc 1), (2195394425, .negSucc 5), (2232770750, .ofNat 4), (2369946125, .negSucc 1), (2524306750, .negSucc 3), (2641915325, .ofNat 6), (3088436225, .negSucc 5), (3199711025, .negSucc 1), (3328092250, .ofNat 4), (3727561075, .ofNat 2), (4047066310, .ofNat 6), (4229640730, .ofNat 4), (4933468225, .ofNat 2), (4943992375, .negSucc 7), (5894859250, .ofNat 4), (7369347125, .negSucc 7), (8088295250, .negSucc 3), (8461090925, .ofNat 8), (8961361115, .negSucc 3), (9365633045, .negSucc 1), (9733372250, .ofNat 4), (10293804850, .negSucc 1), (10707072950, .negSucc 3), (11378449250, .negSucc 3), (12611814775, .ofNat 8), (13052902625, .negSucc 1), (17209185875, .ofNat 4), (17909796625, .ofNat 2), (21552467125, .negSucc 1), (22793425025, .ofNat 2), (23612603875, .negSucc 1), (23708518675, .ofNat 2), (24413031125, .ofNat 2), (25195137625, .ofNat 2), (28340297650, .ofNat 4), (28415167375, .ofNat 4), (31172440250, .ofNat 4), (33015540950, .negSucc 1), (33217730875, .negSucc 1), (34504963850, .ofNat 2), (35619012625, .ofNat 2), (39008401915, .negSucc 5), (39603434605, .ofNat 4), (43623285125, .ofNat 2), (43696432850, .negSucc 3), (43789646750, .ofNat 4), (46464580750, .ofNat 4), (62753516225, .negSucc 1), (65271360250, .ofNat 4), (69024689125, .negSucc 7), (76403848525, .negSucc 1), (96384079225, .negSucc 1), (96756387025, .ofNat 2), (100732233175, .negSucc 1), (102885857375, .negSucc 7), (115517126375, .ofNat 2), (117876377150, .negSucc 1), (125418594350, .ofNat 4), (138340775125, .ofNat 2), (143715164950, .negSucc 1), (150198555850, .ofNat 4), (152424217750, .negSucc 3), (170384349625, .ofNat 2), (184988722450, .ofNat 2), (209140205750, .ofNat 4), (240263053625, .ofNat 2), (251677196750, .negSucc 3), (261011977975, .ofNat 4), (277712601775, .negSucc 5), (294214187750, .ofNat 4), (318226436675, .ofNat 2), (323080650725, .ofNat 2), (329663259625, .negSucc 1), (332582516525, .negSucc 5), (337510767875, .ofNat 2), (396713414125, .ofNat 2), (409617885425, .negSucc 1), (436399570075, .negSucc 1), (463096169875, .negSucc 1), (463763568625, .negSucc 1), (557285221375, .ofNat 2), (651474272875, .negSucc 1), (806030240750, .negSucc 3), (853687558850, .ofNat 2), (892199779550, .ofNat 2), (1023151690750, .negSucc 3), (1155095680025, .ofNat 10), (1201441302250, .negSucc 3), (1225304008250, .negSucc 3), (1345649548075, .negSucc 1), (1406355542725, .ofNat 8), (1509118525250, .negSucc 3), (1780982029225, .negSucc 1), (1784781247375, .ofNat 8), (2265550172375, .ofNat 2), (2311820376350, .negSucc 1), (2459740187150, .ofNat 2), (2660334312125, .ofNat 8), (2713173161125, .ofNat 2), (2861571477850, .negSucc 1), (2945730860650, .ofNat 2), (2986942839125, .negSucc 1), (3341619591625, .ofNat 2), (3577097185375, .negSucc 1), (3716063550850, .ofNat 2), (3772748243950, .negSucc 1), (4255615663250, .ofNat 4), (4405652468875, .negSucc 1), (5181309894250, .ofNat 4), (6212516100875, .negSucc 1), (8228426434025, .negSucc 1), (8353942540175, .ofNat 2), (8524149998875, .ofNat 2), (9423148968625, .negSucc 7), (10230847451650, .negSucc 11), (10257875422375, .negSucc 1), (11472900480125, .negSucc 7), (11991600845875, .ofNat 2), (12456291949850, .negSucc 11), (22654019357225, .ofNat 4), (26455779432250, .ofNat 4), (27581789317525, .ofNat 4), (31682860784750, .ofNat 4), (34794652600225, .ofNat 2), (36364336176175, .ofNat 2), (39021493295750, .ofNat 4), (39193895402375, .ofNat 2), (41701682621375, .negSucc 3), (42553372151150, .ofNat 4), (45276112560350, .negSucc 3), (48514207391125, .ofNat 2), (49941019820125, .negSucc 3), (52672568024650, .ofNat 4), (54221678661850, .negSucc 3), (58580654457125, .negSucc 1), (61508750214625, .negSucc 1), (70154906023375, .negSucc 1), (83462176579250, .ofNat 4), (86404735154875, .negSucc 1), (94225324048975, .negSucc 5), (100254249240775, .ofNat 6), (101617118538250, .ofNat 4), (110038062149750, .negSucc 3), (116632114911725, .negSucc 5), (120062288465525, .ofNat 6), (133973870122750, .negSucc 3), (243655709045875, .ofNat 8), (296656426700375, .ofNat 8), (347145930706750, .negSucc 3), (369357760360750, .ofNat 4), (416989540489025, .negSucc 7), (429697265464250, .negSucc 3), (442334746978250, .ofNat 4), (507694350923725, .negSucc 7), (768680275136375, .ofNat 2), (817863612227375, .negSucc 1), (951472516385125, .ofNat 2), (979455511166125, .negSucc 1), (1013442152547125, .negSucc 1), (1078286364924125, .ofNat 4), (1254438791113375, .negSucc 1), (1291332083920375, .ofNat 4), (1536277254433250, .negSucc 3), (1590440541263875, .ofNat 2), (1870452871824250, .negSucc 3), (2158093422977750, .negSucc 3), (2627528350774750, .negSucc 3), (3401756777673625, .ofNat 8), (4141717073325125, .ofNat 8), (8976201922560250, .ofNat 4), (9550536375042250, .negSucc 3), (11110743578432750, .ofNat 4), (11437512743294750, .negSucc 3), (14148996240257375, .negSucc 1), (15054307426316375, .ofNat 2), (17513628868196125, .negSucc 1), (18028708155065125, .ofNat 2), (19875875685669125, .negSucc 1), (21147616259022125, .ofNat 2), (24602360780815375, .negSucc 1), (25325921074438375, .ofNat 2), (39723740436059750, .ofNat 4), (48364567114312750, .ofNat 4), (87959710965560875, .negSucc 7), (107092970038835375, .negSucc 7), (365852617069512125, .ofNat 2), (389261377737609125, .negSucc 1), (452852403591928375, .ofNat 2), (466170882295255375, .negSucc 1)]) .nil

def upr51 : Tr := .node (.node (.node (.node (.node (.leaf [(1, .ofNat 1)]) .nil) (.node (.leaf [(127, .negSucc 0), (362, .negSucc 0)]) .nil)) .nil) (.node (.node .nil upr50) .nil)) (.node (.node (.node (.node .nil (.leaf [(133, .ofNat 1)])) .nil) .nil) (.node (.node (.node (.leaf [(1349, .ofNat 1)]) .nil) .nil) .nil))

def upr52 : Tr := .node (.node (.node (.node (.node (.leaf [(6, .ofNat 1), (133, .negSucc 0), (139, .ofNat 1), (3439, .ofNat 1)]) .nil) .nil) .nil) (.node (.node (.node (.leaf [(35, .negSucc 0), (310, .ofNat 1), (12635, .ofNat 1)]) (.leaf [(722, .negSucc 1)])) .nil) .nil)) .nil

def upr53 : Tr := .node .nil (.node (.node .nil (.node .nil (.node (.leaf [(7514215, .negSucc 0)]) .nil))) .nil)

def upr54 : Tr := .node (.node .nil (.node .nil (.node .nil (.node (.leaf [(91586, .ofNat 1)]) .nil)))) (.node (.node (.node (.node (.leaf [(7, .negSucc 0)]) .nil) .nil) .nil) (.node (.node (.node (.leaf [(46367, .ofNat 1), (50621, .negSucc 0)]) .nil) .nil) .nil))

def upr55 : Tr := .node (.node (.node (.node (.node (.leaf [(19, .ofNat 1)]) .nil) .nil) .nil) .nil) (.node (.node (.node (.node .nil (.leaf [(19, .negSucc 0)])) .nil) .nil) .nil)

def upr56 : Tr := .node (.node (.node (.node (.node (.leaf [(3, .ofNat 1), (266, .negSucc 0), (589, .ofNat 1), (1083, .negSucc 0), (6878, .ofNat 1)]) .nil) .nil) .nil) .nil) (.node (.node (.node (.node (.leaf [(6847, .ofNat 1)]) .nil) .nil) .nil) (.node (.node (.node (.leaf [(501, .ofNat 1), (519, .ofNat 1), (26671, .ofNat 1), (41134, .ofNat 1), (46426, .ofNat 1), (378841, .ofNat 1), (434701, .ofNat 1)]) (.leaf [(199749269, .ofNat 1), (207485221, .negSucc 0)])) .nil) .nil))

def upr57 : Tr := .node .nil (.leaf [(447895, .negSucc 0), (933310, .ofNat 1), (2066615, .negSucc 0), (3967070, .ofNat 1), (16766935, .negSucc 0), (34938430, .ofNat 1), (161690095, .ofNat 1), (181355665, .negSucc 0), (270322595, .negSucc 0), (366133135, .ofNat 1), (518910710, .ofNat 1), (730213187, .ofNat 1), (800018009, .ofNat 1), (828761171, .ofNat 1), (1401715766, .negSucc 0), (1414472465, .negSucc 0), (1465291835, .negSucc 0), (1535712962, .negSucc 0), (1590888278, .negSucc 0), (2947434770, .ofNat 1), (3053330630, .ofNat 1), (3400507273, .ofNat 1), (3522681187, .ofNat 1), (5179254365, .negSucc 0), (5553658295, .negSucc 0), (5591229370, .negSucc 0), (5957002315, .negSucc 0), (6052863535, .ofNat 1), (6526462705, .negSucc 0), (6760946395, .negSucc 0), (7671686810, .ofNat 1), (8013730655, .ofNat 1), (9232029890, .negSucc 0), (9885577450, .negSucc 0), (10792372970, .ofNat 1), (11435049670, .ofNat 2), (12528184690, .ofNat 2), (12978299110, .ofNat 2), (14023726150, .negSucc 0), (16322697650, .negSucc 0), (16698768590, .negSucc 0), (20460846350, .negSucc 0), (21889492925, .ofNat 1), (25058789350, .negSucc 0), (25136399435, .ofNat 1), (27740980385, .negSucc 0), (28737662315, .negSucc 0), (28842754535, .ofNat 1), (31052536475, .ofNat 1), (31314990638, .ofNat 1), (32704684565, .ofNat 1), (34384143745, .negSucc 0), (35698187455, .negSucc 0), (36143116225, .ofNat 1), (36975844735, .ofNat 1), (39202304015, .negSucc 0), (45306159775, .ofNat 1), (48251781830, .negSucc 0), (55487319275, .ofNat 1), (65469395065, .ofNat 2), (68149028570, .negSucc 0), (70978757230, .negSucc 0), (71648634610, .ofNat 1), (74386798990, .ofNat 1), (81688570670, .ofNat 1), (97586456795, .ofNat 2), (106843231195, .ofNat 1), (115753215025, .ofNat 2), (150901420405, .ofNat 1), (158650548065, .negSucc 0), (164713626335, .negSucc 0), (172537811075, .ofNat 2), (180881835055, .negSucc 0), (222636680710, .negSucc 0), (238992538103, .ofNat 1), (255464397310, .negSucc 0), (289670063290, .negSucc 0), (301835365967, .negSucc 0), (304545273170, .ofNat 1), (316183946030, .ofNat 1), (347220406990, .ofNat 1), (472829468405, .ofNat 1), (510624559865, .ofNat 1), (528970352435, .ofNat 1), (533660254295, .negSucc 0), (985267688090, .negSucc 0), (1025242761650, .negSucc 1), (1528192040950, .negSucc 1), (1949675968735, .negSucc 0), (2181664166485, .ofNat 1), (2462341143415, .ofNat 1), (2892956766455, .negSucc 0), (3376729562735, .negSucc 0), (3568693459450, .ofNat 1), (4187918148730, .negSucc 0), (4896579397850, .negSucc 0), (5892493851650, .ofNat 1), (6888408305450, .negSucc 0), (7902106945925, .negSucc 0), (8937785456245, .ofNat 1), (9074240196035, .negSucc 0), (10842425809525, .ofNat 1), (10881959246705, .ofNat 1), (11806391127965, .negSucc 0), (12412675891945, .ofNat 1), (12887045671255, .ofNat 1), (13047664957225, .negSucc 0), (13780707134405, .negSucc 0), (14152031749415, .ofNat 1), (15252904104925, .ofNat 1), (16518595969055, .ofNat 1), (17418893240630, .ofNat 1), (19987304200430, .negSucc 0), (20888987096690, .negSucc 0), (25476207363470, .ofNat 1), (38570406461395, .negSucc 0), (41786910624025, .negSucc 1), (62286149798075, .negSucc 1), (170691438094205, .negSucc 0), (192651351800495, .ofNat 1), (195590048247065, .negSucc 0), (234633925068905, .ofNat 1), (329265287113270, .ofNat 1), (350333039379430, .negSucc 0), (407564603153570, .ofNat 1), (419551158694130, .negSucc 0), (619406603610550, .negSucc 0), (741787753470050, .negSucc 0), (913606446259850, .negSucc 0), (1371543193709075, .ofNat 1), (1642530025540825, .ofNat 1), (2022985702432525, .ofNat 1), (3226540549704445, .negSucc 1), (3928387288060505, .negSucc 1), (5704687536306325, .negSucc 1), (6945588209649425, .negSucc 1), (50527232464427450, .ofNat 2), (61518066999752050, .ofNat 2), (210158946948200950, .negSucc 0), (223605783903408550, .ofNat 1), (260134764168596450, .negSucc 0), (267785379002688050, .ofNat 1), (465351953956730675, .ofNat 1), (495127092928976075, .negSucc 0), (576012692087606425, .ofNat 1), (592953339220237825, .negSucc 0), (2059392200606583325, .ofNat 2), (2507357343683442425, .ofNat 2)])

def upr58 : Tr := .node (.node (.node (.node .nil (.node (.leaf [(47, .ofNat 1), (67, .ofNat 1), (73, .ofNat 1), (97, .ofNat 1), (103, .ofNat 1), (1503, .ofNat 1), (1557, .ofNat 1), (8183, .ofNat 1), (8477, .ofNat 1), (139278, .ofNat 2), (211589, .negSucc 0), (219191, .negSucc 0), (245051, .ofNat 1), (320306, .ofNat 2), (1000073, .ofNat 2), (1198763, .negSucc 0), (1304103, .ofNat 2), (2532253, .ofNat 1), (2694277, .ofNat 1), (3087329, .negSucc 1), (3134423, .ofNat 1), (3226607, .ofNat 1), (3973979, .ofNat 1), (4081379, .ofNat 1), (4892249, .negSucc 0), (7217918, .ofNat 1), (8282198, .negSucc 0), (70729913, .negSucc 0), (79829507, .ofNat 1)]) .nil)) .nil) .nil) (.node .nil (.node (.node upr57 .nil) .nil))

def upr59 : Tr := .node (.node (.node (.node (.node (.leaf [(37, .negSucc 0), (151, .negSucc 0), (181, .ofNat 1)]) (.leaf [(1, .ofNat 1)])) .nil) (.node (.node (.leaf [(2, .negSucc 1)]) .nil) .nil)) .nil) (.node .nil (.node (.node (.node .nil (.leaf [(151, .ofNat 1)])) (.node (.leaf [(46, .negSucc 0)]) .nil)) .nil))

def upr60 : Tr := .node (.node (.node (.node (.node (.leaf [(19, .ofNat 1)]) .nil) (.node (.leaf [(97, .ofNat 1)]) .nil)) .nil) (.node .nil (.node (.node (.leaf [(70, .ofNat 1), (155, .negSucc 0)]) .nil) (.node (.leaf [(589, .ofNat 1), (2170, .ofNat 1), (4805, .negSucc 0)]) .nil)))) (.node .nil (.node (.node (.node (.leaf [(158, .ofNat 1)]) .nil) .nil) .nil))

def upr61 : Tr := .node (.node (.node .nil (.node (.node (.leaf [(2, .negSucc 0)]) .nil) .nil)) (.node (.node (.node (.leaf [(1, .ofNat 1), (1330, .ofNat 1), (2945, .negSucc 0)]) .nil) .nil) .nil)) (.node (.node .nil (.node (.node .nil (.leaf [(1, .ofNat 1)])) .nil)) .nil)

def upr62 : Tr := .node (.leaf [(166, .ofNat 1), (178, .ofNat 1), (1501, .ofNat 1), (36239, .ofNat 1), (37541, .ofNat 1), (160153, .ofNat 1), (1418498, .ofNat 1), (6268846, .ofNat 1), (13672457, .negSucc 0), (60423439, .negSucc 0)]) (.leaf [(157604965, .ofNat 2), (168998095, .ofNat 2), (226039030, .negSucc 0), (233701370, .negSucc 0), (317987110, .negSucc 0), (336256270, .negSucc 0), (340974130, .negSucc 0), (386948170, .negSucc 0), (500514995, .ofNat 1), (517481605, .ofNat 1), (704114315, .ofNat 1), (744567455, .ofNat 1), (755014145, .ofNat 1), (856813805, .ofNat 1), (1395929690, .negSucc 1), (1496840270, .negSucc 1), (1928994095, .negSucc 2), (2875293085, .negSucc 2), (3384202955, .ofNat 1), (3522376025, .negSucc 1), (3894384305, .ofNat 1), (5700362710, .ofNat 4), (7106820350, .negSucc 0), (7111211975, .ofNat 2), (8509411687, .ofNat 1), (8815139053, .ofNat 1), (10593185050, .negSucc 0), (12468116150, .ofNat 1), (12622231715, .negSucc 1), (14347731650, .ofNat 1), (15736530775, .ofNat 1), (16870187362, .negSucc 1), (17085376270, .ofNat 2), (17476301878, .negSucc 1), (23456338325, .ofNat 1), (25466881610, .ofNat 2), (27607971475, .negSucc 0), (31198187650, .ofNat 4), (31769977225, .negSucc 0), (46502958950, .ofNat 2), (54776153075, .negSucc 0), (56895392365, .negSucc 3), (59471251910, .negSucc 1), (61008312295, .negSucc 3), (62985020350, .negSucc 3), (69081701225, .negSucc 1), (75157977475, .ofNat 1), (81600089830, .ofNat 2), (90444345775, .negSucc 0), (98196718270, .negSucc 1), (100022187125, .negSucc 1), (102970837675, .negSucc 1), (105730714075, .ofNat 1), (108595517450, .negSucc 3), (114793346710, .ofNat 2), (131686343515, .ofNat 1), (135758638225, .negSucc 1), (139466830775, .ofNat 2), (141891939875, .negSucc 1), (149003151850, .ofNat 2), (154054106150, .negSucc 1), (165086833471, .negSucc 1), (165152913625, .negSucc 1), (179308877650, .negSucc 3), (180685913195, .negSucc 0), (183762069050, .ofNat 1), (207022666375, .negSucc 1), (217435590455, .ofNat 1), (224767466350, .negSucc 3), (240461502925, .ofNat 6), (253544613875, .negSucc 1), (254185267715, .negSucc 0), (273909499150, .ofNat 1), (275277009350, .negSucc 1), (306786684505, .negSucc 0), (322389860450, .negSucc 0), (329935550525, .negSucc 3), (333082686034, .ofNat 1), (341119806475, .ofNat 2), (370991346950, .negSucc 0), (397041086225, .ofNat 6), (406901724325, .negSucc 0), (464146621925, .negSucc 1), (485160212950, .ofNat 1), (497699389775, .ofNat 4), (606513890975, .negSucc 0), (608214649630, .ofNat 2), (609541949275, .ofNat 2), (665684943350, .negSucc 0), (696366868295, .ofNat 4), (713863262425, .ofNat 1), (801078491150, .ofNat 1), (821480839675, .ofNat 1), (885910800250, .ofNat 4), (936472038950, .negSucc 0), (938832039670, .negSucc 0), (1037980803685, .ofNat 4), (1202433652850, .ofNat 2), (1256757181750, .ofNat 4), (1271577745025, .ofNat 10), (1346761009895, .negSucc 1), (1416354815225, .ofNat 1), (1462782949250, .ofNat 4), (1833629330750, .ofNat 4), (1895370601075, .ofNat 8), (1943370560425, .negSucc 0), (1961659629125, .negSucc 1), (2078842373555, .ofNat 1), (2129801883050, .negSucc 1), (2245680865750, .ofNat 4), (2338632369325, .ofNat 1), (2565562146350, .ofNat 2), (2567147522975, .negSucc 1), (2586287981375, .ofNat 2), (2717253491330, .ofNat 1), (2733894178225, .negSucc 0), (2782819473875, .negSucc 1), (2922286304650, .ofNat 2), (3210479466481, .negSucc 0), (3239019387625, .negSucc 1), (3329513036710, .negSucc 0), (3516649620850, .negSucc 1), (3668920159625, .ofNat 2), (3824139803050, .ofNat 2), (3831449675410, .negSucc 1), (4060179232375, .negSucc 1), (4111012937050, .ofNat 2), (4270382480875, .ofNat 2), (4592664842710, .ofNat 1), (4684760113250, .ofNat 4), (4972579059875, .negSucc 1), (5353014659125, .ofNat 2), (5420034746350, .ofNat 2), (5680887609775, .negSucc 1), (5811844487050, .ofNat 2), (5862390108295, .negSucc 5), (5951814785665, .ofNat 2), (6555939301625, .ofNat 2), (6913267726015, .negSucc 0), (6982944319750, .ofNat 4), (7372493152715, .ofNat 1), (8467738135325, .negSucc 1), (8483924281265, .ofNat 2), (9701491726010, .negSucc 0), (10169472151715, .negSucc 0), (10373397393625, .negSucc 7), (10894286278225, .ofNat 1), (11262545741650, .negSucc 11), (11828082244930, .ofNat 2), (12001505509775, .negSucc 1), (12008507364910, .negSucc 0), (12544856934850, .negSucc 0), (12869084221325, .negSucc 1), (13588012663330, .negSucc 0), (15462233850875, .negSucc 7), (15636456783430, .negSucc 0), (16787568180950, .negSucc 11), (17212710678050, .ofNat 1), (18743037601330, .ofNat 1), (19774191260075, .ofNat 1), (20713600985450, .negSucc 0), (21481874536165, .ofNat 1), (21598279346350, .negSucc 1), (22907122120750, .negSucc 3), (24214491292850, .ofNat 1), (24938494142225, .ofNat 4), (26190753542345, .negSucc 0), (26590266308015, .ofNat 1), (27132029868475, .negSucc 0), (30087742325945, .ofNat 1), (32496149985250, .negSucc 3), (32650408824775, .ofNat 1), (34623582877595, .ofNat 1), (35916668977105, .negSucc 0), (36108009552125, .ofNat 4), (37172472400675, .ofNat 4), (37823387687750, .negSucc 3), (38168787781075, .negSucc 0), (39202981799450, .ofNat 4), (41502440402945, .negSucc 0), (47412415552250, .negSucc 3), (47824761409775, .ofNat 2), (49008868399225, .ofNat 2), (49543547990125, .negSucc 1), (50722913267375, .ofNat 2), (51222990294875, .ofNat 2), (51924026673470, .ofNat 4), (52716073815890, .negSucc 1), (53790137817850, .negSucc 3), (58066890957250, .negSucc 3), (59620201818625, .ofNat 4), (61231799858990, .ofNat 1), (64730504831650, .ofNat 4), (65584448407975, .negSucc 1), (66338106927050, .negSucc 1), (69696855647125, .negSucc 1), (71955760681625, .ofNat 2), (74735182561375, .ofNat 2), (75670871845450, .negSucc 3), (83751787022875, .ofNat 2), (86806602555925, .negSucc 5), (91529605608875, .ofNat 2), (91878662629250, .ofNat 4), (95066979945035, .ofNat 3), (96492249892850, .negSucc 0), (98881329193150, .negSucc 1), (104984634437125, .ofNat 2), (110749993106305, .ofNat 2), (115746233396815, .ofNat 3), (119106733739525, .ofNat 6), (121134511499750, .negSucc 3), (127376370363865, .negSucc 0), (128576687119625, .ofNat 2), (132324569915650, .negSucc 0), (136951214107750, .ofNat 4), (143331832127225, .negSucc 5), (146578838257915, .negSucc 0), (146891522481325, .ofNat 2), (167556930514925, .ofNat 6), (173593922239325, .ofNat 2), (175700461752865, .ofNat 1), (180558988839250, .negSucc 3), (202231371001975, .negSucc 1), (218951514641975, .ofNat 2), (219565488516430, .negSucc 5), (229470698524690, .negSucc 3), (249585295462825, .ofNat 1), (267655451610925, .negSucc 1), (268226418320875, .ofNat 8), (270978320788210, .ofNat 2), (281695116622675, .negSucc 0), (293004404813225, .ofNat 1), (319813798890250, .negSucc 3), (350246768218550, .ofNat 1), (399809189572625, .ofNat 8), (408026290391650, .ofNat 1), (426433491461950, .ofNat 1), (438814282198250, .ofNat 4), (459039565954025, .negSucc 7), (469281364498450, .negSucc 0), (486180724572095, .ofNat 4), (508113689590385, .ofNat 2), (511304088296225, .negSucc 0), (528064644679250, .negSucc 3), (540027298844950, .negSucc 0), (558469794527050, .ofNat 2), (580890828756350, .ofNat 4), (600023424602465, .negSucc 0), (617315007160250, .ofNat 4), (647317490668450, .ofNat 1), (684228786988075, .negSucc 7), (701556772313425, .ofNat 1), (708159126114125, .ofNat 2), (775546415341075, .negSucc 0), (842021822370310, .negSucc 1), (844246285326325, .negSucc 0), (903486785867225, .negSucc 0), (933649961276375, .negSucc 3), (944245588237175, .negSucc 0), (971660196296125, .negSucc 1), (986935798339225, .ofNat 1), (1025180924371790, .negSucc 1), (1039123021389425, .ofNat 1), (1169285998932625, .ofNat 2), (1195774733156675, .ofNat 1), (1236611687881325, .negSucc 1), (1281054598030375, .ofNat 2), (1286258263674775, .negSucc 1), (1324480177624625, .negSucc 1), (1366911801569125, .negSucc 1), (1433345872194425, .negSucc 0), (1537546168405450, .negSucc 3), (1541608075595875, .negSucc 3), (1691198400883250, .negSucc 3), (1791192143160350, .ofNat 2), (1802161553161375, .ofNat 2), (1871997803754050, .negSucc 1), (1932438291944125, .negSucc 1), (2116322829094495, .ofNat 6), (2148605137625065, .negSucc 3), (2210612616956450, .negSucc 0), (2366694087886625, .negSucc 1), (2370662571411050, .ofNat 4), (2375719705127750, .negSucc 3), (2495013890086550, .ofNat 1), (2495689649091415, .ofNat 2), (2520842899429750, .negSucc 3), (3225745998898325, .ofNat 1), (3404566515754925, .ofNat 2), (3421535307818950, .ofNat 1), (3432142543684925, .negSucc 0), (3502238513089610, .ofNat 2), (3541167107643250, .negSucc 3), (3726326190286490, .negSucc 1), (3744796459098625, .ofNat 8), (3932837346439225, .negSucc 0), (3992828698832575, .ofNat 1), (4110258580113175, .negSucc 0), (4145137994026825, .ofNat 2), (4335071158732510, .ofNat 2), (4462566458408590, .negSucc 1), (5229125450193925, .ofNat 2), (5249324265267325, .negSucc 1), (5465025846443275, .ofNat 2), (5581866420165875, .ofNat 8), (6267150657222875, .negSucc 1), (6395147089518950, .ofNat 2), (6453562639824475, .negSucc 0), (6804334999270550, .negSucc 3), (7505402072856625, .negSucc 1), (7576256753027675, .negSucc 0), (7754956707555565, .negSucc 0), (7796978844032350, .ofNat 2), (8148722250530050, .negSucc 3), (8251150849920085, .ofNat 1), (8269471085590750, .ofNat 4), (9056380721079650, .negSucc 0), (9194646075599950, .ofNat 1), (9243862120205125, .negSucc 1), (9599086137193415, .negSucc 0), (9881397157904735, .ofNat 1), (10036193159079850, .negSucc 1), (10550394080126950, .negSucc 0), (11026351707801850, .negSucc 0), (11346483582554750, .negSucc 3), (12134275282031350, .ofNat 1), (13034991448317125, .negSucc 1), (13654242955277750, .ofNat 4), (13963563012990850, .ofNat 1), (14160682841077675, .negSucc 3), (15066741784099075, .ofNat 6), (15962002328000750, .negSucc 3), (16737780830141350, .negSucc 0), (17264738868928775, .negSucc 1), (17528094543783425, .negSucc 1), (17885220824435125, .ofNat 2), (18043599269030825, .ofNat 6), (18310971689522375, .negSucc 1), (20053414453819225, .ofNat 1), (20359573453114175, .negSucc 0), (21522892856523625, .negSucc 1), (22222999137962525, .ofNat 2), (23361586891709675, .ofNat 1), (23675985875278975, .ofNat 2), (24415493067275525, .ofNat 1), (25124356504228375, .ofNat 2), (25160564888612125, .ofNat 2), (26868752410212275, .negSucc 0), (28570893133099450, .negSucc 0), (30234395115257875, .negSucc 1), (30398976815495050, .ofNat 1), (30919318100194025, .negSucc 0), (34319179760157635, .negSucc 3), (35344433726287375, .ofNat 2), (35365054189659950, .negSucc 0), (36405147423859550, .ofNat 1), (37062228981027275, .ofNat 1), (41784390256250215, .negSucc 3), (43729558651409750, .ofNat 4), (46315111130289050, .negSucc 1), (48404514639926150, .negSucc 1), (55509048678259750, .ofNat 4), (57160126238445350, .ofNat 1), (62667405928396325, .negSucc 9), (65181794970969250, .ofNat 4), (66476418359587250, .ofNat 4), (73005524931712975, .ofNat 2), (76299007259459425, .negSucc 7), (81874207350388250, .ofNat 4), (83408575114370975, .negSucc 0), (88745400058138775, .ofNat 1), (90100291662079825, .negSucc 0), (96623618031543925, .ofNat 2), (96829737013835875, .negSucc 7), (101691937100785675, .ofNat 1), (103243142069813725, .negSucc 0), (106279543285783525, .ofNat 1), (122912893501860875, .negSucc 1), (125423190878116550, .ofNat 2), (126439083326896550, .negSucc 1), (133448284373448950, .negSucc 1), (144331117435717625, .negSucc 7), (147197783510514625, .negSucc 1), (153942490417763950, .negSucc 1), (155248837387796050, .ofNat 2), (159814736382844450, .negSucc 1), (162050609851048625, .ofNat 2), (181292887704431125, .negSucc 1), (194068253598149875, .ofNat 2), (201607595824265050, .negSucc 1), (204682910479019350, .ofNat 2), (230879916578302250, .negSucc 3), (237747277097655850, .negSucc 0), (239019863393875375, .ofNat 2), (279972255938128075, .ofNat 2), (281101605692745250, .negSucc 3), (337047636020771375, .ofNat 2), (340872657353620175, .ofNat 2), (446416819325158325, .ofNat 2), (453226444632114275, .negSucc 1), (462460709888965375, .negSucc 1), (511234100994812125, .ofNat 8), (526440399287666525, .ofNat 1), (555054166794367450, .ofNat 12), (556520515290110875, .ofNat 2), (622439269748221625, .ofNat 8), (650580320691256375, .negSucc 1), (675791207155212050, .ofNat 12), (738761665298714350, .ofNat 1), (786030686229229150, .negSucc 0), (914439258332635850, .ofNat 1), (941333097674082650, .negSucc 0), (1164494305602295325, .negSucc 0), (1229048512187527925, .negSucc 3), (1239003458270257925, .ofNat 1), (1435305401537859250, .negSucc 3), (1441411160278559575, .negSucc 0), (1483803347420856175, .ofNat 1), (1496394815843683825, .negSucc 3), (1718890246155041750, .negSucc 3), (1887714287520006925, .negSucc 1), (1972874330566022275, .negSucc 1), (2117033075774324750, .negSucc 3), (2126386407265050875, .negSucc 1), (2262441387257457875, .ofNat 4), (2308648099316340950, .negSucc 3), (2329736112976635475, .ofNat 1), (2456364934736668550, .ofNat 4), (2632041293590704625, .negSucc 1), (2709450148301241625, .ofNat 4), (2857644833041336450, .negSucc 3), (2941688732441348050, .ofNat 4), (3178176246262402625, .ofNat 2), (3269353440309753650, .ofNat 2), (3337034225394050125, .ofNat 2), (3806114116486163875, .ofNat 2), (3980512966516467850, .ofNat 2), (4528073465954050250, .negSucc 3), (4687716096357433375, .ofNat 2), (5112006505629040675, .ofNat 6), (5439093784059766075, .negSucc 5), (5513033532055677250, .negSucc 3), (5969894985810386750, .ofNat 4), (6327642130305816425, .ofNat 6), (6513739336120127825, .negSucc 5), (7239282617828740225, .negSucc 1), (7268484375769555750, .ofNat 4), (8813992997286464525, .negSucc 1), (13219053182865856375, .negSucc 7), (16094501117775444875, .negSucc 7), (18833708178633307750, .ofNat 4), (20038766572851769750, .negSucc 3), (22622933540151073325, .ofNat 8), (23312365743231955250, .ofNat 4), (23997987027810997250, .negSucc 3), (27543941620664852425, .ofNat 8), (30110495616287921975, .ofNat 1), (32037089420988097775, .negSucc 0), (37270774287202754725, .ofNat 1), (38366915126167852525, .negSucc 0), (41703210966973752875, .negSucc 1), (44371554554171775875, .ofNat 2), (51620238431442186625, .negSucc 1), (53138399847295779625, .ofNat 2), (54982277102139172625, .ofNat 2), (58500270156228553625, .negSucc 3), (68057067734273933875, .ofNat 2), (70058639548932104875, .negSucc 3), (83347649884767112250, .ofNat 4), (86286170685189010375, .negSucc 1), (101477679655081035250, .ofNat 4), (117083042476811870750, .ofNat 4), (142551295614582511750, .ofNat 4), (184555510459127177125, .negSucc 7), (224700576379108006625, .negSucc 7), (486985882904661243250, .negSucc 3), (518145249955167189250, .ofNat 4), (602791171360711985750, .negSucc 3), (620519378861970071750, .ofNat 4), (767625493022683365875, .ofNat 2), (816741340799942292875, .negSucc 1), (950166906986244369625, .ofNat 2), (978111503536748226625, .negSucc 1), (1078325883574607038625, .ofNat 2), (1147321624900727347625, .negSucc 1), (1334751879441576539875, .ofNat 2), (1374007196051505158875, .negSucc 1), (2155132089877549616750, .negSucc 3), (2623922859652809625750, .negSucc 3), (4772078199014574151375, .ofNat 8), (5810114903516935599875, .ofNat 8), (19848602033872241317625, .negSucc 1), (21118597526398507858625, .ofNat 2), (24568601452072890128875, .negSucc 1), (25291168877164489859875, .ofNat 2)])

def upr63 : Tr := .node (.node .nil (.node .nil (.node (.node (.leaf [(42, .ofNat 1), (93, .negSucc 0)]) .nil) (.node (.leaf [(158, .ofNat 1), (1349, .ofNat 1), (1387, .negSucc 0), (1691, .ofNat 1), (1843, .negSucc 0), (15531, .negSucc 0), (16089, .negSucc 0), (68637, .negSucc 0), (1439206, .negSucc 0), (6360362, .negSucc 0), (13475731, .negSucc 0), (59554037, .negSucc 0)]) .nil)))) (.node (.node .nil (.node .nil (.node (.leaf [(344098447495, .ofNat 1)]) .nil))) (.node (.node upr62 .nil) .nil))

def upr64 : Tr := .node (.node (.node .nil (.node (.node .nil (.leaf [(17633383433, .ofNat 1), (18502954819, .negSucc 0), (172930279232149, .ofNat 1), (181458150424007, .negSucc 0), (205186704373897, .negSucc 0), (215659686629579, .ofNat 1)])) .nil)) .nil) (.node (.node (.node .nil (.node (.leaf [(101, .negSucc 0), (1000073, .negSucc 0), (4081379, .negSucc 0)]) .nil)) .nil) .nil)

def upr65 : Tr := .node (.node (.node (.node upr45 upr46) (.node upr48 upr49)) (.node (.node upr51 upr52) (.node upr53 upr54))) (.node (.node (.node upr55 upr56) (.node upr58 upr59)) (.node (.node upr60 upr61) (.node upr63 upr64)))

def upr66 : Tr := .node (.node (.node .nil (.node (.node (.leaf [(1, .ofNat 1)]) .nil) .nil)) (.node (.node (.node .nil (.leaf [(805, .negSucc 0), (7130, .ofNat 1), (290605, .ofNat 1)])) .nil) .nil)) .nil

def upr67 : Tr := .node (.node .nil (.node (.node (.node .nil (.leaf [(7, .ofNat 1), (62, .negSucc 0)])) .nil) .nil)) (.node (.node .nil (.node (.node (.leaf [(6, .negSucc 0), (133, .ofNat 1), (3439, .negSucc 0)]) .nil) .nil)) (.node (.node (.node .nil (.leaf [(17633383433, .ofNat 1), (18502954819, .negSucc 0), (172930279232149, .ofNat 1), (181458150424007, .negSucc 0), (205186704373897, .negSucc 0), (215659686629579, .ofNat 1)])) (.node (.leaf [(43, .ofNat 1), (59, .negSucc 0), (71, .ofNat 1), (83, .negSucc 0), (101, .negSucc 0), (109, .ofNat 1), (1503, .ofNat 1), (1557, .ofNat 1), (2014, .negSucc 3), (3002, .negSucc 3), (8183, .negSucc 0), (8477, .negSucc 0), (15523, .negSucc 1), (21299, .ofNat 2), (25631, .negSucc 1), (29963, .ofNat 2), (139278, .ofNat 2), (211589, .ofNat 1), (219191, .ofNat 1), (245051, .negSucc 0), (320306, .negSucc 1), (1000073, .negSucc 1), (1198763, .ofNat 1), (1304103, .ofNat 2), (2532253, .negSucc 0), (2694277, .ofNat 1), (3087329, .ofNat 2), (3134423, .negSucc 0), (3226607, .ofNat 1), (3973979, .ofNat 1), (4081379, .negSucc 0), (4892249, .ofNat 1), (7217918, .negSucc 0), (8282198, .ofNat 1), (70729913, .ofNat 1), (79829507, .negSucc 0), (99256342, .ofNat 4), (120846878, .ofNat 4), (914143333, .ofNat 2), (972633997, .negSucc 1), (1131526703, .ofNat 2), (1164805127, .negSucc 1)]) .nil)) .nil))

def upr68 : Tr := .node (.node (.node (.node (.node (.leaf [(1, .ofNat 1)]) .nil) .nil) .nil) (.node .nil (.node .nil (.node (.leaf [(4585, .negSucc 0), (40610, .ofNat 1), (120365, .ofNat 1), (1066090, .negSucc 0), (1655185, .ofNat 1), (43451765, .negSucc 0)]) .nil)))) (.node (.node (.node (.node (.leaf [(870067, .ofNat 1)]) .nil) .nil) .nil) (.node (.node .nil (.node (.leaf [(158, .negSucc 0), (1577, .ofNat 1), (1691, .ofNat 1), (15531, .ofNat 1), (16089, .ofNat 1), (68637, .ofNat 1), (1439206, .ofNat 1), (6360362, .ofNat 1), (13475731, .ofNat 1), (59554037, .ofNat 1)]) .nil)) .nil))

def upr69 : Tr := .node (.node (.node (.node (.node (.leaf [(149, .ofNat 1)]) .nil) .nil) .nil) (.node (.node (.node .nil (.leaf [(395485, .negSucc 0)])) .nil) .nil)) (.node .nil (.node (.node (.node (.leaf [(2338, .ofNat 1), (2422, .ofNat 1), (22879, .ofNat 1), (719845, .ofNat 1), (812455, .ofNat 1), (1866970, .ofNat 1), (4134005, .negSucc 0), (6375770, .negSucc 0), (7196030, .negSucc 0), (26518870, .ofNat 1), (30429070, .ofNat 1), (58720355, .negSucc 0), (67378655, .negSucc 0), (259864045, .negSucc 0), (293296255, .negSucc 0)]) (.leaf [(107, .ofNat 1)])) .nil) .nil))

def upr70 : Tr := .node (.node (.node (.node (.node (.leaf [(1, .ofNat 1)]) .nil) (.node (.leaf [(67, .ofNat 1)]) .nil)) (.node (.node (.leaf [(6, .ofNat 1), (133, .negSucc 0)]) .nil) .nil)) .nil) .nil

def upr71 : Tr := .node (.node (.node (.node (.node .nil (.leaf [(19, .ofNat 1)])) .nil) (.node (.node (.leaf [(12670, .ofNat 1), (28055, .negSucc 0)]) .nil) .nil)) (.node (.node (.node (.leaf [(35, .negSucc 0), (310, .ofNat 1), (12635, .ofNat 1)]) .nil) .nil) .nil)) (.node (.node .nil (.node (.node (.leaf [(19, .negSucc 0)]) .nil) .nil)) (.node (.node (.node (.leaf [(53, .negSucc 0), (79, .negSucc 0), (107, .ofNat 1), (1634, .negSucc 0), (2242, .ofNat 1), (2698, .negSucc 0), (3154, .ofNat 1), (3507, .ofNat 1), (3633, .ofNat 1), (19133, .ofNat 2), (28519, .ofNat 2), (137274, .ofNat 1), (324982, .ofNat 1), (986827, .negSucc 0), (1323141, .negSucc 0), (2612009, .ofNat 1), (3042907, .ofNat 1), (3180181, .ofNat 1), (4027321, .negSucc 0), (4827451, .ofNat 1), (7445254, .ofNat 1), (68570221, .ofNat 1), (96225614, .ofNat 1), (102382526, .negSucc 0), (119108074, .ofNat 1), (122611066, .negSucc 0), (942935249, .negSucc 1), (1148045341, .negSucc 1)]) .nil) .nil) .nil))

def upr72 : Tr := .node (.node (.node (.node (.node (.leaf [(1, .ofNat 1)]) .nil) .nil) .nil) (.node (.node (.node .nil (.leaf [(70, .negSucc 0), (155, .ofNat 1)])) .nil) .nil)) (.node (.node .nil (.node (.node (.leaf [(133, .ofNat 1)]) .nil) (.node (.leaf [(7514215, .negSucc 0)]) .nil))) .nil)

def upr73 : Tr := .node .nil (.node (.node .nil (.node (.node .nil (.leaf [(1, .ofNat 1)])) .nil)) .nil)

def upr74 : Tr := .node (.node (.node (.node (.node (.leaf [(2, .negSucc 0)]) .nil) (.node (.leaf [(37, .ofNat 1), (151, .ofNat 1), (181, .negSucc 0)]) .nil)) (.node (.node (.leaf [(1, .negSucc 0)]) .nil) .nil)) (.node (.node (.node .nil (.leaf [(1, .ofNat 1)])) .nil) (.node (.node (.leaf [(17195, .ofNat 1)]) .nil) .nil))) (.node (.node (.node (.node (.leaf [(46, .negSucc 0)]) .nil) .nil) (.node (.node (.leaf [(2, .negSucc 0)]) .nil) .nil)) .nil)

def upr75 : Tr := .node (.node (.node (.node (.node .nil (.leaf [(437, .ofNat 1)])) .nil) .nil) (.node (.node .nil (.node (.leaf [(149, .ofNat 1)]) .nil)) .nil)) (.node (.node .nil (.node (.node (.leaf [(133, .ofNat 1)]) .nil) .nil)) (.node (.node (.node (.leaf [(107, .ofNat 1), (4027321, .negSucc 0)]) (.leaf [(152130127, .ofNat 1), (152617279, .negSucc 0), (159632261, .negSucc 0), (160407053, .ofNat 1), (165814549, .ofNat 1), (166087501, .negSucc 0)])) .nil) .nil))

def upr76 : Tr := .node (.node (.node (.node (.node (.leaf [(19, .ofNat 1)]) (.leaf [(10570, .ofNat 1), (23405, .negSucc 0)])) .nil) .nil) (.node .nil (.node (.node (.leaf [(7, .ofNat 1), (181, .negSucc 0)]) .nil) .nil))) (.node (.node (.node (.node .nil (.leaf [(19, .negSucc 3)])) .nil) .nil) (.node (.node (.node (.leaf [(107, .ofNat 1)]) .nil) .nil) .nil))

def upr77 : Tr := .node (.node (.node (.node (.node (.leaf [(2, .negSucc 0)]) .nil) .nil) .nil) .nil) (.node (.node (.node (.node (.leaf [(3, .negSucc 0)]) .nil) .nil) (.node (.node (.leaf [(147, .ofNat 2), (3801, .negSucc 1)]) .nil) .nil)) .nil)

def upr78 : Tr := .node (.node (.node (.node (.node (.leaf [(19, .ofNat 1)]) .nil) .nil) .nil) (.node .nil (.node (.node .nil (.leaf [(1, .ofNat 1)])) .nil))) (.node (.node .nil (.node (.node (.leaf [(2, .ofNat 1)]) (.leaf [(199749269, .ofNat 1), (207485221, .negSucc 0)])) .nil)) .nil)

def upr79 : Tr := .node (.node (.node (.node (.node (.leaf [(1, .ofNat 1)]) .nil) .nil) (.node (.node (.leaf [(19, .negSucc 1)]) .nil) .nil)) (.node (.node (.node .nil (.leaf [(19, .ofNat 2)])) .nil) .nil)) (.node .nil (.node (.node (.node (.leaf [(67, .ofNat 1)]) (.leaf [(37, .ofNat 1)])) .nil) .nil))

def upr80 : Tr := .node (.node (.node (.node (.node (.leaf [(1, .ofNat 1)]) .nil) .nil) .nil) (.node .nil (.node (.node (.leaf [(14, .negSucc 0), (31, .ofNat 1)]) .nil) (.node (.leaf [(537005, .negSucc 0), (4756330, .ofNat 1), (20102765, .negSucc 0), (193858805, .ofNat 1), (388211515, .ofNat 1), (622149490, .ofNat 1), (1680591154, .negSucc 0), (1695885835, .negSucc 0), (1756815865, .negSucc 0), (1841247478, .negSucc 0), (1907400082, .negSucc 0), (4077047987, .ofNat 1), (4223528753, .ofNat 1), (6209681935, .negSucc 0), (6658574605, .negSucc 0), (7257098165, .ofNat 1), (9608085445, .ofNat 1), (11852341550, .negSucc 0), (13710085730, .ofNat 2), (15020703110, .ofNat 2), (15560369090, .ofNat 2), (16813786850, .negSucc 0), (19570145350, .negSucc 0), (24531590650, .negSucc 0), (26244470575, .ofNat 1), (30044307650, .negSucc 0), (33260128315, .negSucc 0), (34455102985, .negSucc 0), (37230528025, .ofNat 1), (39211375735, .ofNat 1), (41224968155, .negSucc 0), (42800444645, .negSucc 0), (43333893275, .ofNat 1), (47001715285, .negSucc 0), (54319950725, .ofNat 1), (57851612770, .negSucc 0), (66526681225, .ofNat 1), (85100185370, .negSucc 0), (128099999705, .ofNat 1), (138782650475, .ofNat 2), (206864705425, .ofNat 2), (286540791757, .ofNat 1), (347300756510, .negSucc 0), (365135432230, .ofNat 1), (379089652570, .ofNat 1), (416300906810, .ofNat 1), (566900252695, .ofNat 1), (612214786435, .ofNat 1), (634210527265, .ofNat 1), (639833498605, .negSucc 0), (1229217761350, .negSucc 1), (1832230248050, .negSucc 1), (2337569616965, .negSucc 0), (3468518845645, .negSucc 0), (4278695299550, .ofNat 1), (5021116523870, .negSucc 0), (5870767969150, .negSucc 0), (7064822471350, .ofNat 1), (8258876973550, .negSucc 0), (9474253877575, .negSucc 0), (12999557645975, .ofNat 1), (14155306640335, .negSucc 0), (14611704549545, .negSucc 0), (14882213503955, .ofNat 1), (15450960516845, .ofNat 1), (15643535472275, .negSucc 0), (16967619217885, .ofNat 1), (18287513298575, .ofNat 1), (20884432209970, .ofNat 1), (23963835926170, .negSucc 0), (25044911231110, .negSucc 0), (46244099893505, .negSucc 0), (50100536821475, .negSucc 1), (74678158658425, .negSucc 1), (204650991222895, .negSucc 0), (230979892996405, .ofNat 1), (234503251563235, .negSucc 0), (742639331030450, .negSucc 0), (889368563060950, .negSucc 0), (1095371079547150, .negSucc 0), (1644415661567425, .ofNat 1), (1969316103920675, .ofNat 1), (2425464533282975, .ofNat 1), (6839651548765175, .negSucc 1), (8327432984344075, .negSucc 1), (60579770860491550, .ofNat 2), (73757263575618950, .ofNat 2), (251970674613288050, .negSucc 0), (268092798501992450, .ofNat 1), (311889324579102550, .negSucc 0), (321062051265002950, .ofNat 1), (557935065215137825, .ofNat 1), (593634053825840425, .negSucc 0), (690612075853727075, .ofNat 1), (710923113515363675, .negSucc 0), (2469114209104228175, .ofNat 2), (3006203307348211075, .ofNat 2)]) .nil)))) (.node (.node .nil (.node (.node .nil (.leaf [(1, .ofNat 1)])) (.node (.leaf [(3223659139690, .negSucc 0), (3513426253370, .ofNat 1)]) .nil))) .nil)

def upr81 : Tr := .node (.node (.node .nil (.node (.node (.leaf [(3, .ofNat 1)]) .nil) .nil)) (.node (.node (.node (.leaf [(106, .ofNat 1)]) .nil) .nil) .nil)) .nil

def upr82 : Tr := .node (.node (.node (.node upr66 upr67) (.node upr68 upr69)) (.node (.node upr70 upr71) (.node upr72 upr73))) (.node (.node (.node upr74 upr75) (.node upr76 upr77)) (.node (.node upr78 upr79) (.node upr80 upr81)))

def upr83 : Tr := .node (.node (.node .nil (.node (.node (.leaf [(9934513, .negSucc 0), (10286321, .ofNat 1)]) .nil) .nil)) (.node (.node (.node .nil (.leaf [(1505, .negSucc 0), (13330, .ofNat 1), (70490, .ofNat 1), (156085, .negSucc 0), (543305, .ofNat 1)])) (.node (.leaf [(158, .ofNat 1)]) .nil)) .nil)) (.node (.node (.node (.node (.leaf [(14, .negSucc 0), (31, .ofNat 1)]) .nil) .nil) .nil) .nil)

def upr84 : Tr := .node (.leaf [(158, .negSucc 0), (1577, .ofNat 1), (1691, .ofNat 1), (15531, .ofNat 1), (16089, .ofNat 1), (68637, .ofNat 1), (1439206, .ofNat 1), (6360362, .ofNat 1), (13475731, .ofNat 1), (59554037, .ofNat 1)]) (.leaf [(8517537215453, .negSucc 0), (8531558173397, .ofNat 1), (8823556516607, .negSucc 0), (8838081221543, .ofNat 1), (17748585401834, .ofNat 1), (18386259128846, .ofNat 1), (18654495073438, .negSucc 0), (19324716453322, .negSucc 0), (173682585717947, .ofNat 1), (182547558932929, .negSucc 0), (333400742433446, .negSucc 0), (333949562787254, .ofNat 1), (3074830934778533, .ofNat 1), (3079892500596317, .negSucc 0), (3185303902495127, .ofNat 1), (3190547320977023, .negSucc 0), (5464598143106585, .ofNat 1), (5743517966697595, .negSucc 0), (6167633427137315, .ofNat 1), (6482437038019705, .negSucc 0), (6801533984231945, .negSucc 0), (6812730180918305, .ofNat 1), (10489831611390530, .negSucc 0), (10507099218697970, .ofNat 1), (11839376729479670, .negSucc 0), (11858865861021830, .ofNat 1), (14172829977614210, .ofNat 1), (14896228685738470, .negSucc 0), (23227484282364745, .ofNat 1), (23265719698545505, .negSucc 0), (26215762758133555, .ofNat 1), (26258917263691195, .negSucc 0), (31382694950431465, .negSucc 0), (32984506375563755, .ofNat 1), (48400726410372610, .negSucc 0), (50871159133607270, .ofNat 1), (54627610354644790, .negSucc 0), (57415870908174530, .ofNat 1), (60242158146054370, .ofNat 1), (60341324459562130, .negSucc 0), (96610548390402095, .negSucc 0), (96769581735565655, .ofNat 1), (110855746859120795, .negSucc 0), (111038229626761955, .ofNat 1), (112841288339730605, .negSucc 0), (118600846757983735, .ofNat 1), (201314127012460910, .ofNat 1), (211589448147195370, .negSucc 0), (230997839004869510, .ofNat 1), (242788253380795570, .negSucc 0), (445766995527592015, .negSucc 0), (468519492325932605, .ofNat 1), (511495214939353915, .negSucc 0), (537602561057475905, .ofNat 1), (855693428600704270, .ofNat 1), (857102009657867230, .negSucc 0), (981865186466498470, .ofNat 1), (983481462408463030, .negSucc 0), (1972719929661477185, .negSucc 0), (2073409985977831795, .ofNat 1), (2226515667196570715, .negSucc 0), (2340159770725113505, .ofNat 1), (2455353768307732145, .ofNat 1), (2459395595311508105, .negSucc 0), (3786829211711981330, .ofNat 1), (3793062817949967170, .negSucc 0), (4274014999342160870, .ofNat 1), (4281050575828880630, .negSucc 0), (8385121825933672945, .negSucc 0), (8398924811174927305, .ofNat 1), (9463890355686213355, .negSucc 0), (9479469132192521395, .ofNat 1), (34876407968935156295, .ofNat 1), (34933819006539201455, .negSucc 0), (40018924616142606995, .ofNat 1), (40084800895261065755, .negSucc 0), (325264171540106754505, .negSucc 0), (341866055698942161035, .ofNat 1), (356357841171869537035, .negSucc 0), (369161116902595388665, .negSucc 0), (374546784547388365745, .ofNat 1), (388003555249689744155, .ofNat 1), (624376449891059197090, .ofNat 1), (625404253553515043410, .negSucc 0), (684063795616352578630, .ofNat 1), (685189852299961654870, .negSucc 0), (708640937973826323970, .ofNat 1), (709807451783792612530, .negSucc 0), (2018954646776126555845, .ofNat 1), (2122004580031953076415, .negSucc 0), (6694052857102878805165, .ofNat 1), (6705072126078196194085, .negSucc 0), (6944222267319326828395, .negSucc 0), (7286669138314270588985, .ofNat 1), (8239517612518786754935, .ofNat 1), (8660072745535808501045, .negSucc 0), (8662635391429441089755, .negSucc 0), (8993691521038209539045, .negSucc 0), (9104786977316625482785, .ofNat 1), (9452740619761846838815, .ofNat 1), (9876507866661592070485, .negSucc 0), (10380616999615770454895, .ofNat 1), (12156405466425845507170, .negSucc 0), (12776883382532723053190, .ofNat 1), (13948864068727464735370, .negSucc 0), (14660831280854916030590, .ofNat 1), (119123201598165076643095, .ofNat 1), (125203396610724203462165, .negSucc 0), (134448722647843921044205, .ofNat 1), (141311151141378953418935, .negSucc 0), (210615869527567716836575, .ofNat 1), (210962570243313044247175, .negSucc 0), (237712168976682521073925, .ofNat 1), (238103473674236675067325, .negSucc 0), (546247469846818551635950, .ofNat 1), (547146663194379559791550, .negSucc 0), (1209547968946526792908175, .negSucc 0), (1211539039930411882395575, .ofNat 1), (1865454844387028349123950, .negSucc 0), (1868525622155058391903550, .ofNat 1), (2105450639507759472369050, .negSucc 0), (2108916481114667693453450, .ofNat 1), (7759024323206425965292450, .ofNat 1), (7771796671711669859060050, .negSucc 0), (8903090299946828810869450, .ofNat 1), (8917745927684000938133050, .negSucc 0), (17180696715671371780290425, .negSucc 0), (17208978344504411830775825, .ofNat 1), (19713985664167978081210925, .negSucc 0), (19746437411300287791580325, .ofNat 1), (76032328899451945778003575, .negSucc 0), (76157487857836008973230175, .ofNat 1), (85814093000582390107686925, .negSucc 0), (85955353996399439699304325, .ofNat 1)])

def upr85 : Tr := .node (.node (.node (.node (.node (.leaf [(262, .ofNat 1), (2413, .ofNat 1)]) .nil) .nil) .nil) (.node (.node (.node .nil (.leaf [(7, .negSucc 0), (2527, .ofNat 1)])) .nil) (.node .nil (.node (.leaf [(532315, .ofNat 1), (4714790, .negSucc 0), (19927195, .ofNat 1), (192165715, .negSucc 0), (366133135, .negSucc 0), (616715870, .negSucc 0), (1665913502, .ofNat 1), (1681074605, .ofNat 1), (1741472495, .ofNat 1), (1825166714, .ofNat 1), (1890741566, .ofNat 1), (4041440581, .negSucc 0), (4186642039, .negSucc 0), (6155448905, .ofNat 1), (6600421115, .ofNat 1), (7193717395, .negSucc 0), (9524172035, .negSucc 0), (11748827650, .ofNat 1), (13590346990, .negSucc 1), (14889517930, .negSucc 1), (15424470670, .negSucc 1), (16666941550, .ofNat 1), (19399227050, .ofNat 1), (24317340950, .ofNat 1), (26015261225, .negSucc 0), (29781911950, .ofNat 1), (32969646845, .ofNat 1), (34154185055, .ofNat 1), (36905370575, .negSucc 0), (38868918305, .negSucc 0), (40864924765, .ofNat 1), (42426641635, .ofNat 1), (42955431325, .negSucc 0), (46591219955, .ofNat 1), (53845540675, .negSucc 0), (57346358510, .ofNat 1), (65945662175, .negSucc 0), (84356952310, .ofNat 1), (126981222415, .negSucc 0), (137570574925, .negSucc 1), (205058026775, .negSucc 1), (284038252091, .negSucc 0), (344267562130, .ofNat 1), (361946476490, .negSucc 0), (375778825910, .negSucc 0), (412665091030, .negSucc 0), (561949158785, .negSucc 0), (606867932405, .negSucc 0), (628671570695, .negSucc 0), (634245433115, .ofNat 1), (1218482235050, .ofNat 2), (1816228237150, .ofNat 2), (2317154161795, .ofNat 1), (3438226104635, .ofNat 1), (4241326781650, .negSucc 0), (4977263977810, .ofNat 1), (5819494886450, .ofNat 1), (7003120965050, .negSucc 0), (8186747043650, .ofNat 1), (9391509302225, .ofNat 1), (12886024391425, .negSucc 0), (13780707134405, .ofNat 1), (14031679508105, .ofNat 1), (14752237840165, .negSucc 0), (15316017630235, .negSucc 0), (15506910708325, .ofNat 1), (16819430403755, .negSucc 0), (18127797025225, .negSucc 0), (20702035422110, .negSucc 0), (23754544782710, .ofNat 1), (24826178381930, .ofNat 1), (45840221291815, .ofNat 1), (49662977547925, .ofNat 2), (74025947665775, .ofNat 2), (202863646321385, .ofNat 1), (228962601354515, .negSucc 0), (232455188230805, .ofNat 1), (736153398008350, .ofNat 1), (881601152029850, .ofNat 1), (1085804519900450, .ofNat 1), (1630053952732775, .negSucc 0), (1952116836637525, .negSucc 0), (2404281436922425, .negSucc 0), (6779916600741025, .ofNat 2), (8254704311991725, .ofNat 2), (60050689892277650, .negSucc 1), (73113095334783850, .negSucc 1), (249770057367757150, .ofNat 1), (265751376681014350, .negSucc 0), (309165400346970650, .ofNat 1), (318258015882775850, .negSucc 0), (553062269885747975, .negSucc 0), (588449476936531775, .ofNat 1), (684580529339720725, .negSucc 0), (704714178026146525, .ofNat 1), (2447549892867510025, .negSucc 1), (2979948256629012725, .negSucc 1)]) .nil)))) (.node .nil (.node (.node upr84 .nil) .nil))

def upr86 : Tr := .node (.node (.node (.node (.node (.leaf [(2, .ofNat 1)]) .nil) .nil) .nil) (.node .nil (.node .nil (.node (.leaf [(3513426253370, .ofNat 1)]) .nil)))) (.node (.node (.node (.node (.leaf [(45793, .ofNat 1)]) .nil) .nil) .nil) (.node (.node (.node .nil (.leaf [(9029302180409, .ofNat 1), (9353708246771, .ofNat 1), (9857707112267, .negSucc 0), (10211876230073, .negSucc 0), (17332630316162, .negSucc 0), (17416756063826, .ofNat 1), (17955359549078, .negSucc 0), (18042507778694, .ofNat 1), (51155747083703, .negSucc 0), (55849096838789, .ofNat 1), (169612168093871, .negSucc 0), (170435398624583, .ofNat 1), (176514326470121, .ofNat 1), (191778045234851, .negSucc 0), (208770751611869, .negSucc 0), (219491599709737, .ofNat 1), (227879813711383, .ofNat 1), (227924692504247, .ofNat 1), (239629138587931, .negSucc 0), (248786940062629, .negSucc 0), (250248384382439, .ofNat 1), (273207743995157, .negSucc 0), (308015836056758, .ofNat 1), (336275144758754, .negSucc 0), (353432685347438, .ofNat 1), (385858821251594, .negSucc 0), (3018312661201853, .negSucc 0), (3295231635057239, .ofNat 1), (3406626722637167, .negSucc 0), (3719172069071021, .ofNat 1), (5336530055576405, .negSucc 0), (5362431466537565, .ofNat 1), (6023089034866295, .negSucc 0), (6052322732179535, .ofNat 1), (13840676142585530, .negSucc 0), (13907853322703690, .ofNat 1), (30647211458582245, .ofNat 1), (30795960928843885, .negSucc 0), (47266409063676730, .ofNat 1), (47495821560761290, .negSucc 0), (53347360023101470, .ofNat 1), (53606287056447310, .negSucc 0), (196596137772608630, .negSucc 0), (197550337843589990, .ofNat 1), (225584183564848430, .negSucc 0), (226679080170695390, .ofNat 1), (435320019353633395, .ofNat 1), (437432890939377835, .negSucc 0), (499507835036450095, .ofNat 1), (501932248949396935, .negSucc 0), (1926487350063082205, .ofNat 1), (1935837759420060965, .negSucc 0), (2174335141586732495, .ofNat 1), (2184888506316812135, .negSucc 0)])) .nil) .nil))

def upr87 : Tr := .node (.node (.node (.node (.node .nil (.leaf [(8151154, .ofNat 1), (8883842, .negSucc 0)])) .nil) (.node (.node (.leaf [(7, .negSucc 0), (181, .ofNat 1)]) .nil) .nil)) (.node (.node (.node (.leaf [(3439, .negSucc 0)]) (.leaf [(7, .negSucc 0), (62, .ofNat 1), (2527, .ofNat 1)])) .nil) .nil)) (.node (.node .nil (.node (.node (.leaf [(3801, .ofNat 1)]) (.leaf [(1, .ofNat 1)])) .nil)) (.node (.node (.node .nil (.leaf [(61, .ofNat 1)])) .nil) .nil))

def upr88 : Tr := .node (.node (.node (.node (.node (.leaf [(19, .ofNat 1)]) .nil) (.node (.leaf [(131, .ofNat 1), (3439, .negSucc 0)]) .nil)) .nil) (.node (.node (.node (.leaf [(70, .negSucc 0), (155, .ofNat 1)]) .nil) .nil) (.node .nil (.node (.leaf [(1646404055, .ofNat 1)]) .nil)))) (.node (.node (.node (.node .nil (.leaf [(6, .ofNat 1), (133, .negSucc 0)])) .nil) .nil) .nil)

def upr89 : Tr := .node (.node (.node (.node (.node (.leaf [(62, .ofNat 1), (114, .negSucc 0), (274, .ofNat 1), (2527, .ofNat 1), (2641, .negSucc 0), (65341, .negSucc 0)]) .nil) .nil) .nil) (.node (.node (.node .nil (.leaf [(38, .negSucc 1)])) .nil) .nil)) (.node (.node .nil (.node (.node (.leaf [(1, .negSucc 0)]) .nil) .nil)) (.node (.node (.node .nil (.leaf [(159281789, .ofNat 1), (173055359, .negSucc 0)])) .nil) .nil))

def upr90 : Tr := .node (.node (.node (.node (.node (.leaf [(1, .ofNat 1)]) .nil) .nil) .nil) (.node .nil (.node .nil (.node (.leaf [(4505090, .negSucc 0), (41491535, .negSucc 0)]) .nil)))) (.node (.node .nil (.node (.node (.leaf [(1, .negSucc 3), (361, .ofNat 4)]) .nil) .nil)) (.node (.node (.node .nil (.leaf [(65409369130, .negSucc 0), (144835031645, .ofNat 1)])) .nil) .nil))

def upr91 : Tr := .node (.node (.node .nil (.node (.node (.leaf [(7, .ofNat 1), (181, .negSucc 0)]) (.leaf [(9029302180409, .negSucc 0), (9353708246771, .negSucc 0), (9857707112267, .ofNat 1), (10211876230073, .ofNat 1), (17332630316162, .ofNat 1), (17416756063826, .negSucc 0), (17955359549078, .ofNat 1), (18042507778694, .negSucc 0), (51155747083703, .ofNat 1), (55849096838789, .negSucc 0), (169612168093871, .ofNat 1), (170435398624583, .negSucc 0), (176514326470121, .negSucc 0), (191778045234851, .ofNat 1), (208770751611869, .ofNat 1), (219491599709737, .negSucc 0), (227879813711383, .negSucc 0), (227924692504247, .negSucc 0), (239629138587931, .ofNat 1), (248786940062629, .ofNat 1), (250248384382439, .negSucc 0), (273207743995157, .ofNat 1), (308015836056758, .negSucc 0), (336275144758754, .ofNat 1), (353432685347438, .negSucc 0), (385858821251594, .ofNat 1), (3018312661201853, .ofNat 1), (3295231635057239, .negSucc 0), (3406626722637167, .ofNat 1), (3719172069071021, .negSucc 0), (5336530055576405, .ofNat 1), (5362431466537565, .negSucc 0), (6023089034866295, .ofNat 1), (6052322732179535, .negSucc 0), (13840676142585530, .ofNat 1), (13907853322703690, .negSucc 0), (30647211458582245, .negSucc 0), (30795960928843885, .ofNat 1), (47266409063676730, .negSucc 0), (47495821560761290, .ofNat 1), (53347360023101470, .negSucc 0), (53606287056447310, .ofNat 1), (196596137772608630, .ofNat 1), (197550337843589990, .negSucc 0), (225584183564848430, .ofNat 1), (226679080170695390, .negSucc 0), (435320019353633395, .negSucc 0), (437432890939377835, .ofNat 1), (499507835036450095, .negSucc 0), (501932248949396935, .ofNat 1), (1926487350063082205, .negSucc 0), (1935837759420060965, .ofNat 1), (2174335141586732495, .negSucc 0), (2184888506316812135, .ofNat 1)])) .nil)) .nil) .nil

def upr92 : Tr := .node (.node (.node (.node (.node (.leaf [(2, .ofNat 1)]) (.leaf [(1892030, .ofNat 1), (4189495, .negSucc 0)])) .nil) .nil) (.node (.node (.node .nil (.leaf [(19, .ofNat 1)])) (.node (.leaf [(22211, .ofNat 1), (23009, .ofNat 1), (463610, .ofNat 1), (697865, .negSucc 0), (800765, .negSucc 0), (1026565, .negSucc 0), (1892030, .ofNat 1), (4189495, .negSucc 0), (6181090, .ofNat 1), (7092490, .ofNat 1), (17736215, .ofNat 1), (25194575, .ofNat 1), (27354110, .ofNat 2), (28435925, .ofNat 1), (30873290, .ofNat 2), (60569815, .negSucc 0), (65343950, .ofNat 1), (68362285, .negSucc 0), (144690175, .negSucc 0), (223151950, .negSucc 0), (251861050, .negSucc 0), (251929265, .ofNat 2), (289076165, .ofNat 2), (651459725, .negSucc 0), (735271775, .negSucc 0), (928160450, .ofNat 1), (1065017450, .ofNat 1), (1689607850, .negSucc 0), (2055212425, .negSucc 0), (2358252925, .negSucc 0), (3741274525, .ofNat 1), (5770071850, .ofNat 1), (6512407150, .ofNat 1), (9095241575, .negSucc 0), (10265368925, .negSucc 0), (23999577350, .negSucc 0), (27538308350, .negSucc 0), (53141921275, .ofNat 1), (60977682775, .ofNat 1), (235176960725, .ofNat 1), (265433110775, .ofNat 1)]) .nil)) .nil)) (.node (.node .nil (.node .nil (.node (.leaf [(1839865, .negSucc 0), (69249784595, .ofNat 1)]) .nil))) .nil)

def upr93 : Tr := .node (.node (.node (.node (.node .nil (.leaf [(106, .ofNat 1), (817, .ofNat 1)])) .nil) .nil) .nil) (.node (.node (.node (.node (.leaf [(6437, .ofNat 1)]) .nil) .nil) .nil) (.node (.node (.node (.leaf [(157, .ofNat 1), (163, .ofNat 1), (167, .ofNat 1), (173, .ofNat 1), (179, .ofNat 1)]) .nil) .nil) .nil))

def upr94 : Tr := .node (.node (.node (.node .nil (.node (.leaf [(214, .ofNat 1)]) .nil)) (.node (.node (.leaf [(2, .negSucc 3)]) .nil) .nil)) .nil) (.node (.node .nil (.node (.node (.leaf [(19, .negSucc 1), (6859, .ofNat 2)]) .nil) .nil)) .nil)

def upr95 : Tr := .node (.node (.node (.node (.node (.leaf [(37, .ofNat 1), (151, .ofNat 1)]) .nil) .nil) .nil) .nil) (.node .nil (.node (.node (.node .nil (.leaf [(139, .ofNat 1)])) .nil) .nil))

def upr96 : Tr := .node (.node (.node (.node (.node (.leaf [(2, .ofNat 1)]) .nil) .nil) .nil) (.node (.node (.node .nil (.leaf [(4075577, .ofNat 1), (4441921, .negSucc 0), (70396330, .ofNat 1), (76724090, .negSucc 0), (12002574265, .negSucc 0), (13081457345, .ofNat 1)])) .nil) .nil)) .nil

def upr97 : Tr := .node (.node (.node .nil (.node (.node (.leaf [(7, .ofNat 1), (62, .negSucc 0), (114, .ofNat 1), (181, .negSucc 0), (2527, .negSucc 0), (65341, .ofNat 1)]) .nil) .nil)) .nil) .nil

def upr98 : Tr := .node (.node (.node (.node (.node (.leaf [(1, .ofNat 1)]) .nil) .nil) .nil) .nil) .nil

def upr99 : Tr := .node .nil (.leaf [(8517537215453, .negSucc 0), (8531558173397, .ofNat 1), (8823556516607, .negSucc 0), (8838081221543, .ofNat 1), (17748585401834, .ofNat 1), (18386259128846, .ofNat 1), (18654495073438, .negSucc 0), (19324716453322, .negSucc 0), (173682585717947, .ofNat 1), (182547558932929, .negSucc 0), (333400742433446, .negSucc 0), (333949562787254, .ofNat 1), (3074830934778533, .ofNat 1), (3079892500596317, .negSucc 0), (3185303902495127, .ofNat 1), (3190547320977023, .negSucc 0), (5464598143106585, .ofNat 1), (5743517966697595, .negSucc 0), (6167633427137315, .ofNat 1), (6482437038019705, .negSucc 0), (6801533984231945, .negSucc 0), (6812730180918305, .ofNat 1), (10489831611390530, .negSucc 0), (10507099218697970, .ofNat 1), (11839376729479670, .negSucc 0), (11858865861021830, .ofNat 1), (14172829977614210, .ofNat 1), (14896228685738470, .negSucc 0), (23227484282364745, .ofNat 1), (23265719698545505, .negSucc 0), (26215762758133555, .ofNat 1), (26258917263691195, .negSucc 0), (31382694950431465, .negSucc 0), (32984506375563755, .ofNat 1), (48400726410372610, .negSucc 0), (50871159133607270, .ofNat 1), (54627610354644790, .negSucc 0), (57415870908174530, .ofNat 1), (60242158146054370, .ofNat 1), (60341324459562130, .negSucc 0), (96610548390402095, .negSucc 0), (96769581735565655, .ofNat 1), (110855746859120795, .negSucc 0), (111038229626761955, .ofNat 1), (112841288339730605, .negSucc 0), (118600846757983735, .ofNat 1), (201314127012460910, .ofNat 1), (211589448147195370, .negSucc 0), (230997839004869510, .ofNat 1), (242788253380795570, .negSucc 0), (445766995527592015, .negSucc 0), (468519492325932605, .ofNat 1), (511495214939353915, .negSucc 0), (537602561057475905, .ofNat 1), (855693428600704270, .ofNat 1), (857102009657867230, .negSucc 0), (981865186466498470, .ofNat 1), (983481462408463030, .negSucc 0), (1972719929661477185, .negSucc 0), (2073409985977831795, .ofNat 1), (2226515667196570715, .negSucc 0), (2340159770725113505, .ofNat 1), (2455353768307732145, .ofNat 1), (2459395595311508105, .negSucc 0), (3786829211711981330, .ofNat 1), (3793062817949967170, .negSucc 0), (4274014999342160870, .ofNat 1), (4281050575828880630, .negSucc 0), (8385121825933672945, .negSucc 0), (8398924811174927305, .ofNat 1), (9463890355686213355, .negSucc 0), (9479469132192521395, .ofNat 1), (34876407968935156295, .ofNat 1), (34933819006539201455, .negSucc 0), (40018924616142606995, .ofNat 1), (40084800895261065755, .negSucc 0), (325264171540106754505, .negSucc 0), (341866055698942161035, .ofNat 1), (356357841171869537035, .negSucc 0), (369161116902595388665, .negSucc 0), (374546784547388365745, .ofNat 1), (388003555249689744155, .ofNat 1), (624376449891059197090, .ofNat 1), (625404253553515043410, .negSucc 0), (684063795616352578630, .ofNat 1), (685189852299961654870, .negSucc 0), (708640937973826323970, .ofNat 1), (709807451783792612530, .negSucc 0), (2018954646776126555845, .ofNat 1), (2122004580031953076415, .negSucc 0), (6694052857102878805165, .ofNat 1), (6705072126078196194085, .negSucc 0), (6944222267319326828395, .negSucc 0), (7286669138314270588985, .ofNat 1), (8239517612518786754935, .ofNat 1), (8660072745535808501045, .negSucc 0), (8662635391429441089755, .negSucc 0), (8993691521038209539045, .negSucc 0), (9104786977316625482785, .ofNat 1), (9452740619761846838815, .ofNat 1), (9876507866661592070485, .negSucc 0), (10380616999615770454895, .ofNat 1), (12156405466425845507170, .negSucc 0), (12776883382532723053190, .ofNat 1), (13948864068727464735370, .negSucc 0), (14660831280854916030590, .ofNat 1), (119123201598165076643095, .ofNat 1), (125203396610724203462165, .negSucc 0), (134448722647843921044205, .ofNat 1), (141311151141378953418935, .negSucc 0), (210615869527567716836575, .ofNat 1), (210962570243313044247175, .negSucc 0), (237712168976682521073925, .ofNat 1), (238103473674236675067325, .negSucc 0), (546247469846818551635950, .ofNat 1), (547146663194379559791550, .negSucc 0), (1209547968946526792908175, .negSucc 0), (1211539039930411882395575, .ofNat 1), (1865454844387028349123950, .negSucc 0), (1868525622155058391903550, .ofNat 1), (2105450639507759472369050, .negSucc 0), (2108916481114667693453450, .ofNat 1), (7759024323206425965292450, .ofNat 1), (7771796671711669859060050, .negSucc 0), (8903090299946828810869450, .ofNat 1), (8917745927684000938133050, .negSucc 0), (17180696715671371780290425, .negSucc 0), (17208978344504411830775825, .ofNat 1), (19713985664167978081210925, .negSucc 0), (19746437411300287791580325, .ofNat 1), (76032328899451945778003575, .negSucc 0), (76157487857836008973230175, .ofNat 1), (85814093000582390107686925, .negSucc 0), (85955353996399439699304325, .ofNat 1)])

def upr100 : Tr := .node (.node (.node (.node (.node (.leaf [(14, .negSucc 0), (57, .negSucc 0), (362, .ofNat 1)]) .nil) .nil) (.node upr99 .nil)) .nil) (.node (.node (.node (.node (.leaf [(7, .ofNat 1)]) .nil) .nil) .nil) (.node (.node (.node (.leaf [(11081713, .ofNat 1), (12098419, .negSucc 0)]) .nil) .nil) .nil))

def upr101 : Tr := .node (.node (.node (.node upr83 upr85) (.node upr86 upr87)) (.node (.node upr88 upr89) (.node upr90 upr91))) (.node (.node (.node upr92 upr93) (.node upr94 upr95)) (.node (.node upr96 upr97) (.node upr98 upr100)))

def upr102 : Tr := .node .nil (.leaf [(129281215, .ofNat 2), (129908695, .negSucc 1), (138626845, .ofNat 2), (139299685, .negSucc 1), (185721970, .negSucc 0), (186316690, .ofNat 1), (191495710, .negSucc 0), (192017630, .negSucc 0), (192632510, .ofNat 1), (197987090, .negSucc 0), (209064730, .ofNat 1), (216151670, .ofNat 1), (261269890, .negSucc 0), (262106530, .ofNat 1), (269392270, .negSucc 0), (277165210, .ofNat 1), (280156870, .negSucc 0), (281053990, .ofNat 1), (288866410, .negSucc 0), (294108010, .ofNat 1), (301132510, .negSucc 0), (309234730, .negSucc 0), (309743770, .ofNat 1), (315368830, .ofNat 1), (317930830, .negSucc 0), (318948910, .ofNat 1), (327814690, .negSucc 0), (357890470, .ofNat 1), (411241505, .ofNat 1), (412558385, .negSucc 0), (424026215, .ofNat 1), (425181895, .ofNat 1), (426543415, .negSucc 0), (438399985, .ofNat 1), (462929045, .negSucc 0), (478621555, .negSucc 0), (578526185, .ofNat 1), (580378745, .negSucc 0), (596511455, .ofNat 1), (613722965, .negSucc 0), (620347355, .ofNat 1), (622333835, .negSucc 0), (639632765, .ofNat 1), (651239165, .negSucc 0), (666793415, .ofNat 1), (684734045, .ofNat 1), (685861205, .negSucc 0), (698316695, .negSucc 0), (703989695, .ofNat 1), (706244015, .negSucc 0), (725875385, .ofNat 1), (792471755, .negSucc 0), (1145062190, .negSucc 1), (1150619870, .ofNat 2), (1227837770, .negSucc 1), (1233797210, .ofNat 2), (1584932405, .negSucc 2), (1590007685, .ofNat 3), (1634204915, .negSucc 2), (1784137145, .ofNat 3), (2362446415, .negSucc 2), (2370011455, .ofNat 3), (2435890345, .negSucc 2), (2659374235, .ofNat 3), (2789489465, .negSucc 0), (2889357275, .negSucc 1), (2903381075, .ofNat 2), (3030704915, .ofNat 1), (3112248545, .ofNat 1), (3117371705, .negSucc 0), (3199769195, .ofNat 1), (3210015515, .negSucc 0), (3299243885, .ofNat 1), (3601937255, .negSucc 0), (4675930210, .ofNat 4), (4698625330, .negSucc 3), (5833230725, .ofNat 2), (5839224650, .negSucc 0), (5857923050, .ofNat 1), (5861542925, .negSucc 1), (6020754950, .negSucc 0), (6573136850, .ofNat 1), (6991645213, .ofNat 1), (7014033901, .negSucc 0), (7209002059, .ofNat 1), (7242842047, .ofNat 1), (7266035119, .negSucc 0), (7468008121, .ofNat 1), (7870401217, .negSucc 0), (8153170123, .negSucc 0), (8703749950, .negSucc 0), (8731621150, .ofNat 1), (8974332850, .negSucc 0), (9797694550, .ofNat 1), (10277066450, .negSucc 0), (10353845465, .negSucc 1), (10404098945, .ofNat 2), (11165754950, .ofNat 1), (11466178850, .ofNat 1), (11485053650, .negSucc 0), (11788623350, .ofNat 1), (11826372950, .negSucc 0), (12155109050, .ofNat 1), (12929711725, .ofNat 1), (12971115325, .negSucc 0), (13270295150, .negSucc 0), (13331671675, .ofNat 1), (13838385862, .negSucc 1), (13905551926, .ofNat 2), (14037972730, .ofNat 2), (14082925210, .negSucc 1), (14335573378, .negSucc 1), (14405152594, .ofNat 2), (14474386390, .ofNat 2), (14554803025, .negSucc 0), (15802357570, .negSucc 1), (19272589175, .ofNat 1), (19334303975, .negSucc 0), (19871737025, .ofNat 1), (20924525390, .ofNat 2), (20991530030, .negSucc 1), (21575028770, .ofNat 2), (21694895075, .negSucc 0), (22756361425, .ofNat 1), (23554457510, .negSucc 1), (24724171675, .negSucc 0), (25389396025, .negSucc 0), (25431190225, .ofNat 1), (25591450150, .ofNat 4), (25715660950, .negSucc 3), (26103380275, .negSucc 0), (26186968675, .ofNat 1), (26914884325, .negSucc 0), (29384224975, .ofNat 1), (38145746450, .ofNat 2), (38330890850, .negSucc 1), (45006099425, .negSucc 0), (45150218225, .ofNat 1), (46405252775, .negSucc 0), (46670518615, .negSucc 3), (46897038895, .ofNat 4), (48863765090, .negSucc 1), (49020236930, .ofNat 2), (50044291045, .negSucc 3), (50287186285, .ofNat 4), (50382845870, .negSucc 1), (50662762325, .ofNat 1), (51665757850, .negSucc 3), (51916523050, .ofNat 4), (55005284810, .ofNat 2), (56666782475, .negSucc 1), (56941820675, .ofNat 2), (61752555025, .ofNat 1), (61950299425, .negSucc 0), (63672323575, .ofNat 1), (67045631170, .ofNat 2), (67260325090, .negSucc 1), (69129951310, .ofNat 2), (69514022725, .negSucc 0), (74312396725, .negSucc 0), (74550360325, .ofNat 1), (75472367530, .negSucc 1), (76622626675, .negSucc 0), (80682030730, .negSucc 1), (80940391210, .ofNat 2), (82046843375, .negSucc 1), (82445066375, .ofNat 2), (83190280390, .negSucc 1), (83652468025, .ofNat 1), (84465581425, .negSucc 1), (84875544025, .ofNat 2), (86872238425, .ofNat 1), (87150421225, .negSucc 0), (89079429950, .negSucc 3), (89511786350, .ofNat 4), (89572929775, .ofNat 1), (90822679570, .ofNat 2), (94318430290, .ofNat 2), (94620457330, .negSucc 1), (97250609470, .ofNat 2), (97790913325, .negSucc 0), (106172991610, .negSucc 1), (108198336985, .ofNat 1), (108544810345, .negSucc 0), (111360969475, .negSucc 1), (111562015855, .ofNat 1), (111901471675, .ofNat 2), (114402749525, .ofNat 2), (114958015325, .negSucc 1), (116392033625, .negSucc 1), (116956954625, .ofNat 2), (121797416365, .negSucc 0), (122225264350, .ofNat 2), (122818497550, .negSucc 1), (126368493650, .negSucc 1), (126981836450, .ofNat 2), (135418490221, .negSucc 1), (135472694875, .negSucc 1), (136075758133, .ofNat 2), (136130225875, .ofNat 2), (147084640150, .negSucc 3), (147798530950, .ofNat 4), (148458183305, .negSucc 0), (148933576985, .ofNat 1), (150985665950, .ofNat 1), (151469153150, .negSucc 0), (153073463615, .negSucc 0), (155679520850, .ofNat 1), (167117385245, .ofNat 1), (169817885125, .negSucc 1), (169962538550, .negSucc 0), (170642114125, .ofNat 2), (178653068045, .ofNat 1), (179225151965, .negSucc 0), (184207049435, .ofNat 1), (184373703850, .negSucc 3), (185268581050, .ofNat 4), (197247309175, .ofNat 6), (198204669775, .negSucc 5), (201107361905, .negSucc 0), (207979207625, .negSucc 1), (208847952785, .negSucc 0), (208988656625, .ofNat 2), (209516726945, .ofNat 1), (215340635255, .negSucc 0), (225054105850, .ofNat 1), (225774775450, .negSucc 0), (225805996850, .negSucc 1), (226901970050, .ofNat 2), (232050606550, .ofNat 1), (235097338565, .ofNat 1), (252067208995, .negSucc 0), (252874380115, .ofNat 1), (253340387650, .negSucc 0), (259903495285, .negSucc 0), (265735575350, .ofNat 1), (270641656775, .negSucc 3), (271955244575, .ofNat 4), (273672969766, .ofNat 1), (274549326982, .negSucc 0), (279815950225, .ofNat 2), (281174066425, .negSucc 1), (282180937738, .ofNat 1), (283748675455, .ofNat 1), (288714520850, .negSucc 0), (296482624550, .negSucc 0), (296970672950, .ofNat 1), (304820118050, .negSucc 0), (305796214850, .ofNat 1), (308069990494, .negSucc 0), (314296391150, .negSucc 0), (325687417475, .ofNat 6), (327268175675, .negSucc 5), (334325403175, .negSucc 0), (335395981975, .ofNat 1), (343131917450, .ofNat 1), (344718939025, .negSucc 0), (376345621075, .ofNat 1), (380733178175, .negSucc 1), (382581106775, .ofNat 2), (398625452050, .ofNat 1), (399901932850, .negSucc 0), (408256058525, .ofNat 4), (410237572325, .negSucc 3), (411017953150, .ofNat 1), (448727323450, .negSucc 0), (498334091525, .negSucc 0), (498910227130, .ofNat 2), (499929859925, .ofNat 1), (499998993025, .ofNat 2), (501331740490, .negSucc 1), (502425790825, .negSucc 1), (513826343075, .negSucc 0), (546951201650, .negSucc 0), (548702652050, .ofNat 1), (560968001225, .ofNat 1), (563954865950, .negSucc 0), (572160598205, .ofNat 4), (573992774285, .negSucc 3), (588414488275, .negSucc 0), (589947974315, .ofNat 4), (615695629850, .ofNat 1), (639296439025, .ofNat 1), (644073509345, .negSucc 3), (656497240075, .ofNat 1), (657577918675, .negSucc 0), (658195513850, .ofNat 1), (660303191450, .negSucc 0), (674958832825, .ofNat 1), (677120190025, .negSucc 0), (678657550550, .ofNat 1), (695942008975, .ofNat 1), (726700612750, .ofNat 4), (730227730750, .negSucc 3), (740921859650, .negSucc 0), (759792102925, .negSucc 0), (769439826050, .negSucc 0), (771378889330, .negSucc 0), (771903730850, .ofNat 1), (773849003410, .ofNat 1), (793360235150, .negSucc 0), (795359580190, .negSucc 0), (852843155815, .ofNat 4), (855574135255, .negSucc 3), (866148089450, .ofNat 1), (868330866970, .ofNat 1), (879356414545, .ofNat 4), (960034098835, .negSucc 3), (986340015350, .ofNat 2), (991127320550, .negSucc 1), (1030900869250, .ofNat 4), (1035904455250, .negSucc 3), (1043057976275, .ofNat 10), (1048120568075, .negSucc 9), (1104729788645, .negSucc 1), (1110091711085, .ofNat 2), (1163729142275, .ofNat 1), (1167455642675, .negSucc 0), (1199901011750, .ofNat 4), (1199907250325, .ofNat 1), (1205724857750, .negSucc 3), (1309994282975, .negSucc 0), (1504101268250, .ofNat 4), (1511401582250, .negSucc 3), (1554746794825, .ofNat 8), (1562292922225, .negSucc 7), (1596744637075, .negSucc 0), (1601857742275, .ofNat 1), (1609122785375, .negSucc 1), (1616932832375, .ofNat 2), (1646384366725, .negSucc 0), (1708053254945, .ofNat 1), (1713522793265, .negSucc 0), (1747047595550, .negSucc 1), (1755527075150, .ofNat 2), (1761153356135, .ofNat 1), (1797434016175, .ofNat 1), (1842101553250, .ofNat 4), (1851042387250, .negSucc 3), (1921506258175, .ofNat 1), (1922732634005, .negSucc 0), (1927659316975, .negSucc 0), (1981242204025, .ofNat 1), (2105796291725, .negSucc 1), (2107960098650, .ofNat 2), (2114710221050, .negSucc 1), (2116016995925, .ofNat 2), (2121496950125, .ofNat 2), (2131793859125, .negSucc 1), (2163013816075, .negSucc 0), (2173492536950, .ofNat 2), (2232595279670, .ofNat 1), (2239744509590, .negSucc 0), (2246267879275, .negSucc 0), (2253460891675, .ofNat 1), (2282709067625, .negSucc 1), (2293788436625, .ofNat 2), (2302002386810, .ofNat 1), (2316100041325, .negSucc 0), (2372902402850, .negSucc 1), (2397111817150, .ofNat 2), (2408746451950, .negSucc 1), (2513202554030, .negSucc 0), (2528593615975, .ofNat 1), (2637847858219, .negSucc 0), (2646294790363, .ofNat 1), (2656923668875, .negSucc 1), (2669819327875, .ofNat 2), (2719853491117, .negSucc 0), (2744410327330, .ofNat 1), (2884659983350, .negSucc 1), (2898660984550, .ofNat 2), (2969389944871, .ofNat 1), (2981727650230, .negSucc 0), (3009565440875, .ofNat 2), (3024172683875, .negSucc 1), (3061953506290, .negSucc 0), (3066993874210, .ofNat 1), (3142053731950, .ofNat 2), (3148059791590, .negSucc 1), (3152115235150, .negSucc 1), (3158140527430, .ofNat 2), (3239734158850, .ofNat 2), (3245926935370, .negSucc 1), (3330509951125, .negSucc 1), (3346674932125, .ofNat 2), (3372208149550, .ofNat 2), (3388575517150, .negSucc 1), (3502936824625, .ofNat 2), (3519938697625, .negSucc 1), (3536967732550, .negSucc 1), (3543728673310, .ofNat 2), (3773502134290, .ofNat 1), (3785585665330, .negSucc 0), (3842845175750, .ofNat 4), (3861496829750, .negSucc 3), (3890813081470, .ofNat 1), (4078939153625, .negSucc 1), (4098736714625, .ofNat 2), (4247780727610, .negSucc 0), (4391005315375, .ofNat 2), (4412317522375, .negSucc 1), (4445980983850, .ofNat 2), (4467560021050, .negSucc 1), (4667625932725, .negSucc 1), (4682572632325, .ofNat 2), (4767377199550, .ofNat 2), (4790516167150, .negSucc 1), (4808839087045, .negSucc 5), (4812733474675, .negSucc 1), (4832179294285, .ofNat 6), (4882192936915, .ofNat 2), (4905889174795, .negSucc 1), (5254283892025, .ofNat 2), (5377748082875, .ofNat 2), (5403849549875, .negSucc 1), (5680194704485, .negSucc 0), (5698383857845, .ofNat 1), (5728014507250, .ofNat 4), (5755816029250, .negSucc 3), (5856781068355, .negSucc 0), (6076908581945, .negSucc 0), (6394118973865, .ofNat 1), (6602396939795, .ofNat 1), (6780039906785, .ofNat 1), (6791200721465, .negSucc 0), (6957404692175, .negSucc 1), (6970703824235, .ofNat 2), (6979683734975, .ofNat 2), (6993025453595, .negSucc 1), (7173697066025, .negSucc 1), (7187409642605, .ofNat 2), (7831857122075, .ofNat 2), (7846827776615, .negSucc 1), (7971101960990, .negSucc 0), (7996627071230, .ofNat 1), (8218908239570, .negSucc 0), (8355611868785, .negSucc 0), (8382368258945, .ofNat 1), (8509157174875, .negSucc 7), (8550457265875, .ofNat 8), (8615371823255, .negSucc 0), (8951145779275, .ofNat 1), (8972962537910, .ofNat 1), (8979809191675, .negSucc 0), (9229419741325, .ofNat 1), (9238513504150, .negSucc 11), (9283353602950, .ofNat 12), (9405800182565, .ofNat 1), (9718386846070, .ofNat 2), (9749507122390, .negSucc 1), (9844672178525, .negSucc 1), (9866630752090, .negSucc 0), (9892454332325, .ofNat 2), (9898225735930, .ofNat 1), (10020512862010, .ofNat 2), (10076184715975, .negSucc 0), (10173365386870, .negSucc 0), (10307315260150, .negSucc 0), (10340321406550, .ofNat 1), (10556335227575, .negSucc 1), (10607571512975, .ofNat 2), (10627749931450, .negSucc 0), (10939857691630, .negSucc 1), (11106733867810, .ofNat 1), (11200161065590, .ofNat 1), (11602806506350, .ofNat 1), (12168672302290, .negSucc 0), (12496080525670, .negSucc 0), (12516650675830, .ofNat 1), (12683460694625, .negSucc 7), (12745021207625, .ofNat 8), (12847487257570, .negSucc 0), (12888627557890, .ofNat 1), (13246891006510, .negSucc 0), (13770614468450, .negSucc 11), (13837451596850, .ofNat 12), (14142595356950, .ofNat 1), (14187882860150, .negSucc 0), (14462244045130, .ofNat 1), (14582261533850, .ofNat 1), (15399968169670, .ofNat 1), (15449282039590, .negSucc 0), (15878723656810, .ofNat 1), (15920129857550, .negSucc 0), (16247201892425, .ofNat 1), (16299228779225, .negSucc 0), (16752296251775, .ofNat 1), (17019055429550, .negSucc 0), (17073553950350, .ofNat 1), (17335537564030, .negSucc 0), (17548145235650, .negSucc 0), (17650297199335, .ofNat 1), (17706817086295, .negSucc 0), (17716775583850, .negSucc 1), (17802765821050, .ofNat 2), (18199011101905, .ofNat 1), (18289257199325, .negSucc 0), (18790401558250, .negSucc 3), (18881602752250, .ofNat 4), (19158122370950, .ofNat 1), (19868702762515, .negSucc 0), (19895515502150, .ofNat 1), (19959225040550, .negSucc 0), (20456708473475, .ofNat 4), (20514028937450, .ofNat 1), (20555997263675, .negSucc 3), (21519285159155, .negSucc 0), (21588194342435, .ofNat 1), (21847539522485, .ofNat 1), (21917499843845, .negSucc 0), (22188278480165, .negSucc 0), (22292672364025, .negSucc 0), (22364058092425, .ofNat 1), (22396114884350, .negSucc 0), (22526737642355, .ofNat 1), (22985708810575, .negSucc 0), (24223970602895, .ofNat 1), (24593482135865, .negSucc 0), (24800356645235, .negSucc 0), (25094562203725, .ofNat 1), (26656151047750, .negSucc 3), (26785529485750, .ofNat 4), (26826775217725, .ofNat 1), (26912680077325, .negSucc 0), (26944917240785, .ofNat 1), (27660768229675, .ofNat 1), (27669892592555, .ofNat 1), (27715440782195, .negSucc 0), (28448007498905, .ofNat 1), (28539103878185, .negSucc 0), (29332401514415, .ofNat 1), (29510454536395, .negSucc 0), (29604953089915, .ofNat 1), (29618910458375, .ofNat 4), (29762668961375, .negSucc 3), (30198540957025, .negSucc 0), (30427877993485, .negSucc 0), (30492074894425, .ofNat 4), (30640071393025, .negSucc 3), (31026011875250, .negSucc 3), (31176599893250, .ofNat 4), (31360878071425, .negSucc 0), (31461302062225, .ofNat 1), (32023540385645, .negSucc 0), (32157674211950, .ofNat 4), (32313754872350, .negSucc 3), (32335827648775, .negSucc 0), (33219522762055, .ofNat 1), (34099929518555, .negSucc 0), (34209124516235, .ofNat 1), (35160030954365, .negSucc 0), (35302519710325, .ofNat 1), (38385833177495, .ofNat 1), (38891761364750, .negSucc 3), (39080526626750, .ofNat 4), (39230003078525, .ofNat 2), (39420410032325, .negSucc 1), (40201309980475, .ofNat 2), (40396431274675, .negSucc 1), (40639900396375, .negSucc 1), (40837150435375, .ofNat 2), (41607317736125, .ofNat 2), (41809263237125, .negSucc 1), (42017524138625, .ofNat 2), (42221460619625, .negSucc 1), (42592574770970, .ofNat 4), (42799302320810, .negSucc 3), (43242280298390, .negSucc 1), (43452161262470, .ofNat 2), (44123320430350, .negSucc 3), (44337477615550, .ofNat 4), (47631483019750, .negSucc 3), (47862667441750, .ofNat 4), (48905642849875, .ofNat 4), (49143011540875, .negSucc 3), (50310295954010, .ofNat 1), (50471399883770, .negSucc 0), (51874346605430, .ofNat 1), (53097555094150, .ofNat 4), (53355269672950, .negSucc 3), (53798033426725, .negSucc 1), (54059147850925, .ofNat 2), (54505825407950, .negSucc 1), (54680364287150, .ofNat 2), (56200307026850, .negSucc 1), (56633625197090, .negSucc 0), (57171385303375, .negSucc 1), (57448872646375, .ofNat 2), (59024334462875, .ofNat 2), (59310815289875, .negSucc 1), (61304256530125, .ofNat 2), (61356476416550, .ofNat 2), (61601803199125, .negSucc 1), (62071789757950, .negSucc 3), (62373061730350, .ofNat 4), (68700454866625, .ofNat 2), (69033899763625, .negSucc 1), (71206278612175, .negSucc 5), (71551885788775, .ofNat 6), (75080493952625, .ofNat 2), (75366820691750, .ofNat 4), (75444905041625, .negSucc 1), (75732621497750, .negSucc 3), (78110522759465, .ofNat 3), (78360648741305, .negSucc 2), (79281576902150, .negSucc 0), (79535452840550, .ofNat 1), (80538829166495, .ofNat 3), (81244532211850, .negSucc 1), (81504693937450, .ofNat 2), (81746289137450, .negSucc 0), (83770268964550, .negSucc 1), (86117471593375, .ofNat 2), (86535451816375, .negSucc 1), (87927967546685, .negSucc 2), (89246207484350, .ofNat 1), (90996262447195, .ofNat 2), (91287651221515, .negSucc 1), (91455879941650, .ofNat 2), (93825161797885, .ofNat 2), (95101356993685, .ofNat 3), (95405891126245, .negSucc 2), (97701638095775, .ofNat 6), (98057875863955, .ofNat 3), (98175843291575, .negSucc 5), (99364996687250, .negSucc 3), (99847275169250, .ofNat 4), (102433271839255, .negSucc 1), (104992238333395, .ofNat 1), (105469712400875, .ofNat 2), (105981620763875, .negSucc 1), (107054321696665, .negSucc 2), (108722727239350, .negSucc 0), (109070879804950, .ofNat 1), (112102708397050, .negSucc 0), (112339223295250, .ofNat 4), (112884473553250, .negSucc 3), (114071229429745, .negSucc 0), (117140410490635, .negSucc 0), (117333238620115, .ofNat 1), (117573157708475, .negSucc 5), (118143811418675, .ofNat 6), (120434557702585, .negSucc 0), (120691470546175, .ofNat 2), (120820213961545, .ofNat 1), (121077949492975, .negSucc 1), (122387715439150, .ofNat 1), (124178637216655, .negSucc 0), (124443536988025, .ofNat 2), (135571565866765, .ofNat 1), (135860769208075, .negSucc 1), (137444677321175, .ofNat 6), (138111779545775, .negSucc 5), (142396739745575, .ofNat 2), (143087877326975, .negSucc 1), (144361953272635, .ofNat 1), (144824229980395, .negSucc 0), (148110089401750, .negSucc 3), (148828957327750, .ofNat 4), (148849889643805, .ofNat 1), (162506314052215, .negSucc 0), (165887650520725, .negSucc 1), (166692803712925, .ofNat 2), (179898607040525, .ofNat 2), (180106591993930, .negSucc 5), (180474679432925, .negSucc 1), (180980758316890, .ofNat 6), (185491309850075, .ofNat 2), (188231701407190, .negSucc 3), (189145303804870, .ofNat 4), (202509448442225, .negSucc 1), (205068446614675, .ofNat 1), (205725118017475, .negSucc 0), (211443631483525, .ofNat 1), (219554136417175, .negSucc 1), (220022492664625, .ofNat 8), (220619765553775, .ofNat 2), (221090395017625, .negSucc 7), (222645742038790, .ofNat 2), (223358699561830, .negSucc 1), (229567371324970, .ofNat 2), (230842799174575, .negSucc 0), (231451055149825, .negSucc 0), (232192209099025, .ofNat 1), (238646424739975, .negSucc 0), (240743181744275, .ofNat 1), (241514090996675, .negSucc 0), (248227425736325, .ofNat 1), (250629324818110, .negSucc 1), (260541347655925, .ofNat 1), (262338921202750, .negSucc 3), (263612210800750, .ofNat 4), (271001369900975, .negSucc 0), (287775610166450, .ofNat 1), (288697126941650, .negSucc 0), (296722002192350, .ofNat 1), (323945143593050, .negSucc 0), (327958055103875, .ofNat 8), (329549834082875, .negSucc 7), (335249387963350, .ofNat 1), (336322925552950, .negSucc 0), (345671648729050, .ofNat 1), (350373420503050, .ofNat 1), (351495388359850, .negSucc 0), (359953403510750, .ofNat 4), (361265858446150, .ofNat 1), (361700475284750, .negSucc 3), (376543929435275, .negSucc 7), (377385738355150, .negSucc 0), (378371525075075, .ofNat 8), (386813509649350, .ofNat 1), (394410658882450, .negSucc 0), (398807453700845, .ofNat 4), (400743107701685, .negSucc 3), (416798767401635, .ofNat 2), (418821744139355, .negSucc 1), (420106220361275, .negSucc 0), (420262424214850, .negSucc 0), (421451487005675, .ofNat 1), (431569933386550, .negSucc 0), (432280352810950, .ofNat 1), (433164265241750, .negSucc 3), (433166517367325, .negSucc 0), (435266673647750, .ofNat 4), (443706265220050, .negSucc 0), (445127104068850, .ofNat 1), (457500242377150, .negSucc 0), (458105197239550, .ofNat 2), (460328659087150, .negSucc 1), (472907936153975, .ofNat 1), (476496867493850, .ofNat 4), (478809595251050, .negSucc 3), (493001285943035, .negSucc 0), (494579977601195, .ofNat 1), (499474190035450, .ofNat 1), (506375126972750, .ofNat 4), (508327750791005, .negSucc 0), (508832872010750, .negSucc 3), (531859827846550, .ofNat 1), (533562952559350, .negSucc 0), (548394330266650, .ofNat 1), (554964933525815, .ofNat 1), (561263592931825, .negSucc 7), (563987744923225, .ofNat 8), (576424813984075, .ofNat 1), (578270644961275, .negSucc 0), (580893325520375, .ofNat 2), (583712752487375, .negSucc 1), (594344756387725, .ofNat 1), (598707472823950, .negSucc 0), (637217422511425, .negSucc 0), (639257923942225, .ofNat 1), (648873679839175, .negSucc 0), (657027290568775, .negSucc 0), (691836058726690, .negSucc 1), (693663759201175, .negSucc 0), (694051460280130, .ofNat 2), (695885013427975, .ofNat 1), (713343915474670, .negSucc 1), (715228435653025, .negSucc 0), (717307103670325, .ofNat 1), (742337930490275, .negSucc 0), (744715049438675, .ofNat 1), (765415793614325, .negSucc 0), (765860398995125, .negSucc 3), (769577583144125, .ofNat 4), (775826859685325, .negSucc 0), (778311217082525, .ofNat 1), (778790569699210, .ofNat 2), (780847987603075, .ofNat 1), (797039679202375, .negSucc 1), (799945829416475, .negSucc 0), (800908195273375, .ofNat 2), (810902704418275, .ofNat 1), (813499381894675, .negSucc 0), (835639849214975, .ofNat 1), (836112114918325, .ofNat 1), (842326304801210, .negSucc 1), (845023607118170, .ofNat 2), (856515628509275, .negSucc 0), (868512614795030, .negSucc 1), (873337887525425, .ofNat 1), (912822295366975, .negSucc 0), (930581082190025, .ofNat 1), (948195420741890, .ofNat 2), (955619138213075, .ofNat 1), (957192209795675, .negSucc 0), (959149444463875, .ofNat 2), (963804777362875, .negSucc 1), (982492444415825, .ofNat 1), (985638587581025, .negSucc 0), (1013036250977975, .ofNat 1), (1014375793887575, .negSucc 1), (1019299173692975, .ofNat 2), (1050831710249125, .ofNat 2), (1055100206593525, .negSucc 1), (1055932032686125, .negSucc 1), (1060221246627325, .ofNat 2), (1086453124155875, .negSucc 1), (1091726338878875, .ofNat 2), (1105978563649925, .negSucc 0), (1121259209725375, .negSucc 1), (1126701359452375, .ofNat 2), (1177689618803075, .negSucc 0), (1181460823524275, .ofNat 1), (1214301731304725, .negSucc 0), (1261228266317950, .negSucc 3), (1264560193689625, .negSucc 3), (1267349770610350, .ofNat 4), (1270697869842625, .ofNat 4), (1325709404110175, .ofNat 1), (1387267108445750, .negSucc 3), (1394000355539750, .ofNat 4), (1469290618897850, .ofNat 2), (1476421975743050, .negSucc 1), (1478288677130125, .ofNat 2), (1485463706999125, .negSucc 1), (1535574406216550, .negSucc 1), (1543027478408150, .ofNat 2), (1585152918850375, .negSucc 1), (1592846625577375, .ofNat 2), (1735990910423245, .ofNat 6), (1744416725236885, .negSucc 5), (1762471650226315, .negSucc 3), (1771025992100995, .ofNat 4), (1816320527158550, .negSucc 0), (1822136759583350, .ofNat 1), (1872786450282650, .negSucc 0), (1941367057917875, .negSucc 1), (1944622351123550, .ofNat 4), (1948770649315250, .negSucc 3), (1950789687504875, .ofNat 2), (1954060780619150, .negSucc 3), (1958229213013250, .ofNat 4), (2044607649831950, .ofNat 1), (2049995059898450, .ofNat 1), (2050550288319085, .ofNat 2), (2056559566305650, .negSucc 0), (2057116572682045, .negSucc 1), (2067813237117250, .negSucc 3), (2077849586559250, .ofNat 4), (2113725476268350, .ofNat 1), (2114297965676155, .ofNat 2), (2307651936381050, .negSucc 0), (2308276949565265, .negSucc 1), (2650391402029175, .ofNat 1), (2658878501183975, .negSucc 0), (2732786989657025, .ofNat 1), (2792719732561175, .ofNat 2), (2806274492065775, .negSucc 1), (2811259090046050, .ofNat 1), (2819974384662575, .negSucc 0), (2820261320670850, .negSucc 0), (2829004523455775, .ofNat 1), (2877567807917390, .ofNat 2), (2886782372714030, .negSucc 1), (2898655745695150, .ofNat 1), (2904771345205750, .negSucc 3), (2907641982113225, .negSucc 0), (2918869959019750, .ofNat 4), (2967025874484770, .ofNat 2), (2983510043855075, .negSucc 0), (3061686474776510, .negSucc 1), (3071490625466270, .ofNat 2), (3071805740129875, .ofNat 8), (3086715072980875, .negSucc 7), (3156868437722930, .negSucc 1), (3164596642069450, .negSucc 0), (3174407332295675, .ofNat 1), (3231363626318275, .negSucc 0), (3239239476185510, .negSucc 1), (3241711118194675, .ofNat 1), (3280654725069925, .ofNat 1), (3291160057196725, .negSucc 0), (3331820526618325, .negSucc 0), (3377139429009325, .negSucc 0), (3382643991134275, .ofNat 1), (3387953725030525, .ofNat 1), (3400200470908075, .ofNat 2), (3416703702189475, .negSucc 1), (3446499389349590, .ofNat 2), (3482128219548475, .negSucc 0), (3561853701504490, .ofNat 2), (3573259490670730, .negSucc 1), (3637502682466975, .ofNat 1), (3666608522924410, .negSucc 1), (3672584904660070, .ofNat 2), (3678349758604570, .ofNat 2), (3692989011046825, .negSucc 0), (3780596352652630, .negSucc 1), (3801600547841425, .ofNat 1), (4009530926279410, .negSucc 1), (4127452023370690, .ofNat 2), (4289380677750175, .ofNat 2), (4305949491773575, .negSucc 1), (4310199638862775, .negSucc 1), (4326848871370975, .ofNat 2), (4482886572987025, .ofNat 2), (4504644735352825, .negSucc 1), (4578729310759625, .ofNat 8), (4600952655952625, .negSucc 7), (5140858675066625, .negSucc 1), (5165810374363625, .ofNat 2), (5245852412306450, .ofNat 2), (5271313709770850, .negSucc 1), (5302484119608025, .negSucc 0), (5319463765880425, .ofNat 1), (5467328185502575, .negSucc 0), (5581503704358050, .negSucc 3), (5608594120737650, .ofNat 4), (5968935235799725, .ofNat 1), (6156579515387875, .negSucc 1), (6186461122814875, .ofNat 2), (6224930842244825, .negSucc 0), (6244864352914025, .ofNat 1), (6371757288959935, .negSucc 0), (6392160968152495, .ofNat 1), (6395755985769850, .ofNat 2), (6418452008324975, .negSucc 0), (6426798461399050, .negSucc 1), (6569843007787705, .negSucc 0), (6684286330992550, .negSucc 3), (6716729219056150, .ofNat 4), (6779448622719415, .ofNat 1), (6783334962528250, .ofNat 4), (6801157813532455, .negSucc 0), (6816258593562250, .negSucc 3), (6990208683529345, .ofNat 1), (7007321136010925, .ofNat 1), (7172601697267915, .ofNat 1), (7441055062875350, .negSucc 0), (7464882853776950, .ofNat 1), (7554658956965050, .ofNat 1), (7578850530933850, .negSucc 0), (7582614711361375, .negSucc 1), (7619417730880375, .ofNat 2), (7631534362131235, .negSucc 0), (7672383199545050, .negSucc 0), (7789518820912150, .ofNat 1), (7886961767617085, .negSucc 0), (7912217443628045, .ofNat 1), (8118918872189765, .ofNat 1), (8132152288890155, .negSucc 0), (8144917322624405, .negSucc 0), (8232553115192350, .negSucc 1), (8272510679241550, .ofNat 2), (8371320495159395, .ofNat 1), (8376295855763150, .ofNat 1), (8504178235240450, .negSucc 0), (8668591317338050, .negSucc 0), (8696349932154850, .ofNat 1), (8878247051047265, .ofNat 1), (8938081202851150, .negSucc 0), (9059655587293150, .negSucc 0), (9088666470447550, .ofNat 1), (9139358051749385, .negSucc 0), (9307366576492250, .negSucc 3), (9341302911250450, .negSucc 0), (9352540860934250, .ofNat 4), (9758116948897450, .ofNat 1), (10001892178076050, .negSucc 0), (10198332751103350, .ofNat 1), (10692426675473375, .negSucc 1), (10744323495056375, .ofNat 2), (10866785540412550, .ofNat 1), (11159165420423650, .ofNat 1), (11177534836968850, .negSucc 0), (11200390286965250, .ofNat 4), (11254752561463250, .negSucc 3), (11472976286404150, .ofNat 1), (11509715119494550, .negSucc 0), (11615816055821425, .negSucc 3), (11672194643064025, .ofNat 4), (11829649124323450, .ofNat 1), (12359043916792825, .ofNat 6), (12419029838776225, .negSucc 5), (12914975485202350, .negSucc 0), (13093413997438250, .negSucc 3), (13156964261992250, .ofNat 4), (13752375548603650, .negSucc 0), (13796413487606050, .ofNat 1), (14162031111347525, .negSucc 1), (14179910539751950, .negSucc 0), (14230768021669325, .ofNat 2), (14378058199214675, .negSucc 1), (14447843619771275, .ofNat 2), (14671004043091375, .ofNat 2), (14742211307170375, .negSucc 1), (14800919732912075, .ofNat 6), (14872757556481475, .negSucc 5), (15020241702741125, .negSucc 1), (15093144028602125, .ofNat 2), (15480864654447850, .ofNat 1), (16476621924938275, .ofNat 1), (16529383461934675, .negSucc 0), (16728173404708325, .negSucc 0), (16781740461353525, .ofNat 1), (16988848513278325, .ofNat 1), (17248220246305475, .negSucc 0), (17654937068804875, .negSucc 1), (17740627166255875, .ofNat 2), (18229224755068775, .ofNat 2), (18317702218320575, .negSucc 1), (18547512252046975, .negSucc 0), (18830680378032425, .ofNat 1), (19194737916962825, .ofNat 1), (19256203421200025, .negSucc 0), (19421090067047725, .ofNat 2), (19515352374183925, .negSucc 1), (19791465520598975, .ofNat 1), (20060665943291975, .ofNat 1), (20124904327419575, .negSucc 0), (20609168847947125, .ofNat 2), (20638870094518375, .ofNat 2), (20684313589197425, .ofNat 1), (20709197620640125, .negSucc 1), (20739043025341375, .negSucc 1), (21607258958272925, .negSucc 0), (22147046965739825, .ofNat 1), (22582022520300275, .negSucc 0), (23474895275115550, .negSucc 0), (23550066724772350, .ofNat 1), (24062167982342075, .negSucc 0), (24204684765533650, .negSucc 0), (24709580573795225, .negSucc 0), (24750255710431025, .ofNat 1), (24800864206851625, .negSucc 1), (24921237814668625, .ofNat 2), (24976915978439950, .ofNat 1), (25056897207751150, .negSucc 0), (25404447491323475, .negSucc 0), (25485797764595075, .ofNat 1), (25753400413002850, .ofNat 1), (26194223061001925, .negSucc 0), (26425374674144950, .ofNat 1), (28116179228904550, .negSucc 0), (28197898716166865, .negSucc 3), (28288194195611105, .ofNat 4), (28597445717233775, .ofNat 1), (28992559565756125, .ofNat 2), (29057227564905050, .negSucc 0), (29074517329104695, .negSucc 3), (29133278008697125, .negSucc 1), (29150274792313850, .ofNat 1), (29911806371225450, .ofNat 1), (29960561064332150, .negSucc 0), (30007590135984650, .negSucc 0), (30451688714765225, .ofNat 1), (30549201293984825, .negSucc 0), (30841707087429350, .ofNat 1), (31398373338022175, .ofNat 1), (31741996284353285, .ofNat 4), (32709331240700450, .ofNat 1), (33671319138024050, .negSucc 0), (34279057449134525, .negSucc 0), (34331589874720285, .negSucc 3), (34441526696574445, .ofNat 4), (35398893186887755, .negSucc 3), (35870763804097250, .ofNat 4), (36044866336099250, .negSucc 3), (37991657431501550, .negSucc 1), (38176053944213150, .ofNat 2), (38646610132496065, .ofNat 4), (39705566789313650, .negSucc 1), (39898281941696450, .ofNat 2), (45533319693447250, .ofNat 4), (45754320458649250, .negSucc 3), (46964859345099650, .ofNat 1), (47115250497798050, .negSucc 0), (48424906785879950, .ofNat 1), (51405223048152575, .negSucc 9), (51654723715037975, .ofNat 10), (52867712088511850, .negSucc 0), (53467742274031750, .ofNat 4), (53727253595317750, .negSucc 3), (54529704279149750, .ofNat 4), (54794369944931750, .negSucc 3), (59885441837981725, .ofNat 2), (60176102140365925, .negSucc 1), (62587040717890675, .negSucc 7), (62890813515119275, .ofNat 8), (67160301729200750, .ofNat 4), (67486271330654750, .negSucc 3), (68531549109611525, .negSucc 0), (68751001244899925, .ofNat 1), (70662063589703075, .negSucc 0), (72916480517703725, .ofNat 1), (73149974106499325, .negSucc 0), (74029709227897675, .negSucc 0), (74266767604308475, .ofNat 1), (75183314108927675, .ofNat 1), (76331150965552525, .negSucc 0), (77145045419681225, .ofNat 1), (79259043246600175, .ofNat 2), (79428119851929625, .negSucc 7), (79643735364912775, .negSucc 1), (79813632601362625, .ofNat 8), (82081103877931025, .negSucc 0), (83334250502021575, .ofNat 1), (83553830909086825, .ofNat 1), (83821387484748025, .negSucc 0), (84828357891093775, .negSucc 0), (85099995764658175, .ofNat 1), (86151359331130975, .ofNat 1), (87323176664383975, .ofNat 1), (87465508913614825, .negSucc 0), (87602803461503575, .negSucc 0), (90037886819753425, .ofNat 1), (94055426503788925, .negSucc 0), (95490144428496475, .ofNat 1), (98298528451328275, .negSucc 0), (100823779321204625, .negSucc 1), (101313138158437625, .ofNat 2), (102882942208704050, .ofNat 2), (103382295409995650, .negSucc 1), (103886995270088450, .negSucc 1), (104219662825935650, .ofNat 2), (107116642791438350, .negSucc 1), (109465817548736450, .negSucc 1), (109997121429160850, .ofNat 2), (116944196837091050, .ofNat 2), (118392857892498875, .negSucc 7), (118967490103917875, .ofNat 8), (120744345189545875, .negSucc 1), (121330390592348875, .ofNat 2), (126484804801601050, .negSucc 1), (126889835197905850, .ofNat 2), (127348515478758550, .ofNat 2), (127966614917974150, .negSucc 1), (130416974899060150, .negSucc 1), (131093860491506950, .negSucc 1), (131730138357407350, .ofNat 2), (132927917169579875, .ofNat 2), (133573096822830875, .negSucc 1), (142382247856564450, .ofNat 2), (148712096686087375, .negSucc 1), (149433886517878375, .ofNat 2), (159191556040743625, .ofNat 2), (159964209032784625, .negSucc 1), (165375976203477550, .negSucc 1), (166178645930461150, .ofNat 2), (167898615100506850, .ofNat 2), (168713528721200050, .negSucc 1), (189387663861614750, .negSucc 3), (190306876844876750, .ofNat 4), (195341895887239150, .negSucc 0), (195967420871289550, .ofNat 1), (196064751822344125, .ofNat 2), (197016372755621125, .negSucc 1), (201414700940728450, .negSucc 0), (219893751511217350, .ofNat 1), (230035489526624425, .ofNat 2), (230583834223807750, .negSucc 3), (230772110543143225, .negSucc 1), (231702997160965750, .ofNat 4), (237186851895327775, .ofNat 2), (258947864424987325, .negSucc 1), (276475604037240125, .ofNat 2), (277817507515029125, .negSucc 1), (280073496346402325, .ofNat 2), (280970349366791525, .negSucc 1), (288780444419347475, .ofNat 2), (315274977396678425, .negSucc 1), (366189661593414575, .ofNat 2), (367967001703163975, .negSucc 1), (371775504865408025, .negSucc 1), (373579956454085825, .ofNat 2), (379350247399934125, .negSucc 1), (381191463799691125, .ofNat 2), (419358398550718375, .ofNat 8), (421393798727941375, .negSucc 7), (432542769464600975, .ofNat 1), (433927860500712575, .negSucc 0), (445989694940184425, .ofNat 1), (455303404140779950, .ofNat 12), (456506229921954625, .ofNat 2), (457513267190336350, .negSucc 11), (458721931013187625, .negSucc 1), (486907592631981275, .negSucc 0), (510578490067002875, .ofNat 8), (513056636570709875, .negSucc 7), (533662212443975125, .negSucc 1), (536252398226684125, .ofNat 2), (554342360644174550, .ofNat 12), (557032919705342150, .negSucc 11), (606993720685130650, .ofNat 1), (608937439597685050, .negSucc 0), (625863991794512950, .ofNat 1), (645831684585375850, .negSucc 0), (647899770657565450, .ofNat 1), (665909353536216550, .negSucc 0), (683284688002890850, .negSucc 0), (727004062918817650, .ofNat 1), (751336884178259150, .ofNat 1), (753742819629829550, .negSucc 0), (773433850455972350, .negSucc 0), (774694507520588450, .ofNat 1), (775910544944745950, .ofNat 1), (797478426117816050, .negSucc 0), (845769850652397350, .negSucc 0), (870644109140336150, .ofNat 1), (956791296132532175, .negSucc 0), (959855138927414975, .ofNat 1), (986536103266186025, .negSucc 0), (1008171823454584175, .negSucc 3), (1013065091635744775, .ofNat 4), (1018010752863189575, .ofNat 1), (1021270632967534775, .negSucc 0), (1049658755542874225, .ofNat 1), (1077047125831682075, .ofNat 1), (1145961046958738675, .negSucc 0), (1177361552073421750, .negSucc 3), (1183076000430787750, .ofNat 4), (1184316355750242925, .negSucc 0), (1188108780648017725, .ofNat 1), (1219147333872366325, .ofNat 1), (1221134480799473275, .negSucc 0), (1223051294736019525, .negSucc 0), (1227472369997815075, .negSucc 3), (1233430036490400475, .ofNat 4), (1257048287256999475, .ofNat 1), (1333169032987903825, .ofNat 1), (1372377797770754425, .negSucc 0), (1409982353503729250, .negSucc 3), (1416825851433235250, .ofNat 4), (1548466424667813175, .negSucc 1), (1555982069629461775, .ofNat 2), (1618322052848316025, .negSucc 1), (1626176749462369825, .ofNat 2), (1736573516140762250, .negSucc 3), (1744245927091894625, .negSucc 1), (1745002158692644250, .ofNat 4), (1752711808498807625, .ofNat 2), (1855849981699051625, .ofNat 4), (1864857545145268625, .negSucc 3), (1893752720842628450, .negSucc 3), (1902944249227276850, .ofNat 4), (1914196767178497025, .ofNat 1), (1920326419482833425, .negSucc 0), (1973705474966429575, .ofNat 1), (2014922837273256050, .ofNat 4), (2024702477586291650, .negSucc 3), (2154785620123700725, .negSucc 0), (2159027771527235875, .negSucc 1), (2169506840323718875, .ofNat 2), (2222525205055022875, .ofNat 4), (2233312465336169875, .negSucc 3), (2344087294800998950, .negSucc 3), (2355464569494323350, .ofNat 4), (2413027365488310550, .ofNat 4), (2424739248079270150, .negSucc 3), (2607014865305433875, .ofNat 2), (2619668286668172875, .negSucc 1), (2686220877698001350, .ofNat 2), (2694822710213478950, .negSucc 1), (2737323910801456375, .ofNat 2), (2750609800847815375, .negSucc 1), (2769730335035763050, .ofNat 2), (3023842803930497150, .negSucc 1), (3122103782758257625, .ofNat 2), (3137257242459306625, .negSucc 1), (3270535667012827150, .ofNat 2), (3281008595831565550, .negSucc 1), (3372210350961412450, .ofNat 2), (3681598123148309350, .negSucc 1), (3714317244306362750, .negSucc 3), (3732345074447480750, .ofNat 4), (3845269928597402125, .ofNat 2), (3863933351390855125, .negSucc 1), (4193309596151534425, .ofNat 6), (4213662266146113025, .negSucc 5), (4461614853962209825, .negSucc 5), (4483269771798217225, .ofNat 6), (4522266626307739750, .negSucc 3), (4544215923912001750, .ofNat 4), (4897023879850324250, .ofNat 4), (4920792101274670250, .negSucc 3), (5190479009916497675, .ofNat 6), (5215671546737430275, .negSucc 5), (5343132023581259075, .negSucc 5), (5369065477889812475, .ofNat 6), (5948060514902717275, .negSucc 1), (5962239142072743250, .ofNat 4), (5967107429758417675, .ofNat 2), (5991177498019257250, .negSucc 3), (6132974313293475325, .negSucc 1), (6695651922988957975, .ofNat 2), (7241900405528402975, .negSucc 1), (7265090462198466575, .ofNat 2), (7467037205700270425, .negSucc 1), (8152110129828399275, .ofNat 2), (10843410019668575125, .negSucc 7), (10896039652822484125, .ofNat 8), (13202100957446788625, .negSucc 7), (13266178745614069625, .ofNat 8), (15449035354242495250, .ofNat 4), (15524018875275153250, .negSucc 3), (16437528409334457250, .negSucc 3), (16517309685572379250, .ofNat 4), (18557285520383079575, .ofNat 8), (18647355261128708975, .negSucc 7), (19122817404955517750, .ofNat 4), (19215632014295795750, .negSucc 3), (19685223244773059750, .negSucc 3), (19780767550120361750, .ofNat 4), (22593921699158533675, .ofNat 8), (22703583678958058275, .negSucc 7), (24739889228569760525, .ofNat 1), (24819111449408872925, .negSucc 0), (25509004955882810075, .ofNat 1), (26322849466891044725, .negSucc 0), (26407140652446256325, .ofNat 1), (27141176393322890675, .negSucc 0), (27849361396504922225, .negSucc 0), (29631278499933100025, .ofNat 1), (30623037198684852775, .ofNat 1), (30721098471041601175, .negSucc 0), (31523666775842614975, .negSucc 0), (31575048717814951825, .ofNat 1), (31624612049602790575, .ofNat 1), (32503677141930986425, .negSucc 0), (34208578284394096625, .negSucc 1), (34374613223823553625, .ofNat 2), (34471942138687227475, .negSucc 0), (35485768770929507275, .ofNat 1), (36397384334954869625, .ofNat 2), (36574042875195982625, .negSucc 1), (42343381396687217875, .negSucc 1), (42548899460226404875, .ofNat 2), (43588708613426060875, .ofNat 2), (43800271003837943875, .negSucc 1), (45101216114804703875, .ofNat 2), (45320119619754882875, .negSucc 1), (47986978098218334875, .negSucc 3), (48219887953041945875, .ofNat 4), (55826289520918527625, .ofNat 2), (56097248299799016625, .negSucc 1), (57468151730708448625, .negSucc 3), (57747079460835249625, .ofNat 4), (68368946654042924750, .ofNat 4), (68700782541000506750, .negSucc 3), (70779375407866229125, .negSucc 1), (71122910564779226125, .ofNat 2), (83240764154794597750, .ofNat 4), (83644781975108635750, .negSucc 3), (96041631602778808250, .ofNat 4), (96507779782142002250, .negSucc 3), (116932894194528699250, .ofNat 4), (117500440318296045250, .negSucc 3), (151388381876809333375, .negSucc 7), (152123161340786836375, .ofNat 8), (184318834914188037875, .negSucc 7), (185213445802026264875, .ofNat 8), (399467914159698805750, .negSucc 3), (401406773774971819750, .ofNat 4), (425027520298505251750, .ofNat 4), (427090436155514377750, .negSucc 3), (494461421470992673250, .negSucc 3), (496861342083934147250, .ofNat 4), (509003629614846259250, .ofNat 4), (511474132367397925250, .negSucc 3), (629672779680173959625, .ofNat 2), (632728962868069552625, .negSucc 1), (669961843393357636625, .negSucc 1), (673213573797441973625, .ofNat 2), (779409025521332150875, .ofNat 2), (783191969356862513875, .negSucc 1), (802331599024863257875, .negSucc 1), (806225799986357324875, .ofNat 2), (884536095639333069875, .ofNat 2), (888829284787437600875, .negSucc 1), (941132366375261628875, .negSucc 1), (945700251487210407875, .ofNat 2), (1094878861828626633625, .ofNat 2), (1100192971757282754625, .negSucc 1), (1127079465575731002625, .negSucc 1), (1132549864527809691625, .ofNat 2), (1767825620625967054250, .negSucc 3), (1776405948560155960250, .ofNat 4), (2152368330288260313250, .negSucc 3), (2162815076784951867250, .ofNat 4), (3914471017100355620125, .ofNat 8), (3933470314668916769125, .negSucc 7), (4765958445638290693625, .ofNat 8), (4789090527166679134625, .negSucc 7), (16281539017444498098875, .negSucc 1), (16360563182731512717875, .ofNat 2), (17323299093456818889875, .ofNat 2), (17407379551048142460875, .negSucc 1), (20153290517051588472625, .negSucc 1), (20251106636227445001625, .ofNat 2), (20746002774785749953625, .ofNat 2), (20846695685361525114625, .negSucc 1)])

end BP.EL
