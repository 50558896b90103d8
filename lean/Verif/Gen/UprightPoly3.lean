import Verif.Lemmas.Laurent
import Verif.Gen.UprightPoly2

/-!
# Generated by tools/gen_upright_poly.py
-/

namespace BP.EL

def upr103 : Tr := .node (.node (.node .nil (.node (.node (.leaf [(19, .ofNat 1)]) .nil) .nil)) (.node (.node (.node (.leaf [(7, .ofNat 1)]) .nil) (.node (.leaf [(101, .negSucc 0), (1000073, .negSucc 0), (4081379, .negSucc 0)]) .nil)) .nil)) (.node .nil (.node (.node upr102 .nil) .nil))

def upr104 : Tr := .node .nil (.node (.node .nil (.node (.node .nil (.leaf [(1, .ofNat 1)])) .nil)) (.node (.node (.node .nil (.leaf [(14978745530770, .ofNat 1), (15003402465730, .negSucc 0), (33167222246705, .negSucc 0), (33221819745545, .ofNat 1)])) (.node (.leaf [(1121, .ofNat 1)]) .nil)) .nil))

def upr105 : Tr := .node (.node (.node (.node (.node (.leaf [(19, .ofNat 1)]) .nil) .nil) .nil) (.node .nil (.node (.node .nil (.leaf [(1, .ofNat 1)])) .nil))) (.node (.node .nil (.node (.node .nil (.leaf [(177711557, .negSucc 0), (178004093, .ofNat 1)])) (.node (.leaf [(1109730910, .negSucc 0), (1218884770, .ofNat 1)]) .nil))) .nil)

def upr106 : Tr := .node (.node .nil (.node (.node (.node .nil (.leaf [(133, .ofNat 1)])) .nil) .nil)) (.node .nil (.node (.node (.node (.leaf [(158, .negSucc 0), (1577, .ofNat 1), (1691, .ofNat 1), (3010, .ofNat 1), (4270, .ofNat 1), (4970, .ofNat 1), (6230, .ofNat 1), (6665, .negSucc 0), (7014, .ofNat 1), (7266, .ofNat 1), (7630, .ofNat 1), (9455, .negSucc 0), (11005, .negSucc 0), (13795, .negSucc 0), (16895, .negSucc 0), (35245, .negSucc 1), (52535, .negSucc 1), (68637, .ofNat 1), (162491, .ofNat 2), (312170, .ofNat 2), (465310, .ofNat 2), (1086610, .negSucc 0), (1439206, .negSucc 0), (1490930, .ofNat 1), (1794170, .negSucc 0), (2097410, .ofNat 1), (2406065, .ofNat 1), (3301345, .negSucc 0), (3972805, .ofNat 1), (4644265, .negSucc 0), (6085814, .ofNat 2), (6360362, .ofNat 1), (12723445, .ofNat 2), (13475731, .negSucc 0), (18965135, .ofNat 2), (58659251, .negSucc 1), (59554037, .ofNat 1), (188599390, .ofNat 1), (225862490, .ofNat 1), (278178530, .ofNat 1), (417612935, .negSucc 0), (500124085, .negSucc 0), (615966745, .negSucc 0), (1736985985, .ofNat 2), (2114820365, .ofNat 2), (15384733010, .negSucc 1), (18731266090, .negSucc 1), (63990033310, .ofNat 1), (68084379790, .negSucc 0), (79206869210, .ofNat 1), (81536358890, .negSucc 0), (141692216615, .negSucc 0), (150758269535, .ofNat 1), (175386638965, .negSucc 0), (180544794685, .ofNat 1), (627051940585, .negSucc 1), (763450151765, .negSucc 1)]) (.leaf [(101, .ofNat 1)])) .nil) .nil))

def upr107 : Tr := .node (.node (.node (.node (.node (.leaf [(2, .ofNat 1)]) .nil) (.node (.leaf [(1169, .negSucc 0), (1211, .negSucc 0), (6623, .ofNat 1), (27029, .ofNat 1), (28417, .negSucc 0), (29503, .negSucc 0), (32399, .negSucc 0), (39878, .negSucc 0), (45758, .negSucc 0), (390773, .ofNat 1), (441047, .ofNat 1)]) .nil)) .nil) (.node .nil (.node .nil (.node (.leaf [(6335, .ofNat 1), (8890, .ofNat 1), (19685, .negSucc 0), (56110, .negSucc 0), (2286935, .negSucc 0)]) .nil)))) (.node .nil (.node (.node (.node .nil (.leaf [(15878723656810, .negSucc 0), (17335537564030, .ofNat 1), (35160030954365, .ofNat 1), (38385833177495, .negSucc 0)])) .nil) .nil))

def upr108 : Tr := .node (.node (.node (.node (.node (.leaf [(37, .negSucc 0)]) (.leaf [(2, .ofNat 1)])) .nil) .nil) (.node .nil (.node (.node (.leaf [(1169, .negSucc 0), (1211, .negSucc 0), (6623, .ofNat 1), (27029, .ofNat 1), (30227, .ofNat 1), (31313, .ofNat 1), (39878, .negSucc 0), (45758, .negSucc 0), (390773, .ofNat 1), (441047, .ofNat 1)]) .nil) .nil))) (.node (.node (.node (.node (.leaf [(1, .ofNat 1), (361, .negSucc 0)]) .nil) .nil) (.node (.node (.leaf [(6335, .ofNat 1), (56110, .negSucc 0), (2286935, .negSucc 0)]) .nil) .nil)) .nil)

def upr109 : Tr := .node (.node .nil (.node .nil (.node .nil (.node (.leaf [(3439, .ofNat 1), (1241479, .negSucc 0), (4573870, .negSucc 0), (4780210, .ofNat 1), (10127855, .ofNat 1), (44758585, .ofNat 1), (118267210, .ofNat 1)]) .nil)))) (.node (.node .nil (.node .nil (.node (.leaf [(56158870, .ofNat 1), (593622985, .negSucc 0)]) .nil))) .nil)

def upr110 : Tr := .node .nil (.leaf [(20321534482270, .negSucc 0), (22185959778010, .ofNat 1), (44997683496455, .ofNat 1), (49126053794165, .negSucc 0), (760735993401310, .negSucc 0), (830530694717530, .ofNat 1), (3948768790490305, .ofNat 1), (4311053657631715, .negSucc 0), (5885900649976115, .ofNat 1), (6425910168922745, .negSucc 0), (6740310740525155, .ofNat 1), (7323165455990305, .negSucc 0), (7972042652499295, .negSucc 0), (8703447950313085, .ofNat 1), (11298563056738070, .negSucc 0), (11353401823119110, .ofNat 1), (15899382262087379, .negSucc 0), (17358091519596377, .ofNat 1), (17419285721068553, .negSucc 0), (18045128321825507, .negSucc 0), (19017440474609339, .ofNat 1), (19700701809026441, .ofNat 1), (30798181709955905, .ofNat 1), (30947663930241065, .negSucc 0), (31904703208517195, .ofNat 1), (32059556047495235, .negSucc 0), (33438025856523554, .ofNat 1), (33600320838547442, .negSucc 0), (34639392054961526, .ofNat 1), (34807517994423398, .negSucc 0), (64176315814463090, .negSucc 0), (66482051711988710, .negSucc 0), (70064254380139670, .ofNat 1), (72581532980623730, .ofNat 1), (112771100889088205, .ofNat 1), (113318447310498965, .negSucc 0), (120923228664203015, .ofNat 1), (121510142296800095, .negSucc 0), (121741286861531290, .ofNat 1), (129705486874923355, .ofNat 1), (132910597671136270, .negSucc 0), (141605483449338865, .negSucc 0), (142104699303453985, .ofNat 1), (147210257362260715, .ofNat 1), (155142277556023555, .negSucc 0), (160716251599952545, .negSucc 0), (167040370344891770, .negSucc 0), (182365703781326510, .ofNat 1), (201014682957412130, .ofNat 1), (215244777220136650, .ofNat 1), (216289490427775450, .negSucc 0), (219457033363969190, .negSucc 0), (234988995569932490, .negSucc 0), (256548362946611870, .ofNat 1), (272783895145323730, .negSucc 0), (274107880524992290, .ofNat 1), (282584514132580870, .negSucc 0), (283956067849243510, .ofNat 1), (305347242102984550, .ofNat 1), (306829277118472150, .negSucc 0), (327214967310266207, .ofNat 1), (328803139634357111, .negSucc 0), (355404167037900050, .ofNat 1), (357129158613303650, .negSucc 0), (363592591650290030, .ofNat 1), (396950861214426890, .negSucc 0), (445506631920747950, .ofNat 1), (447668945304000350, .negSucc 0), (476613435273159725, .negSucc 0), (478926728804359925, .ofNat 1), (545620481790578950, .ofNat 1), (547310334056706395, .negSucc 0), (548268708293663350, .negSucc 0), (597524023988710385, .ofNat 1), (628011090470103095, .negSucc 0), (676126036085180075, .negSucc 0), (679407685048045475, .ofNat 1), (681840612510397646, .negSucc 0), (685628775005652485, .ofNat 1), (744396955720422698, .ofNat 1), (786966369869635825, .negSucc 0), (790785994072315225, .ofNat 1), (805097881511356495, .negSucc 0), (878962621260516685, .ofNat 1), (986478970681656175, .negSucc 0), (991266950316000775, .ofNat 1), (1205528826932559710, .ofNat 1), (1208159638250567675, .negSucc 0), (1211379988126578830, .negSucc 0), (1214023568364540275, .ofNat 1), (1254586338455072210, .negSucc 0), (1363074150289949510, .ofNat 1), (1425505533367000105, .negSucc 1), (1483850847005237690, .ofNat 1), (1556290370405049115, .ofNat 2), (1560049928571084370, .negSucc 0), (1619669671064246830, .negSucc 0), (1619988649821039470, .negSucc 0), (1703178714046560310, .ofNat 1), (1768268346430505290, .ofNat 1), (1778655651046013390, .negSucc 0), (1941840699454358570, .ofNat 1), (2124810134641377515, .negSucc 1), (2319753570981110945, .ofNat 2), (2520366170472995425, .negSucc 1), (2532599033264766025, .ofNat 2), (2669385259636382215, .negSucc 0), (2682341402280281695, .ofNat 1), (2778012606579088465, .ofNat 1), (3018235618499173915, .negSucc 0), (3285669732654454885, .negSucc 0), (3454396270407401105, .ofNat 1), (3586411414499403695, .ofNat 1), (3587117724603730255, .ofNat 1), (3756772216365408275, .negSucc 1), (3771324295388812115, .negSucc 0), (3775006106187104075, .ofNat 2), (3915451338524690285, .negSucc 0), (3938451798744743935, .ofNat 1), (4299790120220365405, .negSucc 0), (4847605815930828070, .ofNat 1), (5292355641042863410, .negSucc 0), (5562383944163770270, .ofNat 1), (6072712007192922010, .negSucc 0), (6572047655620292639, .ofNat 1), (7175008613349037757, .negSucc 0), (11118143597294081705, .negSucc 0), (11172106678817024465, .ofNat 1), (11517597858274707395, .negSucc 0), (11573499733145779835, .ofNat 1), (11619713985141935015, .ofNat 2), (11676111491395236095, .negSucc 1), (21452841282947121530, .ofNat 1), (22323243224189388050, .ofNat 2), (22431591437487927650, .negSucc 1), (23421059774927561390, .negSucc 0), (24593362406773471325, .ofNat 1), (24712728882738306725, .negSucc 0), (33274268202093616150, .ofNat 2), (33435768369085778950, .negSucc 1), (37929712768183419050, .ofNat 1), (38113808625944190650, .negSucc 0), (42809472576838707950, .ofNat 1), (43017252863035080350, .negSucc 0), (47502719983668626245, .negSucc 0), (51860918073053885935, .ofNat 1), (53614072980060282055, .negSucc 0), (58532965003636886965, .ofNat 1), (73523616211569362495, .ofNat 1), (77703364576469330650, .negSucc 0), (78080506044426937450, .ofNat 1), (80269134864145894685, .negSucc 0), (83987221129548999325, .negSucc 1), (84394861957447850725, .ofNat 2), (94792403562999996175, .negSucc 1), (95252488482434820775, .ofNat 2), (102917466725542852990, .negSucc 0), (103416987495214948270, .ofNat 1), (106616244418876523450, .ofNat 1), (107133717595841611850, .negSucc 0), (128300904300681918050, .negSucc 0), (128923626259402617650, .ofNat 1), (149985564182487312650, .ofNat 1), (150713534922963623450, .negSucc 0), (172057450133610660725, .ofNat 1), (172892549098373932925, .negSucc 0), (194607917352448888165, .negSucc 0), (197579030594471008595, .ofNat 1), (212462470815414306895, .ofNat 1), (215706172659924448985, .negSucc 0), (217826924174279317450, .negSucc 1), (218884170104253573850, .ofNat 2), (236078826927512301925, .negSucc 0), (236939612847363181985, .negSucc 0), (237224660390792140525, .ofNat 1), (253695280297593530465, .negSucc 0), (258677942112846887555, .ofNat 1), (275633065676489075915, .ofNat 1), (284094859522938532825, .ofNat 1), (285473743860105796225, .negSucc 0), (300055839133701992885, .ofNat 1), (327584847688811624255, .negSucc 0), (332110892118364763725, .negSucc 0), (333722827329419451925, .ofNat 1), (349329759197048054075, .ofNat 1), (351025267993905847475, .negSucc 0), (359669582007947421935, .negSucc 0), (392667930011092079405, .ofNat 1), (400838334955076103575, .ofNat 1), (402783846052087460975, .negSucc 0), (435195906522654055310, .ofNat 2), (437308175713694957630, .negSucc 1), (454828804561270027730, .ofNat 1), (457036364091756384290, .negSucc 0), (482331046385904202925, .ofNat 1), (484672090945132913525, .negSucc 0), (554709181744775570990, .negSucc 0), (605601688465984087370, .ofNat 1), (743886815718862565450, .ofNat 1), (747497348765966677850, .negSucc 0), (839589860129428537550, .ofNat 1), (843664897987279841150, .negSucc 0), (909852187540751348425, .ofNat 2), (914268251008580535025, .negSucc 1), (963648078728733979615, .negSucc 0), (968325246223181691895, .ofNat 1), (1356194770107912387275, .ofNat 2), (1362777204333544571075, .negSucc 1), (3094063581459568478950, .negSucc 1), (3109080945088880363350, .ofNat 2), (3550282395316388345950, .negSucc 1), (3567514065032774654350, .ofNat 2), (4194716748636238540415, .negSucc 1), (4215076248393680230295, .ofNat 2), (4258702799543114684105, .ofNat 1), (4279372862341157799665, .negSucc 0), (5108829219657036079385, .negSucc 0), (5577545321635189323755, .ofNat 1), (6851140787517615917675, .ofNat 1), (6884393521268235090275, .negSucc 0), (7169296252999376597590, .negSucc 0), (7628017421893626498310, .ofNat 1), (7827052550802972863170, .ofNat 1), (7861339589629145623175, .ofNat 1), (7899495429715429591775, .negSucc 0), (8327859682827814328530, .negSucc 0), (8874155571822825362690, .negSucc 0), (8878203828845223148325, .negSucc 0), (8921295126668528727725, .ofNat 1), (9135146241312206768210, .ofNat 1), (9688326378701301414470, .ofNat 1), (9973261972555162482230, .negSucc 0), (13486722154286932859350, .ofNat 1), (13552181381425012932550, .negSucc 0), (13692626309314214277050, .negSucc 0), (13759084913965852824650, .ofNat 1), (15454219600238773569950, .negSucc 0), (15529228283555664006350, .ofNat 1), (16151402439347289670850, .ofNat 1), (16229794973039378172050, .negSucc 0), (19892516849593056377450, .ofNat 1), (19989067276294898953850, .negSucc 0), (29863456198778208474275, .negSucc 0), (30008401630298242922075, .ofNat 1), (30319386827767188756325, .ofNat 2), (30466545166638674111725, .negSucc 1), (34220057686242998619175, .ofNat 2), (34386148342158970299775, .negSucc 1), (35763819687126141414025, .negSucc 0), (35937403154587194523825, .ofNat 1), (44047715881241767692925, .negSucc 0), (44261506111795847683525, .ofNat 1), (70253458164234048627565, .ofNat 2), (76698951964364564789095, .negSucc 1), (85535200237898108696585, .ofNat 2), (93382737102737726407355, .negSucc 1), (124211681520207515227525, .ofNat 2), (124814556005261664909325, .negSucc 1), (126108043070134347521075, .negSucc 0), (126720121745800010938475, .ofNat 1), (144702638918782473390575, .negSucc 0), (145404968424803573411975, .ofNat 1), (151230577516622284220225, .ofNat 2), (151964591060508997776425, .negSucc 1), (1100160607750409420586650, .negSucc 1), (1105500353189460460625450, .ofNat 2), (1339470829432940231664850, .negSucc 1), (1345972092250222551734050, .ofNat 2), (4575920419973446324336150, .ofNat 1), (4598130131919028968338950, .negSucc 0), (4868706697697582762225350, .negSucc 0), (4892337478694429668650550, .ofNat 1), (5664074723392342529859650, .ofNat 1), (5691565906913739873554450, .negSucc 0), (5830656280604371571176850, .negSucc 0), (5858955985267215520110050, .ofNat 1), (10132395215655488289601475, .negSucc 0), (10181573863534992715607675, .ofNat 1), (10780707687758933259213275, .ofNat 1), (10833032988537665694869075, .negSucc 0), (12541879744654472744689225, .negSucc 0), (12602753079594709720013425, .ofNat 1), (12910738907052537050463025, .ofNat 1), (12973402538805977223100825, .negSucc 0), (44840417028794912997136525, .negSucc 1), (45058054717899461032266325, .ofNat 2), (54594238483500644603501225, .negSucc 1), (54859217372843748197289425, .ofNat 2)])

def upr111 : Tr := .node (.node (.node .nil (.node upr110 .nil)) (.node .nil (.node .nil (.node (.leaf [(45793, .negSucc 0)]) .nil)))) (.node (.node (.node (.node (.leaf [(181, .negSucc 0)]) .nil) (.node (.leaf [(1, .ofNat 1)]) .nil)) .nil) (.node (.node (.node (.leaf [(50429, .ofNat 1)]) .nil) .nil) .nil))

def upr112 : Tr := .node (.node (.node (.node (.node .nil (.leaf [(103, .ofNat 1), (109, .negSucc 0), (1000073, .ofNat 1), (4081379, .ofNat 1)])) (.node (.leaf [(149, .negSucc 0)]) .nil)) .nil) .nil) (.node (.node (.node (.node (.leaf [(23, .ofNat 1)]) (.leaf [(14, .negSucc 0), (31, .ofNat 1), (57, .negSucc 0)])) .nil) (.node (.node (.leaf [(49, .ofNat 1), (1267, .negSucc 0)]) .nil) (.node (.leaf [(98363, .ofNat 1), (101897, .ofNat 1), (434701, .ofNat 1)]) .nil))) (.node (.node (.node (.leaf [(1159, .ofNat 1)]) .nil) .nil) .nil))

def upr113 : Tr := .node (.node .nil (.node .nil (.node (.node (.leaf [(27029, .negSucc 0)]) .nil) .nil))) (.node (.node (.node (.node (.leaf [(19, .ofNat 1)]) (.leaf [(37829, .negSucc 0)])) .nil) .nil) (.node (.node (.node (.leaf [(158, .negSucc 0), (1577, .ofNat 1), (1691, .ofNat 1), (15531, .ofNat 1), (16089, .ofNat 1), (68637, .ofNat 1), (1439206, .ofNat 1), (6360362, .ofNat 1), (13475731, .ofNat 1), (59554037, .ofNat 1)]) (.leaf [(168886721, .negSucc 0), (174867457, .ofNat 1)])) .nil) .nil))

def upr114 : Tr := .node (.node (.node (.node (.node (.leaf [(2, .negSucc 0)]) .nil) .nil) (.node (.node .nil (.leaf [(181, .negSucc 0)])) .nil)) .nil) .nil

def upr115 : Tr := .node .nil (.node (.node (.node (.node (.leaf [(14, .negSucc 0), (31, .ofNat 1)]) .nil) (.node (.leaf [(9573782713901, .negSucc 0), (9917750955119, .negSucc 0), (9944559157309, .ofNat 1), (10301848707871, .ofNat 1), (17514123827326, .ofNat 1), (17570207659102, .negSucc 0), (18143373785194, .ofNat 1), (18201472604938, .negSucc 0), (54240515752067, .ofNat 1), (56341159366003, .negSucc 0), (171388211738833, .ofNat 1), (171937032092641, .negSucc 0), (187158406458269, .negSucc 0), (193786192305373, .ofNat 1), (221359942663841, .ofNat 1), (229932839574769, .negSucc 0), (232727274064093, .negSucc 0), (241621310015587, .negSucc 0), (241740408531437, .ofNat 1), (250978895481683, .ofNat 1), (265338739219571, .negSucc 0), (275614860682339, .ofNat 1), (326589655316462, .negSucc 0), (339237921364558, .ofNat 1), (374745209086982, .negSucc 0), (389258458443238, .ofNat 1), (3200321464892417, .ofNat 1), (3324264512899153, .negSucc 0), (3612051449630363, .ofNat 1), (3751940104921867, .negSucc 0), (5392409951446315, .ofNat 1), (5409677558753755, .negSucc 0), (6086158029995785, .ofNat 1), (6105647161537945, .negSucc 0), (13985604688581190, .ofNat 1), (14030389475326630, .negSucc 0), (30968124667572635, .negSucc 0), (31067290981080395, .ofNat 1), (47761345284238790, .negSucc 0), (47914286948961830, .ofNat 1), (53905971122819810, .negSucc 0), (54078589145050370, .ofNat 1), (198654736073892490, .ofNat 1), (199290869454546730, .negSucc 0), (227946321612647890, .ofNat 1), (228676252683212530, .negSucc 0), (439878344163619085, .negSucc 0), (441286925220782045, .ofNat 1), (504738283570863185, .negSucc 0), (506354559512827745, .ofNat 1), (1946659992472119715, .negSucc 0), (1952893598710105555, .ofNat 1), (2197103048828478385, .negSucc 0), (2204138625315198145, .ofNat 1)]) .nil)) .nil) (.node (.node (.node .nil (.leaf [(7, .ofNat 1)])) .nil) .nil))

def upr116 : Tr := .node (.node (.node (.node (.node (.leaf [(2, .negSucc 0)]) (.leaf [(37, .ofNat 1), (181, .negSucc 0)])) .nil) (.node (.node (.leaf [(14, .negSucc 0), (57, .negSucc 0)]) .nil) .nil)) .nil) .nil

def upr117 : Tr := .node (.node (.node .nil (.node (.node (.leaf [(62, .negSucc 0), (114, .ofNat 1), (2527, .negSucc 0), (65341, .ofNat 1)]) .nil) .nil)) .nil) (.node .nil (.node (.node (.node (.leaf [(67, .ofNat 1), (193127, .ofNat 1), (211589, .ofNat 1), (219191, .ofNat 1), (1198763, .negSucc 0), (4892249, .negSucc 0), (5471087, .negSucc 0), (5667653, .negSucc 0), (7217918, .ofNat 1), (8282198, .ofNat 1), (70729913, .negSucc 0), (79829507, .negSucc 0)]) (.leaf [(6, .ofNat 1), (133, .negSucc 0), (3439, .ofNat 1)])) .nil) .nil))

def upr118 : Tr := .node (.node (.node (.node (.node (.leaf [(2, .ofNat 1)]) .nil) .nil) .nil) (.node (.node (.node .nil (.leaf [(1330, .ofNat 1), (2945, .negSucc 0)])) (.node (.leaf [(870067, .negSucc 0)]) .nil)) .nil)) (.node .nil (.node (.node .nil (.node (.leaf [(362, .ofNat 1)]) .nil)) .nil))

def upr119 : Tr := .node (.node (.node (.node (.node (.leaf [(14, .negSucc 0)]) .nil) .nil) (.node (.node (.leaf [(2, .negSucc 0)]) .nil) .nil)) .nil) (.node (.node (.node .nil (.node (.leaf [(1169, .negSucc 0), (1211, .negSucc 0), (6623, .ofNat 1), (27029, .ofNat 1), (30227, .ofNat 1), (31313, .ofNat 1), (39878, .negSucc 0), (45758, .negSucc 0), (390773, .ofNat 1), (441047, .ofNat 1)]) .nil)) .nil) (.node (.node (.node (.leaf [(8948831, .ofNat 1), (8977487, .negSucc 0), (9390133, .negSucc 0), (9435709, .ofNat 1), (9753797, .ofNat 1), (9769853, .negSucc 0)]) .nil) .nil) (.node .nil (.node (.leaf [(1, .ofNat 1)]) .nil))))

def upr120 : Tr := .node (.node (.node (.node upr103 upr104) (.node upr105 upr106)) (.node (.node upr107 upr108) (.node upr109 upr111))) (.node (.node (.node upr112 upr113) (.node upr114 upr115)) (.node (.node upr116 upr117) (.node upr118 upr119)))

def upr121 : Tr := .node (.node (.node (.node (.node (.leaf [(2, .ofNat 1)]) (.leaf [(27029, .ofNat 1)])) (.node (.leaf [(302, .ofNat 1)]) .nil)) .nil) .nil) .nil

def upr122 : Tr := .node .nil (.node (.node .nil (.node .nil (.node (.leaf [(43107865, .negSucc 0)]) .nil))) (.node (.node (.node (.leaf [(107, .ofNat 1), (4027321, .negSucc 0)]) .nil) .nil) .nil))

def upr123 : Tr := .node (.node (.node (.node (.node .nil (.leaf [(107, .negSucc 0), (4027321, .ofNat 1)])) (.node (.leaf [(47, .ofNat 1), (67, .ofNat 1), (73, .ofNat 1), (97, .ofNat 1), (103, .ofNat 1), (1503, .ofNat 1), (1557, .ofNat 1), (8183, .ofNat 1), (8477, .ofNat 1), (139278, .ofNat 2), (211589, .negSucc 0), (219191, .negSucc 0), (245051, .ofNat 1), (320306, .ofNat 2), (1000073, .ofNat 2), (1198763, .negSucc 0), (1304103, .ofNat 2), (2532253, .ofNat 1), (2694277, .ofNat 1), (3087329, .negSucc 1), (3134423, .ofNat 1), (3226607, .ofNat 1), (3973979, .ofNat 1), (4081379, .ofNat 1), (4892249, .negSucc 0), (7217918, .ofNat 1), (8282198, .negSucc 0), (70729913, .negSucc 0), (79829507, .ofNat 1)]) .nil)) .nil) .nil) (.node (.node (.node (.node (.leaf [(91586, .negSucc 0)]) .nil) .nil) (.node (.node .nil (.leaf [(180815689, .ofNat 1), (181693297, .negSucc 0)])) (.node (.leaf [(10542443645, .negSucc 0), (11579405315, .ofNat 1)]) .nil))) (.node (.node (.node (.leaf [(97, .ofNat 1)]) .nil) .nil) .nil))

def upr124 : Tr := .node (.node (.node .nil (.node (.node (.leaf [(722, .negSucc 5)]) .nil) .nil)) (.node (.node (.node (.leaf [(4585, .ofNat 1), (40610, .negSucc 0), (168910, .ofNat 1), (374015, .negSucc 0), (1655185, .negSucc 0)]) .nil) .nil) .nil)) (.node .nil (.node (.node (.node .nil (.leaf [(79, .ofNat 1)])) .nil) .nil))

def upr125 : Tr := .node (.node (.node (.node (.node (.leaf [(19, .ofNat 1)]) .nil) (.node (.leaf [(29503, .ofNat 1)]) .nil)) .nil) (.node (.node (.node (.leaf [(1991, .negSucc 0)]) (.leaf [(79, .ofNat 1), (2485, .negSucc 0), (22010, .ofNat 1), (105070, .ofNat 1), (232655, .negSucc 0), (897085, .ofNat 1)])) (.node (.leaf [(90681, .ofNat 1), (93939, .ofNat 1), (4827451, .ofNat 1), (7445254, .ofNat 1), (8403106, .ofNat 1), (68570221, .ofNat 1), (78680881, .ofNat 1)]) .nil)) (.node .nil (.node (.leaf [(2590, .negSucc 0), (5735, .ofNat 1), (10570, .negSucc 0), (12670, .ofNat 1), (23405, .ofNat 1), (28055, .negSucc 0)]) .nil)))) (.node (.node .nil (.node .nil (.node (.leaf [(79, .ofNat 1), (31062, .negSucc 0), (32178, .negSucc 0), (137274, .negSucc 0), (688541, .ofNat 1), (713279, .ofNat 1), (719603, .negSucc 0), (3042907, .ofNat 1), (3180181, .negSucc 0), (17803703, .negSucc 0), (18443357, .negSucc 0), (78680881, .negSucc 0)]) .nil))) (.node (.node (.node (.leaf [(142, .negSucc 0)]) .nil) .nil) .nil))

def upr126 : Tr := .node (.node .nil (.node (.node (.node (.leaf [(1330, .ofNat 1), (2945, .negSucc 0)]) (.leaf [(361, .ofNat 1)])) .nil) .nil)) (.node (.node .nil (.node (.node .nil (.leaf [(1, .ofNat 1)])) .nil)) (.node (.node (.node (.leaf [(97, .ofNat 1)]) (.leaf [(156047641, .ofNat 1), (163742963, .negSucc 0)])) .nil) .nil))

def upr127 : Tr := .node (.node .nil (.node .nil (.node (.node (.leaf [(7, .negSucc 0), (181, .ofNat 1)]) .nil) .nil))) (.node (.node (.node (.node .nil (.leaf [(3, .ofNat 1)])) .nil) .nil) (.node (.node (.node .nil (.leaf [(19504588372430, .negSucc 0), (19599255947390, .ofNat 1), (43188731396095, .ofNat 1), (43398352454935, .negSucc 0), (730153641907790, .negSucc 0), (733697519548670, .ofNat 1), (15260211115872811, .negSucc 0), (15334278158567203, .ofNat 1), (124491195945278195, .ofNat 1), (125095427083048235, .negSucc 0)])) .nil) .nil))

def upr128 : Tr := .node (.node (.node (.node (.node (.leaf [(6, .ofNat 1), (133, .negSucc 0), (3439, .ofNat 1)]) .nil) .nil) .nil) .nil) (.node .nil (.node (.node (.node (.leaf [(45571, .ofNat 1), (47897, .negSucc 0)]) (.leaf [(23, .ofNat 1)])) .nil) .nil))

def upr129 : Tr := .node (.node (.node (.node (.node (.leaf [(703, .ofNat 1)]) .nil) (.node (.leaf [(703, .ofNat 1), (3439, .negSucc 0)]) .nil)) .nil) (.node (.node .nil (.node (.leaf [(166, .negSucc 0), (178, .negSucc 0), (1501, .negSucc 0), (36239, .negSucc 0), (37541, .negSucc 0), (160153, .negSucc 0), (937037, .ofNat 1), (970703, .ofNat 1), (1418498, .negSucc 0), (4141099, .ofNat 1), (6268846, .negSucc 0), (13672457, .ofNat 1), (60423439, .ofNat 1)]) .nil)) (.node (.node .nil (.leaf [(70, .ofNat 1), (155, .negSucc 0)])) (.node (.leaf [(1646404055, .negSucc 0)]) .nil)))) (.node (.node (.node (.node .nil (.leaf [(2, .ofNat 1)])) .nil) (.node (.node (.leaf [(49, .ofNat 1), (1267, .negSucc 0)]) .nil) (.node (.leaf [(6, .negSucc 0), (133, .ofNat 1), (139, .negSucc 0), (3439, .negSucc 0)]) .nil))) (.node (.node (.node .nil (.leaf [(1045870, .negSucc 0), (2315855, .ofNat 1), (39152110, .negSucc 0), (203227705, .ofNat 1), (302924315, .ofNat 1), (366133135, .ofNat 1), (410289895, .negSucc 0), (818279099, .negSucc 0), (896502593, .negSucc 0), (928712267, .negSucc 0), (3302904290, .negSucc 0), (3421571510, .negSucc 0), (6265548490, .ofNat 1), (6675434755, .ofNat 1), (7313573785, .ofNat 1), (7576336915, .ofNat 1), (8596915370, .negSucc 0), (10345440530, .ofNat 1), (12093965690, .negSucc 0), (18712690430, .ofNat 1), (28167924995, .negSucc 0), (32321277695, .negSucc 0), (35091672926, .negSucc 0), (41435243095, .negSucc 0), (73365201505, .negSucc 1), (76368006890, .ofNat 1), (80289675970, .negSucc 0), (83358071230, .negSucc 0), (91540458590, .negSucc 0), (109355677715, .negSucc 1), (169100586685, .negSucc 0), (177784282505, .ofNat 1), (184578586295, .ofNat 1), (202696729735, .ofNat 1), (249487335670, .ofNat 1), (286274173870, .ofNat 1), (338237621159, .ofNat 1), (1104093941930, .ofNat 1), (2444779442845, .negSucc 0), (2759306909455, .negSucc 0), (3783973329095, .ofNat 1), (10015709330365, .negSucc 0), (10168620923195, .ofNat 1), (12194356341785, .negSucc 0), (13780707134405, .negSucc 0), (15442701964685, .ofNat 1), (18510788447735, .negSucc 0), (28548714784190, .negSucc 0), (262931483871185, .negSucc 0), (368975673498790, .negSucc 0), (392584260209110, .ofNat 1), (456718123131890, .negSucc 0), (470150293411010, .ofNat 1), (3615671068261765, .ofNat 2), (4402162639384385, .ofNat 2)])) .nil) .nil))

def upr130 : Tr := .node (.node (.node (.node (.node (.leaf [(31, .ofNat 1)]) .nil) .nil) .nil) .nil) (.node (.node (.node (.node (.leaf [(7339, .ofNat 1)]) (.leaf [(37829, .negSucc 0)])) .nil) .nil) (.node (.node (.node (.leaf [(53, .negSucc 0), (79, .negSucc 0), (107, .ofNat 1), (1634, .negSucc 0), (2242, .ofNat 1), (2698, .negSucc 0), (3154, .ofNat 1), (3507, .ofNat 1), (3633, .ofNat 1), (19133, .ofNat 2), (28519, .ofNat 2), (137274, .ofNat 1), (324982, .ofNat 1), (986827, .negSucc 0), (1323141, .negSucc 0), (2612009, .ofNat 1), (3042907, .ofNat 1), (3180181, .ofNat 1), (4027321, .negSucc 0), (4827451, .ofNat 1), (7445254, .ofNat 1), (68570221, .ofNat 1), (96225614, .ofNat 1), (102382526, .negSucc 0), (119108074, .ofNat 1), (122611066, .negSucc 0), (942935249, .negSucc 1), (1148045341, .negSucc 1)]) (.leaf [(182709047, .negSucc 0), (183294119, .ofNat 1)])) (.node (.leaf [(158, .negSucc 0), (1577, .ofNat 1), (1691, .ofNat 1), (15531, .ofNat 1), (16089, .ofNat 1), (68637, .ofNat 1), (1439206, .ofNat 1), (6360362, .ofNat 1), (13475731, .ofNat 1), (59554037, .ofNat 1)]) .nil)) .nil))

def upr131 : Tr := .node (.node .nil (.node .nil (.node (.node .nil (.leaf [(1991, .ofNat 1)])) .nil))) (.node (.node .nil (.node (.node (.leaf [(38, .negSucc 1)]) .nil) .nil)) (.node (.node (.node (.leaf [(101, .ofNat 1)]) .nil) (.node (.leaf [(1225, .negSucc 0), (1330, .negSucc 1), (2945, .ofNat 1), (10850, .ofNat 1), (31675, .ofNat 1), (280550, .negSucc 0), (442225, .ofNat 1), (11434675, .negSucc 0)]) .nil)) .nil))

def upr132 : Tr := .node (.node (.node (.node (.node (.leaf [(149, .ofNat 1)]) (.leaf [(101, .ofNat 1)])) .nil) (.node (.node (.leaf [(1, .ofNat 2), (361, .negSucc 3)]) .nil) .nil)) .nil) (.node .nil (.node (.node (.node .nil (.leaf [(163, .ofNat 1)])) (.node (.leaf [(437, .negSucc 0)]) .nil)) .nil))

def upr133 : Tr := .node (.node (.node (.node (.node (.leaf [(19, .ofNat 1)]) .nil) .nil) .nil) .nil) (.node .nil (.node (.node (.node (.leaf [(1577, .ofNat 1)]) .nil) .nil) .nil))

def upr134 : Tr := .node (.node (.node (.node (.node (.leaf [(1, .ofNat 1)]) (.leaf [(158, .ofNat 1), (1349, .ofNat 1)])) .nil) .nil) (.node (.node (.node (.leaf [(1, .ofNat 1)]) .nil) .nil) .nil)) (.node (.node .nil (.node .nil (.node (.leaf [(395485, .negSucc 0)]) .nil))) .nil)

def upr135 : Tr := .node .nil (.node (.node .nil (.node (.node (.leaf [(266, .ofNat 1)]) .nil) (.node (.leaf [(30624761827055, .negSucc 0), (33377549407015, .ofNat 1)]) .nil))) (.node (.node (.node (.leaf [(101, .ofNat 1), (1000073, .ofNat 1), (4081379, .ofNat 1), (4892249, .negSucc 0)]) .nil) (.node (.leaf [(362, .ofNat 1)]) .nil)) .nil))

def upr136 : Tr := .node (.node (.node (.node (.node (.leaf [(7, .negSucc 0)]) .nil) .nil) (.node (.node (.leaf [(19, .ofNat 1)]) .nil) .nil)) .nil) (.node (.node (.node (.node (.leaf [(3, .negSucc 0)]) .nil) .nil) .nil) (.node (.node (.node (.leaf [(41567, .negSucc 0), (43039, .ofNat 1)]) .nil) .nil) .nil))

def upr137 : Tr := .node (.node (.node (.node upr121 upr122) (.node upr123 upr124)) (.node (.node upr125 upr126) (.node upr127 upr128))) (.node (.node (.node upr129 upr130) (.node upr131 upr132)) (.node (.node upr133 upr134) (.node upr135 upr136)))

def upr138 : Tr := .node (.node (.node (.node (.node (.leaf [(2, .ofNat 1)]) .nil) .nil) .nil) (.node (.node (.node .nil (.leaf [(2, .ofNat 1)])) .nil) .nil)) (.node (.node .nil (.node .nil (.node (.leaf [(386254, .ofNat 1), (739385, .negSucc 0), (937037, .ofNat 1), (970703, .ofNat 1), (1048895, .negSucc 0), (1220845, .negSucc 0), (1530355, .negSucc 0), (1722939, .negSucc 0), (1784841, .negSucc 0), (1874255, .negSucc 0), (4141099, .ofNat 1), (34630730, .ofNat 2), (51619390, .ofNat 2), (159659014, .negSucc 1), (266917985, .ofNat 1), (366236305, .negSucc 0), (440725045, .ofNat 1), (515213785, .negSucc 0), (1494936739, .negSucc 1), (46328093015, .negSucc 0), (55481507365, .negSucc 0), (68332568905, .negSucc 0), (1706712800690, .negSucc 1), (2077962067210, .negSucc 1), (15718694610935, .negSucc 0), (16724441578415, .ofNat 1), (19456601658085, .negSucc 0), (20028824158765, .ofNat 1)]) .nil))) (.node (.node (.node (.leaf [(1541, .ofNat 1)]) .nil) .nil) .nil))

def upr139 : Tr := .node (.node .nil (.node (.node (.node .nil (.leaf [(589, .ofNat 1)])) .nil) .nil)) (.node (.node .nil (.node (.node (.leaf [(1, .ofNat 1)]) .nil) .nil)) (.node (.node .nil (.node (.leaf [(53, .negSucc 0), (79, .negSucc 0), (107, .ofNat 1), (1634, .negSucc 0), (2242, .ofNat 1), (2698, .negSucc 0), (3154, .ofNat 1), (3507, .ofNat 1), (3633, .ofNat 1), (19133, .ofNat 2), (28519, .ofNat 2), (137274, .ofNat 1), (324982, .ofNat 1), (986827, .negSucc 0), (1323141, .negSucc 0), (2612009, .ofNat 1), (3042907, .ofNat 1), (3180181, .ofNat 1), (4027321, .negSucc 0), (4827451, .ofNat 1), (7445254, .ofNat 1), (68570221, .ofNat 1), (96225614, .ofNat 1), (102382526, .negSucc 0), (119108074, .ofNat 1), (122611066, .negSucc 0), (942935249, .negSucc 1), (1148045341, .negSucc 1)]) .nil)) .nil))

def upr140 : Tr := .node (.leaf [(4130, .negSucc 0), (4270, .negSucc 0), (5810, .negSucc 0), (6230, .negSucc 0), (7070, .negSucc 0), (9145, .ofNat 1), (9455, .ofNat 1), (12865, .ofNat 1), (13795, .ofNat 1), (15655, .ofNat 1), (35245, .negSucc 2), (52535, .negSucc 2), (71155, .ofNat 1), (129850, .negSucc 0), (155477, .ofNat 1), (161063, .ofNat 1), (193550, .negSucc 0), (262150, .ofNat 1), (287525, .ofNat 1), (312170, .ofNat 2), (428575, .ofNat 1), (465310, .ofNat 2), (580475, .negSucc 0), (1000825, .negSucc 0), (1086610, .negSucc 1), (1373225, .ofNat 1), (1490930, .ofNat 2), (1652525, .negSucc 0), (1794170, .negSucc 1), (1931825, .ofNat 1), (2097410, .ofNat 2), (2406065, .ofNat 1), (3301345, .negSucc 0), (3357550, .ofNat 1), (3972805, .ofNat 1), (4644265, .negSucc 0), (5004650, .ofNat 1), (5605355, .negSucc 0), (6085814, .ofNat 1), (6778450, .negSucc 0), (7434575, .negSucc 0), (8864450, .ofNat 1), (11081725, .negSucc 0), (12162850, .negSucc 0), (12723445, .ofNat 4), (14636650, .ofNat 1), (15009425, .ofNat 1), (17110450, .negSucc 0), (17153570, .negSucc 0), (18965135, .ofNat 4), (25878475, .ofNat 1), (35507675, .negSucc 0), (37982905, .ofNat 1), (42729575, .ofNat 1), (46875850, .ofNat 2), (49647430, .ofNat 1), (49951475, .negSucc 0), (58659251, .negSucc 0), (69871550, .ofNat 2), (70005110, .negSucc 1), (83913410, .ofNat 1), (103796525, .negSucc 1), (126313565, .negSucc 0), (154715575, .negSucc 1), (155011315, .ofNat 2), (177257710, .negSucc 0), (185808265, .negSucc 0), (199051475, .ofNat 1), (216113030, .ofNat 2), (219409610, .negSucc 0), (229209350, .negSucc 0), (285696530, .negSucc 0), (314496550, .ofNat 1), (342457430, .ofNat 1), (361297825, .ofNat 1), (378461950, .negSucc 0), (392499215, .ofNat 1), (442427350, .ofNat 1), (478535995, .negSucc 0), (485835565, .ofNat 1), (495734225, .negSucc 0), (596561525, .ofNat 1), (632613745, .ofNat 1), (656239955, .negSucc 0), (697388825, .negSucc 0), (758298595, .negSucc 0), (1118777290, .ofNat 1), (1212075550, .negSucc 1), (1736985985, .ofNat 3), (1763027350, .negSucc 0), (1806678650, .negSucc 1), (2023533155, .ofNat 2), (2114820365, .ofNat 3), (2417726150, .negSucc 0), (2678168465, .negSucc 0), (2683881575, .ofNat 2), (3210254915, .ofNat 1), (4000502725, .ofNat 2), (4560218075, .ofNat 1), (4951093910, .ofNat 2), (5146902425, .negSucc 0), (5353536475, .ofNat 1), (6399422050, .ofNat 1), (7455122150, .ofNat 1), (7791443450, .ofNat 1), (9342129475, .negSucc 0), (9866936450, .negSucc 0), (10963136515, .negSucc 0), (11827254950, .ofNat 1), (12818270675, .ofNat 1), (14170148825, .negSucc 0), (15384733010, .negSucc 1), (15425376575, .negSucc 0), (16507770475, .negSucc 0), (17252481925, .negSucc 0), (18032482475, .ofNat 1), (18731266090, .negSucc 1), (21848216425, .ofNat 1), (26188921675, .negSucc 0), (40390502950, .negSucc 0), (45586850050, .ofNat 1), (45599196965, .ofNat 2), (58938188575, .ofNat 1), (62515490450, .ofNat 1), (62709297175, .negSucc 0), (63990033310, .ofNat 2), (68084379790, .negSucc 1), (71857582475, .negSucc 0), (72953695325, .ofNat 1), (75099277925, .negSucc 0), (79206869210, .ofNat 2), (81536358890, .negSucc 1), (117914210225, .negSucc 0), (138427157425, .negSucc 0), (141692216615, .negSucc 0), (150758269535, .ofNat 1), (165470770150, .negSucc 0), (167997041450, .ofNat 1), (175386638965, .negSucc 0), (180544794685, .ofNat 1), (192768158450, .negSucc 0), (201464466350, .negSucc 0), (255130785350, .ofNat 1), (305819020850, .negSucc 0), (366399562475, .ofNat 1), (371993448925, .negSucc 0), (426843779425, .ofNat 1), (446099889775, .ofNat 1), (522023955950, .negSucc 0), (555425203550, .ofNat 1), (564932453275, .negSucc 0), (627051940585, .negSucc 3), (646161301450, .negSucc 0), (665165033050, .ofNat 1), (677170689025, .ofNat 1), (763450151765, .negSucc 3), (1044383004850, .ofNat 1), (1523973161725, .negSucc 0), (1621483255525, .ofNat 1), (1646238725075, .negSucc 0), (1858031775425, .ofNat 1), (1886374121975, .negSucc 0), (1941852757775, .ofNat 1), (2310191360050, .negSucc 1), (2812711085450, .negSucc 1), (4343923500350, .negSucc 0), (5115423725825, .ofNat 2), (6228145974925, .ofNat 2), (9618687750775, .ofNat 1), (13498048003850, .ofNat 1), (14361708834650, .negSucc 0), (16707885080350, .ofNat 1), (17199267283150, .negSucc 0), (21276686075575, .negSucc 0), (22638056280175, .ofNat 1), (26336284012325, .negSucc 0), (27110839330925, .ofNat 1), (42567029891225, .ofNat 1), (59734948024150, .ofNat 2), (72728672352350, .ofNat 2), (132270242053475, .negSucc 1), (161042060208775, .negSucc 1), (550154311382725, .ofNat 1), (585355455244525, .negSucc 0), (680981058032975, .ofNat 1), (701008845556775, .negSucc 0)]) .nil

def upr141 : Tr := .node (.node (.node (.node (.node .nil (.leaf [(37, .ofNat 1), (181, .negSucc 0)])) .nil) .nil) (.node .nil (.node .nil (.node (.leaf [(120365, .ofNat 1), (1066090, .negSucc 0), (43451765, .negSucc 0)]) .nil)))) (.node .nil (.node (.node (.node (.leaf [(178, .ofNat 1)]) .nil) upr140) .nil))

def upr142 : Tr := .node (.node (.node .nil (.node (.node .nil (.leaf [(19708824899890, .ofNat 1), (19771936616530, .negSucc 0), (43640969421185, .negSucc 0), (43780716793745, .ofNat 1), (737799229781170, .ofNat 1), (740161814875090, .negSucc 0), (15420003902426453, .ofNat 1), (15469381930889381, .negSucc 0), (125794768677689485, .negSucc 0), (126197589436202845, .ofNat 1)])) .nil)) (.node (.node (.node (.leaf [(62, .ofNat 1), (114, .negSucc 0), (274, .ofNat 1), (2527, .ofNat 1), (2641, .negSucc 0), (65341, .negSucc 0)]) .nil) .nil) .nil)) (.node .nil (.node (.node (.node .nil (.leaf [(113, .ofNat 1)])) .nil) .nil))

def upr143 : Tr := .node .nil (.node (.node .nil (.node (.node (.leaf [(2, .negSucc 0)]) .nil) .nil)) .nil)

def upr144 : Tr := .node (.node (.node (.node (.node (.leaf [(74, .ofNat 1)]) .nil) .nil) (.node (.node (.leaf [(2, .ofNat 1)]) .nil) .nil)) (.node (.node (.node (.leaf [(19, .ofNat 1)]) .nil) .nil) (.node (.node (.leaf [(2338, .negSucc 0), (2422, .negSucc 0), (22879, .negSucc 0), (719845, .negSucc 0), (812455, .negSucc 0), (1866970, .negSucc 0), (4134005, .ofNat 1), (6375770, .ofNat 1), (7196030, .ofNat 1), (26518870, .negSucc 0), (30429070, .negSucc 0), (58720355, .ofNat 1), (67378655, .ofNat 1), (259864045, .ofNat 1), (293296255, .ofNat 1)]) .nil) .nil))) .nil

def upr145 : Tr := .node .nil (.node (.node .nil (.node (.node (.leaf [(14, .ofNat 1), (31, .negSucc 0)]) .nil) .nil)) .nil)

def upr146 : Tr := .node .nil (.node (.node (.node (.node (.leaf [(63, .negSucc 0)]) .nil) (.node (.leaf [(37, .ofNat 1)]) .nil)) .nil) .nil)

def upr147 : Tr := .node (.node (.node (.node (.node .nil (.leaf [(342457430, .negSucc 0), (758298595, .ofNat 1)])) .nil) (.node (.node (.leaf [(1, .negSucc 0)]) .nil) .nil)) (.node (.node .nil (.node (.leaf [(166, .negSucc 0), (178, .negSucc 0), (1501, .negSucc 0), (36239, .negSucc 0), (37541, .negSucc 0), (160153, .negSucc 0), (937037, .ofNat 1), (970703, .ofNat 1), (1418498, .negSucc 0), (4141099, .ofNat 1), (6268846, .negSucc 0), (13672457, .ofNat 1), (60423439, .ofNat 1)]) .nil)) (.node (.node (.leaf [(395485, .negSucc 0)]) .nil) (.node (.leaf [(81830, .ofNat 1), (84770, .ofNat 1), (181195, .negSucc 0), (187705, .negSucc 0), (463610, .negSucc 0), (697865, .ofNat 1), (800765, .ofNat 1), (1026565, .ofNat 1), (1892030, .negSucc 0), (1989190, .ofNat 1), (2065210, .ofNat 1), (2267930, .ofNat 1), (4189495, .ofNat 1), (4404635, .negSucc 0), (4572965, .negSucc 0), (5021845, .negSucc 0), (6181090, .negSucc 0), (7092490, .negSucc 0), (27354110, .negSucc 0), (30873290, .negSucc 0), (60569815, .ofNat 1), (68362285, .ofNat 1), (251929265, .negSucc 0), (289076165, .negSucc 0)]) .nil)))) .nil

def upr148 : Tr := .node (.node (.node (.node (.node (.leaf [(31, .ofNat 1), (137, .ofNat 1)]) .nil) .nil) .nil) (.node (.node (.node (.leaf [(19, .ofNat 1)]) (.leaf [(266, .negSucc 0), (589, .ofNat 1)])) .nil) .nil)) (.node (.node (.node (.node (.leaf [(19, .ofNat 1)]) .nil) .nil) (.node (.node (.leaf [(12670, .negSucc 0), (28055, .ofNat 1)]) .nil) .nil)) .nil)

def upr149 : Tr := .node (.node (.node (.node (.node (.leaf [(19, .ofNat 1)]) (.leaf [(10430, .negSucc 0), (23095, .ofNat 1)])) .nil) .nil) .nil) (.node .nil (.node (.node .nil (.node (.leaf [(70, .negSucc 0), (155, .ofNat 1)]) .nil)) .nil))

def upr150 : Tr := .node .nil (.node (.node (.node (.node (.leaf [(1, .ofNat 1)]) .nil) .nil) (.node (.node .nil (.leaf [(1, .ofNat 1)])) .nil)) (.node (.node (.node (.leaf [(49163, .ofNat 1), (51067, .negSucc 0)]) (.leaf [(4163, .negSucc 0)])) .nil) .nil))

def upr151 : Tr := .node (.node (.node .nil (.node .nil (.node (.leaf [(437, .negSucc 0)]) .nil))) (.node .nil (.node (.node (.leaf [(3, .ofNat 1)]) .nil) .nil))) (.node (.node .nil (.node (.node .nil (.leaf [(182709047, .negSucc 0), (183294119, .ofNat 1)])) .nil)) .nil)

def upr152 : Tr := .node (.node (.node .nil (.node (.node (.leaf [(19, .negSucc 0)]) .nil) .nil)) (.node (.node (.node (.leaf [(70, .ofNat 1), (155, .negSucc 0)]) (.leaf [(38, .negSucc 3)])) .nil) .nil)) (.node .nil (.node (.node (.node .nil (.leaf [(43, .ofNat 1)])) .nil) .nil))

def upr153 : Tr := .node (.node (.node (.node (.node .nil (.leaf [(77737836610, .ofNat 1), (172133781065, .negSucc 0)])) .nil) .nil) .nil) .nil

def upr154 : Tr := .node (.node (.node (.node (.node (.leaf [(133, .ofNat 1)]) .nil) .nil) (.node (.node (.leaf [(19, .ofNat 1)]) .nil) .nil)) .nil) (.node (.node (.node (.node (.leaf [(1, .negSucc 0)]) .nil) .nil) .nil) (.node (.node (.node (.leaf [(10747591, .ofNat 1), (10782007, .negSucc 0)]) .nil) .nil) (.node .nil (.node (.leaf [(149, .negSucc 0)]) .nil))))

def upr155 : Tr := .node (.node (.node (.node upr138 upr139) (.node upr141 upr142)) (.node (.node upr143 upr144) (.node upr145 upr146))) (.node (.node (.node upr147 upr148) (.node upr149 upr150)) (.node (.node upr151 upr152) (.node upr153 upr154)))

def upr156 : Tr := .node (.node (.node (.node (.node (.leaf [(1, .ofNat 1)]) .nil) (.node (.leaf [(1, .negSucc 0)]) .nil)) (.node (.node (.leaf [(10453621, .negSucc 0), (10470829, .ofNat 1)]) .nil) .nil)) (.node (.node .nil (.node (.leaf [(166, .ofNat 1)]) .nil)) .nil)) .nil

def upr157 : Tr := .node (.node (.node (.node (.node (.leaf [(254, .ofNat 1), (2489, .negSucc 0)]) .nil) .nil) .nil) .nil) (.node (.node (.node .nil (.node (.leaf [(47929, .ofNat 1), (49651, .ofNat 1), (271543, .negSucc 0), (1108189, .negSucc 0), (1165097, .ofNat 1), (1209623, .ofNat 1), (1328359, .ofNat 1), (1634998, .ofNat 1), (1876078, .ofNat 1), (16021693, .negSucc 0), (18082927, .negSucc 0)]) .nil)) .nil) (.node (.node (.node (.leaf [(83, .ofNat 1), (89, .ofNat 1), (160487, .ofNat 1), (166253, .ofNat 1), (709249, .ofNat 2), (3134423, .ofNat 1)]) .nil) .nil) .nil))

def upr158 : Tr := .node .nil (.node (.node .nil (.node (.node .nil (.leaf [(152130127, .negSucc 0), (152617279, .ofNat 1), (159632261, .ofNat 1), (160407053, .negSucc 0), (165814549, .negSucc 0), (166087501, .ofNat 1)])) .nil)) (.node (.node (.node (.leaf [(178, .negSucc 0)]) .nil) .nil) .nil))

def upr159 : Tr := .node .nil (.node (.node (.node (.node (.leaf [(14, .negSucc 0), (31, .ofNat 1)]) .nil) .nil) (.node (.node (.leaf [(181, .ofNat 1)]) .nil) (.node (.leaf [(395485, .ofNat 1)]) .nil))) (.node (.node (.node (.leaf [(193127, .ofNat 1)]) (.leaf [(59, .ofNat 1)])) .nil) .nil))

def upr160 : Tr := .node (.node (.node (.node (.node (.leaf [(2, .negSucc 0)]) (.leaf [(76368006890, .negSucc 0), (169100586685, .ofNat 1)])) .nil) .nil) (.node (.node (.node .nil (.leaf [(83, .ofNat 1), (2765, .negSucc 0), (24490, .ofNat 1), (110390, .ofNat 1), (244435, .negSucc 0), (998165, .ofNat 1)])) .nil) (.node (.node .nil (.leaf [(1, .ofNat 1)])) .nil))) (.node (.node (.node (.node (.leaf [(46, .negSucc 0)]) (.leaf [(3439, .ofNat 1)])) .nil) .nil) .nil)

def upr161 : Tr := .node (.node (.node (.node (.node (.leaf [(31, .ofNat 1), (137, .ofNat 1)]) .nil) .nil) .nil) (.node (.node (.node .nil (.leaf [(38, .negSucc 0)])) .nil) (.node (.node (.leaf [(501, .negSucc 0), (519, .negSucc 0), (26671, .negSucc 0), (41134, .negSucc 0), (46426, .negSucc 0), (378841, .negSucc 0), (434701, .negSucc 0)]) .nil) .nil))) (.node (.node (.node (.node (.leaf [(38, .negSucc 0)]) .nil) .nil) .nil) (.node (.node (.node (.leaf [(67, .ofNat 1)]) (.leaf [(180815689, .ofNat 1), (181693297, .negSucc 0)])) .nil) (.node (.node (.leaf [(1169, .negSucc 0), (1211, .negSucc 0), (6623, .ofNat 1), (27029, .ofNat 1), (28417, .negSucc 0), (29503, .negSucc 0), (32399, .negSucc 0), (39878, .negSucc 0), (45758, .negSucc 0), (390773, .ofNat 1), (441047, .ofNat 1)]) .nil) .nil)))

def upr162 : Tr := .node (.node (.node (.node (.node (.leaf [(2, .ofNat 1)]) (.leaf [(66094283990, .ofNat 1), (146351628835, .negSucc 0)])) .nil) .nil) (.node .nil (.node (.node (.leaf [(9, .ofNat 1), (1267, .ofNat 1), (32761, .negSucc 0)]) .nil) .nil))) (.node (.node .nil (.node (.node (.leaf [(38, .negSucc 3)]) .nil) .nil)) .nil)

def upr163 : Tr := .node (.node (.node (.node (.node (.leaf [(181, .ofNat 1)]) .nil) .nil) .nil) (.node .nil (.node .nil (.node (.leaf [(870067, .negSucc 0)]) .nil)))) .nil

def upr164 : Tr := .node (.node (.node (.node (.node (.leaf [(1, .ofNat 1)]) .nil) .nil) .nil) (.node .nil (.node (.node .nil (.leaf [(395485, .negSucc 0)])) .nil))) (.node .nil (.node (.node (.node (.leaf [(122, .negSucc 0)]) .nil) .nil) .nil))

def upr165 : Tr := .node (.node (.node (.node (.node (.leaf [(266, .ofNat 1), (589, .negSucc 0), (1083, .ofNat 1), (6878, .negSucc 0)]) .nil) .nil) .nil) .nil) (.node .nil (.node (.node (.node .nil (.leaf [(1, .ofNat 1)])) .nil) .nil))

def upr166 : Tr := .node (.leaf [(229987310, .negSucc 0), (237783490, .negSucc 0), (323541470, .negSucc 0), (332876810, .ofNat 1), (346930010, .negSucc 0), (393707090, .negSucc 0), (509257615, .ofNat 1), (526520585, .ofNat 1), (716413255, .ofNat 1), (737084365, .negSucc 0), (768202165, .ofNat 1), (871779985, .ofNat 1), (1962688315, .negSucc 2), (2925516545, .negSucc 2), (3350190865, .negSucc 0), (3962408485, .ofNat 1), (7230956950, .negSucc 0), (8658047699, .ofNat 1), (8969115281, .ofNat 1), (10778218850, .negSucc 0), (12342808450, .negSucc 0), (14598347050, .ofNat 1), (16011404675, .ofNat 1), (17383810790, .ofNat 2), (23866056025, .ofNat 1), (25911717970, .ofNat 2), (27330504425, .ofNat 1), (32324911325, .negSucc 0), (55732941775, .negSucc 0), (60510051070, .negSucc 1), (76470780575, .ofNat 1), (83025418910, .ofNat 2), (92024159675, .negSucc 0), (99911944790, .negSucc 1), (107577538775, .ofNat 1), (116798470670, .ofNat 2), (133986541655, .ofNat 1), (183841999015, .negSucc 0), (186971886850, .ofNat 1), (221233592035, .ofNat 1), (258625185055, .negSucc 0), (278693944550, .ofNat 1), (312145403885, .negSucc 0), (319149761350, .ofNat 1), (338900724218, .ofNat 1), (377471545150, .negSucc 0), (414009178025, .negSucc 0), (493634627150, .ofNat 1), (617108020075, .negSucc 0), (677312627950, .negSucc 0), (706688757275, .negSucc 0), (708530481715, .ofNat 4), (815071128550, .ofNat 1), (835829849975, .ofNat 1), (952829629150, .negSucc 0), (955230852590, .negSucc 0), (1056111472745, .ofNat 4), (1441094637325, .ofNat 1), (1977315897725, .negSucc 0), (2115154030735, .ofNat 1), (2379481843025, .ofNat 1), (2610375458950, .ofNat 2), (2764716434410, .ofNat 1), (2781647788325, .negSucc 0), (3266557710437, .negSucc 0), (3296050594130, .ofNat 1), (3890937004850, .ofNat 2), (3898374560570, .negSucc 1), (4672886062670, .ofNat 1), (5780117087675, .negSucc 1), (7034023494155, .negSucc 0), (7298397744145, .negSucc 0), (8615646225025, .negSucc 1), (8632115098405, .ofNat 2), (9870950096770, .negSucc 0), (10347104853055, .negSucc 0), (11084579488325, .ofNat 1), (12034686301610, .ofNat 2), (12218262952070, .negSucc 0), (12763981073450, .negSucc 0), (13451449721990, .ofNat 1), (15909582666110, .negSucc 0), (17513369379850, .ofNat 1), (19070426904410, .ofNat 1), (20119591980775, .ofNat 1), (21075410609650, .negSucc 0), (21857103785705, .ofNat 1), (24637451839450, .ofNat 1), (26648233953565, .negSucc 0), (27054725108155, .ofNat 1), (27605951787575, .negSucc 0), (29785352955835, .negSucc 0), (33220721642675, .ofNat 1), (35228361617815, .ofNat 1), (36544034374085, .negSucc 0), (38835491497775, .negSucc 0), (42227373859765, .negSucc 0), (62301350948230, .ofNat 1), (67496851152850, .negSucc 1), (96727538546695, .ofNat 3), (98177704039450, .negSucc 0), (100608513982550, .negSucc 1), (112684490802485, .ofNat 2), (117768001665755, .ofNat 3), (126096205837595, .ofNat 1), (134635916115050, .negSucc 0), (149139167310455, .negSucc 0), (149457313267025, .ofNat 2), (178769465451605, .ofNat 1), (222775995247075, .ofNat 2), (253944863942525, .ofNat 1), (275711566566170, .ofNat 2), (286615555340975, .negSucc 0), (298122385683325, .ofNat 1), (356364615698350, .ofNat 1), (415153387167050, .ofNat 1), (433882111400150, .ofNat 1), (464564968875350, .ofNat 1), (520235164074325, .negSucc 0), (549460090091150, .negSucc 0), (610504183110805, .negSucc 0), (658624346400650, .ofNat 1), (713811039078725, .ofNat 1), (789093077617775, .negSucc 0), (856729627127870, .negSucc 1), (858992945332025, .negSucc 0), (919268214441325, .negSucc 0), (960738960957475, .negSucc 0), (1004174851585325, .ofNat 1), (1028679573938275, .negSucc 0), (1043088014753830, .negSucc 1), (1216661628058975, .ofNat 1), (1458382481315725, .negSucc 0), (2249225937776650, .negSucc 0), (2538594918734350, .ofNat 1), (2539282481389955, .ofNat 2), (3282090907176025, .ofNat 1), (3481300116689150, .ofNat 1), (3492092631784225, .negSucc 0), (3563412984933970, .ofNat 2), (3791414857365730, .negSucc 1), (4001533195285325, .negSucc 0), (4062572431563275, .ofNat 1), (4182053489809475, .negSucc 0), (4410792925697270, .ofNat 2), (4540515217507430, .negSucc 1), (6566288624799575, .negSucc 0), (7708593115525975, .negSucc 0), (7890414466639505, .negSucc 0), (8395275755595545, .ofNat 1), (9214570777343050, .negSucc 0), (9355251247226150, .ofNat 1), (9766755764043955, .negSucc 0), (10053997981623595, .ofNat 1), (10734680439605150, .negSucc 0), (11218951737632450, .negSucc 0), (12012322766634050, .negSucc 0), (14207468043785450, .ofNat 1), (17030143814073950, .negSucc 0), (20403692435545325, .ofNat 1), (20715199190286475, .negSucc 0), (23769649544839975, .ofNat 1), (24841964561900425, .ofNat 1), (26598714697546825, .ofNat 1), (29069948034987650, .negSucc 0), (30929963310088850, .ofNat 1), (31459393525524925, .negSucc 0), (34918641415356895, .negSucc 3), (35982784393846150, .negSucc 0), (37041045195455350, .ofNat 1), (37709604159735175, .ofNat 1), (42514248601337555, .negSucc 3), (58158556391081950, .ofNat 1), (84865493456980075, .negSucc 0), (90295538050420675, .ofNat 1), (91674095883251525, .negSucc 0), (103468215478091975, .ofNat 1), (105046515730421825, .negSucc 0), (108135954522216425, .ofNat 1), (128647626267104350, .negSucc 1), (156631442215454150, .negSucc 1), (241900067963990450, .negSucc 0), (284862601020016775, .ofNat 2), (346826764905648475, .ofNat 2), (535635864777407425, .ofNat 1), (751665799190394950, .ofNat 1), (799760479875154550, .negSucc 0), (930411996469450450, .ofNat 1), (957775597196774050, .negSucc 0), (1184834817490545025, .negSucc 0), (1260645440074105225, .ofNat 1), (1466588647794342275, .negSucc 0), (1509721309821220475, .ofNat 1), (2370430193552646575, .ofNat 1), (3326460050620841050, .ofNat 2), (4050041577285314450, .ofNat 2), (7365732969231862325, .negSucc 1), (8967949206846053425, .negSucc 1), (30636443137969807075, .ofNat 1), (32596689236201863675, .negSucc 0), (37921792178682278825, .ofNat 1), (39037079582520129425, .negSucc 0)]) .nil

def upr167 : Tr := .node (.node (.node (.node (.node (.leaf [(2, .negSucc 0)]) (.leaf [(1108189, .negSucc 0)])) .nil) (.node (.node (.leaf [(19, .negSucc 3)]) .nil) .nil)) (.node .nil (.node (.node (.leaf [(3, .ofNat 1)]) .nil) .nil))) (.node (.node .nil (.node (.node (.leaf [(361, .ofNat 2)]) .nil) .nil)) (.node (.node .nil upr166) .nil))

def upr168 : Tr := .node (.node (.node .nil (.node (.node .nil (.leaf [(4897714909, .ofNat 1), (5071156253, .negSucc 0)])) .nil)) (.node (.node (.node (.leaf [(3439, .negSucc 0)]) (.leaf [(2019055, .negSucc 0), (728878855, .ofNat 1), (1376995510, .ofNat 1)])) .nil) .nil)) (.node .nil (.node (.node (.node (.leaf [(199, .ofNat 1)]) (.leaf [(137, .ofNat 1)])) (.node (.leaf [(46, .ofNat 1)]) .nil)) .nil))

def upr169 : Tr := .node (.node (.node (.node (.node (.leaf [(2, .ofNat 1)]) .nil) .nil) (.node (.node (.leaf [(133, .ofNat 1)]) .nil) .nil)) (.node (.node (.node (.leaf [(437, .ofNat 1)]) .nil) .nil) (.node .nil (.node (.leaf [(7, .negSucc 0), (62, .ofNat 1), (114, .negSucc 0), (2527, .ofNat 2), (2641, .negSucc 0), (9310, .ofNat 1), (9730, .negSucc 0), (20615, .negSucc 0), (21545, .ofNat 1), (65341, .negSucc 0), (240730, .negSucc 0), (533045, .ofNat 1)]) .nil)))) (.node .nil (.node (.node (.node (.leaf [(1501, .ofNat 1)]) .nil) .nil) .nil))

def upr170 : Tr := .node (.node (.node (.node (.node (.leaf [(703, .ofNat 1)]) (.leaf [(166, .ofNat 1), (1501, .ofNat 1)])) .nil) .nil) .nil) (.node (.node (.node (.node (.leaf [(7, .ofNat 1), (2527, .negSucc 0)]) .nil) .nil) .nil) (.node (.node (.node (.leaf [(197, .ofNat 1)]) (.leaf [(23, .ofNat 1)])) .nil) .nil))

def upr171 : Tr := .node (.node .nil (.node .nil (.node .nil (.node (.leaf [(44500655202595, .negSucc 0)]) .nil)))) (.node (.node (.node (.node .nil (.leaf [(107870, .ofNat 1), (238855, .negSucc 0), (4038110, .ofNat 1), (84396499, .ofNat 1), (688497755, .negSucc 0)])) .nil) .nil) (.node (.node (.node (.leaf [(53, .negSucc 0), (79, .negSucc 0), (107, .ofNat 1), (1634, .negSucc 0), (2242, .ofNat 1), (2698, .negSucc 0), (3154, .ofNat 1), (3507, .ofNat 1), (3633, .ofNat 1), (19133, .ofNat 2), (28519, .ofNat 2), (137274, .ofNat 1), (324982, .ofNat 1), (986827, .negSucc 0), (1323141, .negSucc 0), (2612009, .ofNat 1), (3042907, .ofNat 1), (3180181, .ofNat 1), (4027321, .negSucc 0), (4827451, .ofNat 1), (7445254, .ofNat 1), (68570221, .ofNat 1), (96225614, .ofNat 1), (102382526, .negSucc 0), (119108074, .ofNat 1), (122611066, .negSucc 0), (942935249, .negSucc 1), (1148045341, .negSucc 1)]) .nil) .nil) .nil))

def upr172 : Tr := .node (.node .nil (.node (.node (.node .nil (.leaf [(4897714909, .ofNat 1), (5071156253, .negSucc 0)])) .nil) .nil)) (.node .nil (.node (.node (.node (.leaf [(47561, .negSucc 0)]) .nil) .nil) (.node .nil (.node (.leaf [(1, .negSucc 0)]) .nil))))

def upr173 : Tr := .node (.node (.node (.node upr156 upr157) (.node upr158 upr159)) (.node (.node upr160 upr161) (.node upr162 upr163))) (.node (.node (.node upr164 upr165) (.node upr167 upr168)) (.node (.node upr169 upr170) (.node upr171 upr172)))

def upr174 : Tr := .node .nil (.leaf [(554855, .negSucc 1), (594965, .negSucc 1), (797090, .ofNat 1), (821870, .ofNat 1), (824110, .ofNat 1), (849730, .ofNat 1), (1121330, .ofNat 1), (1156190, .ofNat 1), (1202390, .ofNat 1), (1239770, .ofNat 1), (1364510, .ofNat 1), (1406930, .ofNat 1), (1764985, .negSucc 0), (1819855, .negSucc 0), (1824815, .negSucc 0), (1881545, .negSucc 0), (2482945, .negSucc 0), (2560135, .negSucc 0), (2662435, .negSucc 0), (2745205, .negSucc 0), (3021415, .negSucc 0), (3115345, .negSucc 0), (4914430, .ofNat 2), (5269690, .ofNat 2), (6802285, .ofNat 3), (7013755, .ofNat 3), (10139255, .ofNat 3), (10454465, .ofNat 3), (12400675, .ofNat 2), (13732915, .negSucc 0), (14159845, .negSucc 0), (20068370, .negSucc 3), (25035325, .negSucc 1), (25061050, .ofNat 1), (25840150, .ofNat 1), (30007061, .negSucc 0), (30939923, .negSucc 0), (31085159, .negSucc 0), (32051537, .negSucc 0), (37355150, .ofNat 1), (38516450, .ofNat 1), (44437105, .ofNat 2), (50594950, .negSucc 0), (52167850, .negSucc 0), (55492325, .negSucc 0), (57217475, .negSucc 0), (59392214, .ofNat 2), (60248810, .negSucc 1), (61526066, .ofNat 2), (62121830, .negSucc 1), (82714975, .negSucc 0), (85286425, .negSucc 0), (89804830, .negSucc 1), (92596690, .negSucc 1), (109834550, .negSucc 3), (112031675, .ofNat 1), (115514525, .ofNat 1), (163715650, .negSucc 1), (193159225, .ofNat 1), (199164175, .ofNat 1), (200302655, .ofNat 4), (209715730, .ofNat 2), (214782365, .ofNat 4), (216235390, .ofNat 2), (221741450, .ofNat 4), (243205075, .ofNat 2), (265032425, .negSucc 0), (273271775, .negSucc 0), (287749490, .negSucc 1), (296695070, .negSucc 1), (318937325, .ofNat 1), (328852475, .ofNat 1), (346274810, .ofNat 2), (352132375, .ofNat 2), (357039830, .ofNat 2), (362513225, .ofNat 2), (372842225, .negSucc 0), (382315150, .ofNat 4), (384433175, .negSucc 0), (404800130, .negSucc 1), (417384590, .negSucc 1), (464370545, .negSucc 0), (477944075, .ofNat 2), (478806935, .negSucc 0), (490998925, .negSucc 1), (499536625, .ofNat 2), (524571950, .negSucc 1), (542354050, .ofNat 2), (581195237, .ofNat 2), (581427875, .ofNat 2), (631264550, .ofNat 4), (637159585, .ofNat 1), (648007150, .negSucc 0), (656967655, .ofNat 1), (668152450, .negSucc 0), (728832125, .ofNat 2), (766751365, .negSucc 0), (790588195, .negSucc 0), (791303450, .ofNat 4), (846554975, .negSucc 5), (892614625, .ofNat 2), (896343145, .ofNat 1), (924208735, .ofNat 1), (965897450, .negSucc 0), (969124450, .ofNat 2), (995925350, .negSucc 0), (1081833515, .ofNat 1), (1115465645, .ofNat 1), (1161552175, .ofNat 4), (1174562102, .negSucc 0), (1200926825, .negSucc 1), (1211076986, .negSucc 0), (1308240850, .ofNat 1), (1348911550, .ofNat 1), (1397800075, .negSucc 5), (1434872975, .ofNat 1), (1479480425, .ofNat 1), (1634047975, .ofNat 2), (1710838850, .negSucc 0), (1752171925, .negSucc 3), (1764025550, .negSucc 0), (2138772925, .ofNat 1), (2141245610, .negSucc 1), (2145918425, .negSucc 1), (2205263275, .ofNat 1), (2347430050, .ofNat 1), (2420407150, .ofNat 1), (2455624885, .negSucc 3), (2531965555, .negSucc 3), (2824873450, .negSucc 0), (2896819025, .negSucc 0), (2912693350, .negSucc 0), (2986875575, .negSucc 0), (3118886750, .negSucc 3), (3302316850, .ofNat 1), (3310639010, .ofNat 1), (3404979550, .ofNat 1), (3413560430, .ofNat 1), (3660271055, .negSucc 3), (3774061865, .negSucc 3), (4233218950, .negSucc 1), (4424467250, .negSucc 3), (4476643675, .negSucc 9), (4741329565, .ofNat 2), (4994545675, .negSucc 0), (5149789750, .negSucc 3), (5149816525, .negSucc 0), (6455370250, .negSucc 3), (6672733025, .negSucc 7), (6852981275, .ofNat 1), (6906106375, .ofNat 2), (7066027325, .ofNat 1), (7330700665, .negSucc 0), (7498058350, .ofNat 2), (7558598095, .negSucc 0), (7906015250, .negSucc 3), (8246807975, .negSucc 0), (8503185425, .negSucc 0), (9037752325, .ofNat 2), (9047039050, .negSucc 1), (9105137125, .negSucc 1), (9328294150, .negSucc 1), (9581953990, .negSucc 0), (9640634675, .ofNat 1), (9797034625, .ofNat 2), (9879838570, .negSucc 0), (9940343525, .ofNat 1), (10288033550, .negSucc 1), (11321235443, .ofNat 1), (11403105875, .ofNat 2), (11673190949, .ofNat 1), (12380514950, .ofNat 2), (12916589875, .negSucc 1), (13485209150, .negSucc 1), (13510986230, .ofNat 2), (13904438450, .negSucc 1), (13931016890, .ofNat 2), (14294034125, .ofNat 2), (14472996350, .negSucc 1), (15034063625, .negSucc 1), (16195288130, .negSucc 0), (16492897750, .negSucc 3), (16698768590, .negSucc 0), (17506176625, .ofNat 2), (18845516375, .negSucc 1), (19081463450, .negSucc 1), (20032729325, .ofNat 2), (20460846350, .negSucc 1), (20638794365, .ofNat 6), (20655508475, .ofNat 2), (20953617755, .negSucc 1), (23080463875, .negSucc 1), (24378518045, .ofNat 1), (24583753250, .negSucc 3), (25136399435, .ofNat 1), (29860105975, .ofNat 2), (29917183795, .negSucc 1), (30788399425, .ofNat 2), (30847251685, .negSucc 1), (34210738030, .ofNat 1), (35274284290, .ofNat 1), (35860995145, .ofNat 1), (36519987875, .ofNat 8), (36975844735, .ofNat 1), (38416934675, .negSucc 0), (39611243525, .negSucc 0), (39650272550, .ofNat 12), (41709814790, .negSucc 1), (42251811925, .ofNat 2), (42346054730, .ofNat 1), (43006492970, .negSucc 1), (43662512390, .ofNat 1), (44237404550, .ofNat 1), (45306159775, .ofNat 2), (45612660650, .ofNat 1), (54435453625, .ofNat 8), (55139430290, .ofNat 1), (56853609470, .ofNat 1), (59101349650, .ofNat 12), (60697834150, .negSucc 0), (62584813450, .negSucc 0), (66094283990, .negSucc 0), (68149028570, .negSucc 0), (69730480225, .negSucc 0), (71898267175, .negSucc 0), (73043156350, .ofNat 1), (75313928050, .ofNat 1), (75752348495, .negSucc 0), (76037663450, .ofNat 2), (78107343785, .negSucc 0), (80645500250, .ofNat 4), (85388478550, .negSucc 0), (87797032075, .negSucc 3), (88043042650, .negSucc 0), (92357447035, .ofNat 1), (93766264045, .negSucc 0), (95228663005, .ofNat 1), (95676705425, .ofNat 1), (96681277435, .negSucc 0), (98651110775, .ofNat 1), (114404081750, .ofNat 4), (115136374325, .negSucc 0), (118715743475, .negSucc 0), (122094452785, .negSucc 0), (125890135255, .negSucc 0), (126654311315, .ofNat 1), (127119787375, .negSucc 3), (130591751045, .ofNat 1), (130867274225, .negSucc 3), (133158849250, .ofNat 4), (134596043225, .ofNat 1), (138015769150, .negSucc 3), (138780376175, .ofNat 1), (146351628835, .ofNat 1), (150901420405, .ofNat 1), (166917430750, .ofNat 4), (168369111925, .negSucc 1), (172537811075, .negSucc 1), (174420173375, .ofNat 2), (178572179125, .negSucc 1), (180332721625, .negSucc 1), (182800750090, .negSucc 3), (185589185830, .ofNat 2), (189370473950, .ofNat 4), (204426965750, .ofNat 4), (209895462875, .negSucc 3), (215924016970, .negSucc 0), (222636680710, .negSucc 0), (227886502550, .negSucc 3), (230892847325, .ofNat 2), (233930581150, .ofNat 2), (241203034450, .ofNat 2), (245370752375, .ofNat 2), (253323323875, .negSucc 1), (263108397125, .negSucc 1), (266402531150, .ofNat 4), (294851737625, .negSucc 1), (305606345975, .ofNat 6), (322233879625, .negSucc 1), (323462749750, .negSucc 3), (335238295105, .negSucc 2), (340264278550, .ofNat 1), (345660211015, .negSucc 2), (348688979450, .ofNat 2), (350842442650, .ofNat 1), (359529051350, .ofNat 2), (369602882375, .negSucc 1), (390541898915, .negSucc 1), (402683097845, .negSucc 1), (408160330445, .negSucc 2), (419320335175, .negSucc 5), (420849252635, .negSucc 2), (426459213250, .ofNat 4), (452659709875, .negSucc 1), (466621146950, .ofNat 1), (481127503850, .ofNat 1), (482142589250, .negSucc 3), (504605827075, .ofNat 6), (516886513745, .ofNat 1), (517989143975, .negSucc 1), (532955524535, .ofNat 1), (534092433425, .negSucc 1), (589891318975, .negSucc 5), (611144805775, .negSucc 1), (619579198595, .negSucc 0), (635665619750, .ofNat 4), (638840728085, .negSucc 0), (711964165325, .ofNat 2), (772097025925, .negSucc 1), (772989665210, .ofNat 6), (796100042275, .negSucc 1), (807861379430, .ofNat 4), (880122088475, .negSucc 0), (907483396925, .negSucc 0), (942292430975, .ofNat 2), (944302543625, .negSucc 7), (955561124630, .negSucc 1), (985267688090, .negSucc 1), (993352168025, .ofNat 1), (1024233582575, .ofNat 1), (1033232539675, .negSucc 0), (1065353758525, .negSucc 0), (1125918116750, .ofNat 4), (1235088455650, .negSucc 0), (1273484987950, .negSucc 0), (1407545300875, .negSucc 7), (1438838574950, .negSucc 0), (1483569307850, .negSucc 0), (1503748585850, .negSucc 0), (1544864392750, .negSucc 3), (1550497246550, .negSucc 0), (1616068366675, .ofNat 8), (1711619972965, .negSucc 3), (1788835911595, .negSucc 1), (1803030988675, .ofNat 1), (1859074099750, .ofNat 4), (1859083765525, .ofNat 1), (1904318734850, .ofNat 1), (1963520353550, .ofNat 1), (1966116726350, .negSucc 1), (2045050933450, .negSucc 3), (2115885347395, .ofNat 1), (2173283806750, .negSucc 3), (2181664166485, .ofNat 1), (2282660205350, .negSucc 0), (2353623735050, .negSucc 0), (2408856622025, .ofNat 8), (2473926240275, .negSucc 0), (2493104401375, .negSucc 1), (2550835864325, .negSucc 0), (2734838723225, .ofNat 1), (2819859616175, .ofNat 1), (2969253470930, .ofNat 2), (2977097678975, .ofNat 1), (3061561868990, .ofNat 2), (3069649938425, .ofNat 1), (3185999701675, .ofNat 1), (3285046324525, .ofNat 1), (3286954502125, .ofNat 4), (3329729011525, .ofNat 1), (3420771155375, .ofNat 2), (3433243903075, .ofNat 1), (3480269117675, .negSucc 0), (3588464012525, .negSucc 0), (3615134355370, .ofNat 2), (3727521951910, .ofNat 2), (4116521220875, .negSucc 1), (4216705770025, .negSucc 0), (4347795068575, .negSucc 0), (4353544179775, .ofNat 2), (4510007340125, .negSucc 1), (4528327066925, .ofNat 2), (4662888944875, .ofNat 2), (4812271286375, .ofNat 2), (5054461883275, .ofNat 1), (5211595413325, .ofNat 1), (5412996851150, .ofNat 4), (5427296968625, .ofNat 4), (5953936087750, .ofNat 4), (6305968321450, .negSucc 1), (6344586597125, .negSucc 1), (6590448095350, .ofNat 2), (6803231411375, .ofNat 2), (7450604765765, .negSucc 5), (7564256009555, .ofNat 4), (7795367069350, .ofNat 1), (8037710087050, .ofNat 1), (8332047458875, .ofNat 2), (8346018674350, .negSucc 3), (8363822529250, .ofNat 4), (8798262059650, .negSucc 0), (8800645014245, .negSucc 1), (8874734923250, .ofNat 4), (9071783159950, .negSucc 0), (9074240196035, .negSucc 1), (11375070394975, .negSucc 0), (11728699526425, .negSucc 0), (11985921598975, .negSucc 1), (12065489656850, .negSucc 0), (12102894354775, .ofNat 1), (12350076428830, .negSucc 1), (12440582599550, .negSucc 0), (12466829807750, .ofNat 4), (12479150137825, .ofNat 1), (12734016628690, .negSucc 1), (13140285299470, .ofNat 2), (13183715622875, .negSucc 7), (13548791578210, .ofNat 2), (13868513417675, .ofNat 1), (14080063197725, .negSucc 0), (14299658912525, .ofNat 1), (14494160639525, .ofNat 1), (14517785369675, .negSucc 0), (14593135068275, .negSucc 1), (14944756307075, .ofNat 1), (15286925757530, .negSucc 1), (15736517265770, .ofNat 2), (15762166972790, .negSucc 1), (16225735419110, .ofNat 2), (18409359131975, .negSucc 1), (18480469921775, .ofNat 2), (19239856536425, .negSucc 1), (19651198758625, .negSucc 7), (22063771137625, .ofNat 2), (22514388035650, .negSucc 1), (22757442573425, .ofNat 1), (23464927834775, .ofNat 1), (23954951520850, .ofNat 4), (26423088048875, .ofNat 2), (26716441383025, .ofNat 1), (27346597806695, .ofNat 1), (27449596505450, .negSucc 1), (27547004327575, .ofNat 1), (28196751106385, .ofNat 1), (28687924167350, .ofNat 4), (29096346020255, .negSucc 0), (29113025590250, .negSucc 3), (30000895637465, .negSucc 0), (31935858638950, .ofNat 1), (32423428999850, .negSucc 0), (32543410778375, .ofNat 2), (32928683259850, .ofNat 1), (33431411248550, .negSucc 0), (33849621320245, .ofNat 1), (34845145374205, .negSucc 0), (34901941154035, .ofNat 1), (35332845987950, .ofNat 2), (35928414142315, .negSucc 0), (37204254580850, .ofNat 1), (38360863531550, .ofNat 1), (38882642005550, .ofNat 1), (39945779298250, .ofNat 4), (40091428803650, .ofNat 1), (45890243242375, .ofNat 2), (48070344579250, .negSucc 3), (49240241572550, .negSucc 0), (49853287793225, .ofNat 4), (50771026284650, .negSucc 0), (53043106939025, .negSucc 5), (56194909860250, .ofNat 4), (59023071024050, .ofNat 1), (60781249404925, .ofNat 2), (60857985149150, .ofNat 1), (61708404288475, .ofNat 2), (62965682588375, .negSucc 1), (63523260656275, .negSucc 5), (64464556664125, .ofNat 2), (70715115557675, .negSucc 0), (71794735642525, .ofNat 1), (72913512932525, .negSucc 0), (74026696336075, .ofNat 1), (75772262097875, .ofNat 2), (78237016116175, .negSucc 1), (82380849429025, .negSucc 0), (83352317884325, .negSucc 1), (84941912105575, .negSucc 0), (86097278726575, .negSucc 0), (88451368446125, .negSucc 1), (88578841607375, .negSucc 1), (88773878065225, .negSucc 0), (100750623498350, .ofNat 1), (103882767234050, .ofNat 1), (106441477282625, .ofNat 2), (107197064285150, .negSucc 0), (109031963482075, .ofNat 1), (110529615506450, .negSucc 0), (112421558201725, .ofNat 1), (121021024532905, .ofNat 4), (124431586119125, .negSucc 1), (124709131179850, .ofNat 1), (124783336176415, .ofNat 4), (128376851378650, .negSucc 0), (128586098988550, .ofNat 1), (130693942981825, .negSucc 0), (132367841576950, .negSucc 0), (134756967115975, .negSucc 0), (147345879290645, .ofNat 4), (151926580201235, .ofNat 4), (153951775983250, .negSucc 3), (163054323740350, .ofNat 2), (170410157894050, .ofNat 2), (195421972933250, .negSucc 3), (201565919936050, .negSucc 0), (207832217965150, .negSucc 0), (220623274884775, .ofNat 10), (229475288729750, .negSucc 3), (234033065575750, .negSucc 3), (257019063682325, .negSucc 1), (268613908660475, .ofNat 8), (288241638322750, .negSucc 3), (294126820212925, .ofNat 1), (303270659183275, .ofNat 1), (312946268316325, .negSucc 0), (317724073939475, .ofNat 1), (322675167849475, .negSucc 0), (327601506289925, .ofNat 1), (340167567581975, .negSucc 1), (340893218248625, .ofNat 8), (358600132657025, .negSucc 0), (364070205541175, .ofNat 1), (369748323309575, .negSucc 0), (374777582250575, .negSucc 0), (375388450273025, .ofNat 1), (386428698797225, .negSucc 0), (432720082923625, .ofNat 2), (441557691882850, .negSucc 1), (445866932489650, .ofNat 2), (459728080649950, .ofNat 2), (469810375745650, .ofNat 2), (508123853615875, .ofNat 8), (518216073774875, .ofNat 2), (542853239491850, .ofNat 2), (546560152269350, .negSucc 1), (559729506004550, .ofNat 2), (562634594384150, .ofNat 2), (570506082272875, .negSucc 1), (638249342000375, .ofNat 2), (683225562406625, .negSucc 1), (709768138212350, .ofNat 2), (720594914594450, .negSucc 1), (812822591680750, .ofNat 4), (838377235567550, .ofNat 1), (841479621555125, .negSucc 1), (864440776569650, .ofNat 1), (987276779084225, .negSucc 1), (989630189801750, .ofNat 4), (1017969321439175, .negSucc 1), (1186590575267125, .negSucc 1), (1202032173160525, .negSucc 1), (1239401049010075, .negSucc 1), (1571629448898775, .negSucc 1), (1595603025173425, .ofNat 2), (1628112649785125, .ofNat 2), (1799821453007375, .negSucc 7), (1856406735899575, .negSucc 0), (1914118862404225, .negSucc 0), (1954091863265150, .negSucc 11), (1959254205673625, .negSucc 1), (2191323991703875, .negSucc 7), (2290395761562125, .ofNat 2), (2379151762421350, .negSucc 11), (2605123264743050, .negSucc 0), (2686111552766150, .negSucc 0), (2771809805087450, .ofNat 1), (2857980058095350, .ofNat 1), (3224621820507550, .negSucc 0), (3319458585647950, .ofNat 1), (3324869130989650, .negSucc 0), (3422654189346850, .ofNat 1), (4106400412585975, .ofNat 1), (4234060529039425, .ofNat 1), (4326917697229975, .ofNat 4), (4369144862073775, .negSucc 0), (4504973199754825, .negSucc 0), (5053053871559750, .ofNat 4), (5082902814378725, .ofNat 1), (5232391990868525, .negSucc 0), (5240920518452675, .ofNat 1), (5268121759647275, .ofNat 4), (5395057026854075, .negSucc 0), (6051426409887250, .ofNat 4), (6645778646642975, .ofNat 2), (6945588209649425, .ofNat 2), (7453105219488250, .ofNat 4), (7486034021853625, .ofNat 2), (7965021380682625, .negSucc 3), (8127694080869650, .ofNat 4), (8215436769006425, .negSucc 0), (8470838948353775, .negSucc 0), (8647737499026850, .negSucc 3), (9266213611704875, .ofNat 2), (9538734785643875, .negSucc 3), (10060460492708150, .ofNat 4), (10356340624413350, .negSucc 3), (11188905001310875, .negSucc 1), (11528844968660950, .negSucc 1), (11748171290993375, .negSucc 1), (11887254656805850, .negSucc 1), (13399587050464625, .negSucc 1), (14036633764003550, .negSucc 1), (14473005798117650, .negSucc 1), (15941275726636750, .ofNat 4), (16503304414581125, .negSucc 1), (17997036893354225, .negSucc 5), (19148561604988025, .ofNat 6), (19408869640805750, .ofNat 4), (21017269870602250, .negSucc 3), (22276733948139475, .negSucc 5), (22931897096915275, .ofNat 6), (25528156716320675, .ofNat 2), (25589009193445250, .negSucc 3), (26321778168641525, .ofNat 2), (31081117620293575, .ofNat 2), (32047369981546225, .ofNat 2), (46538240427762125, .ofNat 8), (56661377499771625, .ofNat 8), (66304872764989250, .negSucc 3), (70547332228903250, .ofNat 4), (79645002233403775, .negSucc 7), (82072177703671750, .negSucc 3), (84485936672845750, .ofNat 4), (96969621026431475, .negSucc 7), (106179782096865925, .negSucc 0), (109480707965162275, .negSucc 0), (112973602862193325, .ofNat 1), (116485735593660475, .ofNat 1), (131429344200364175, .negSucc 0), (135294707192457575, .ofNat 1), (135515230548562025, .negSucc 0), (139500760265798225, .ofNat 1), (146817932551047625, .ofNat 2), (156211949935428625, .negSucc 1), (181731250629558875, .ofNat 2), (187076002632729875, .negSucc 1), (193567451136500875, .negSucc 1), (205952695700507875, .ofNat 4), (239597809102654625, .negSucc 1), (246644428028791625, .ofNat 4), (293428955596750750, .negSucc 3), (303774143381400125, .ofNat 2), (357256498518431750, .negSucc 3), (412195843788750250, .negSucc 3), (501857914997977250, .negSucc 3), (649735544535662375, .ofNat 8), (791067961005098875, .ofNat 8), (1714454567209007750, .ofNat 4), (1824152447633069750, .negSucc 3), (2122152023480655250, .ofNat 4), (2184564933969297250, .negSucc 3), (2702458281889158625, .negSucc 1), (2875372718426427625, .ofNat 2), (3345103113825459875, .negSucc 1), (3443483257617438875, .ofNat 2), (3796292255962802875, .negSucc 1), (4039194705473225875, .ofNat 2), (4699050909135736625, .negSucc 1), (4837250925217729625, .ofNat 2), (7587234423287412250, .ofNat 4), (9237632318833735250, .ofNat 4), (16800304794422127125, .negSucc 7), (20454757277417556625, .negSucc 7), (69877849860276815875, .ofNat 2), (74348923147883342875, .negSucc 1), (86494809086058319625, .ofNat 2), (89038638518393776625, .negSucc 1)])

def upr175 : Tr := .node (.node (.node (.node (.node (.leaf [(1, .ofNat 1)]) (.leaf [(4892249, .negSucc 0)])) (.node (.leaf [(37, .ofNat 1)]) .nil)) .nil) (.node (.node (.node .nil (.leaf [(1865990, .ofNat 1), (2049530, .negSucc 0), (4131835, .negSucc 0), (4538245, .ofNat 1)])) .nil) (.node (.node (.leaf [(49, .ofNat 1), (1267, .negSucc 0)]) .nil) .nil))) (.node (.node .nil (.node (.node (.leaf [(14, .negSucc 0)]) .nil) .nil)) (.node (.node upr174 .nil) .nil))

def upr176 : Tr := .node (.node (.node (.node (.node .nil (.leaf [(2, .ofNat 1)])) .nil) .nil) .nil) (.node .nil (.node (.node (.node (.leaf [(233, .ofNat 1)]) .nil) (.node (.leaf [(106, .ofNat 1)]) .nil)) .nil))

def upr177 : Tr := .node (.node .nil (.node .nil (.node .nil (.node (.leaf [(5215, .ofNat 1), (46190, .negSucc 0), (1882615, .negSucc 0)]) .nil)))) (.node (.node (.node (.node (.leaf [(91586, .negSucc 0)]) .nil) .nil) (.node (.node (.leaf [(7, .ofNat 1), (62, .negSucc 0), (2527, .negSucc 0)]) .nil) (.node (.leaf [(18192310, .ofNat 1)]) .nil))) (.node (.node (.node (.leaf [(97, .ofNat 1)]) .nil) (.node (.leaf [(107, .ofNat 1), (4027321, .negSucc 0)]) .nil)) .nil))

def upr178 : Tr := .node .nil (.node (.node (.node (.node (.leaf [(1, .ofNat 1)]) .nil) .nil) .nil) (.node (.node (.node (.leaf [(83, .ofNat 1), (89, .ofNat 1), (2765, .negSucc 0), (24490, .ofNat 1), (72478, .ofNat 1), (75082, .ofNat 1), (110390, .ofNat 1), (118370, .ofNat 1), (244435, .negSucc 0), (262105, .negSucc 0), (320306, .ofNat 1), (709249, .ofNat 1), (998165, .ofNat 1), (3134423, .ofNat 1), (25186105, .ofNat 1), (111306335, .ofNat 1), (223076930, .negSucc 0), (943301170, .ofNat 1), (985856110, .negSucc 0), (2088738305, .negSucc 0), (4168782590, .ofNat 1), (9092183905, .negSucc 0), (9230875735, .negSucc 0), (40181586935, .negSucc 0)]) (.leaf [(97, .ofNat 1)])) .nil) .nil))

def upr179 : Tr := .node (.node .nil (.node (.node (.node .nil (.leaf [(35, .negSucc 0), (310, .ofNat 1), (12635, .ofNat 1)])) .nil) (.node (.node (.leaf [(70, .ofNat 1), (155, .negSucc 0)]) .nil) .nil))) (.node (.node .nil (.node (.node (.leaf [(133, .negSucc 0)]) .nil) (.node (.leaf [(79, .ofNat 1), (1645, .negSucc 0), (2345, .negSucc 0), (2485, .negSucc 0), (3115, .negSucc 0), (3395, .negSucc 0), (3507, .negSucc 0), (3605, .negSucc 0), (3633, .negSucc 0), (3686, .negSucc 0), (14570, .ofNat 1), (20770, .ofNat 1), (22010, .ofNat 1), (27590, .ofNat 1), (30070, .ofNat 2), (31930, .ofNat 1), (105070, .ofNat 1), (137274, .negSucc 0), (232655, .negSucc 0), (286405, .negSucc 0), (296695, .negSucc 0), (324982, .negSucc 1), (593845, .ofNat 1), (628463, .ofNat 1), (688541, .ofNat 1), (713279, .ofNat 1), (719603, .ofNat 1), (846545, .ofNat 1), (897085, .ofNat 1), (1124515, .ofNat 1), (1225595, .ofNat 1), (1266027, .ofNat 1), (1301405, .ofNat 1), (1311513, .ofNat 1), (2536730, .ofNat 2), (2627870, .ofNat 2), (3042907, .negSucc 0), (3180181, .negSucc 0), (5126935, .negSucc 0), (5617045, .negSucc 0), (5818855, .negSucc 0), (7405615, .ofNat 1), (7671685, .ofNat 1), (8576785, .negSucc 0), (11210710, .negSucc 0), (17803703, .negSucc 0), (18443357, .negSucc 0), (24823715, .ofNat 2), (26951462, .ofNat 2), (35002555, .negSucc 1), (41956705, .ofNat 1), (65592590, .negSucc 1), (67949210, .negSucc 1), (75965810, .ofNat 1), (78680881, .negSucc 0), (88628855, .negSucc 0), (94299695, .negSucc 0), (103392205, .ofNat 1), (107106895, .ofNat 1), (108056515, .ofNat 2), (112931245, .negSucc 0), (117318502, .ofNat 2), (139089265, .negSucc 0), (142848265, .negSucc 0), (145240735, .ofNat 1), (150458965, .ofNat 1), (171228715, .ofNat 1), (219867190, .negSucc 0), (252627130, .negSucc 0), (259776683, .negSucc 1), (310022630, .ofNat 2), (371616530, .negSucc 0), (559388645, .ofNat 1), (784998430, .ofNat 1), (835225870, .ofNat 1), (957071990, .negSucc 2), (1000248170, .ofNat 1), (1098489427, .ofNat 2), (1231933490, .ofNat 1), (1265227490, .ofNat 1), (1516597190, .negSucc 0), (2119230835, .ofNat 1), (2475546955, .ofNat 1), (2673427015, .negSucc 0), (2769478285, .negSucc 0), (2794032745, .negSucc 0), (3096219385, .ofNat 1), (4047066310, .ofNat 2), (4229640730, .negSucc 0), (8961361115, .negSucc 2), (9365633045, .ofNat 1), (12635922355, .ofNat 2), (15146370505, .negSucc 0), (21926273030, .negSucc 0), (24747147170, .ofNat 1), (31995016655, .ofNat 1), (34042189895, .ofNat 1), (39008401915, .negSucc 1), (40768179445, .ofNat 1), (50211224665, .ofNat 1), (51568223665, .ofNat 1), (61813566115, .negSucc 0), (91198393930, .ofNat 1), (104645571730, .negSucc 0), (201939300845, .negSucc 0), (231715194545, .ofNat 1), (893672450755, .negSucc 0), (1008645820945, .ofNat 1)]) .nil))) (.node (.node (.node (.leaf [(1501, .ofNat 1)]) (.leaf [(68149028570, .ofNat 1), (150901420405, .negSucc 0)])) .nil) .nil))

def upr180 : Tr := .node (.node (.node (.node (.node .nil (.leaf [(1, .ofNat 1)])) .nil) (.node (.node .nil (.leaf [(1, .ofNat 1)])) .nil)) (.node (.node (.node (.leaf [(1, .ofNat 1)]) (.leaf [(19, .negSucc 1), (6859, .ofNat 2)])) .nil) .nil)) (.node .nil (.node (.node (.node (.leaf [(97, .ofNat 1)]) .nil) .nil) .nil))

def upr181 : Tr := .node .nil (.node .nil (.node (.node (.node (.leaf [(109, .ofNat 1)]) (.leaf [(4619171881, .negSucc 0), (5018605411, .ofNat 1)])) .nil) .nil))

def upr182 : Tr := .node (.node (.node (.node (.node (.leaf [(19, .ofNat 1)]) .nil) .nil) .nil) (.node (.node (.node (.leaf [(37, .negSucc 0), (151, .negSucc 0), (181, .ofNat 1)]) .nil) .nil) .nil)) (.node .nil (.node (.node (.node (.leaf [(13, .ofNat 1)]) (.leaf [(45793, .ofNat 1)])) .nil) .nil))

def upr183 : Tr := .node (.leaf [(122, .ofNat 1)]) (.leaf [(104359535, .ofNat 1), (104866055, .negSucc 0), (210904610, .negSucc 0), (211579970, .ofNat 1), (467003065, .ofNat 1), (468498505, .negSucc 0), (924327310, .negSucc 0), (928813630, .ofNat 1), (3906695855, .ofNat 1), (3925657415, .negSucc 0), (7895207330, .negSucc 0), (7920489410, .ofNat 1), (37673792135, .negSucc 0), (37856645855, .ofNat 1), (40981823615, .ofNat 1), (41113055855, .negSucc 0), (61086114445, .ofNat 1), (61281724765, .negSucc 0), (80473855235, .negSucc 0), (80606325515, .ofNat 1), (82736889185, .negSucc 0), (83001829745, .ofNat 1), (120906195430, .negSucc 0), (121493026390, .ofNat 1), (165009833197, .negSucc 0), (165538228669, .ofNat 1), (180783969079, .negSucc 0), (181362876583, .ofNat 1), (187279201501, .negSucc 0), (187878908077, .ofNat 1), (326599773478, .ofNat 1), (328184959894, .negSucc 0), (329572084345, .ofNat 1), (331171697185, .negSucc 0), (341412997555, .ofNat 1), (343070081515, .negSucc 0), (357821120146, .ofNat 1), (359557842658, .negSucc 0), (370676968774, .ofNat 1), (372476088502, .negSucc 0), (666046201870, .negSucc 0), (668179018990, .ofNat 1), (689976005530, .negSucc 0), (692185450810, .ofNat 1), (792318194609, .negSucc 0), (796163794457, .ofNat 1), (820784716571, .negSucc 0), (824768481683, .ofNat 1), (1206766267045, .ofNat 1), (1212623434285, .negSucc 0), (1263477354470, .ofNat 1), (1267523269190, .negSucc 0), (1294002382735, .ofNat 1), (1300282959655, .negSucc 0), (1346132849765, .ofNat 1), (1350443444405, .negSucc 0), (1410317203655, .negSucc 0), (1417162326815, .ofNat 1), (1474816589855, .ofNat 1), (1479539256335, .negSucc 0), (1527804012245, .ofNat 1), (1532696355365, .negSucc 0), (1733608463110, .negSucc 0), (1739159834470, .ofNat 1), (1867199242615, .negSucc 0), (1876261890895, .ofNat 1), (2086206794590, .ofNat 1), (2092887258430, .negSucc 0), (2303339545850, .ofNat 1), (2314519047050, .negSucc 0), (2438805126070, .negSucc 0), (2446614682390, .ofNat 1), (2664366573110, .negSucc 1), (2677298357030, .ofNat 2), (2919067032770, .negSucc 1), (2933235032210, .ofNat 2), (3023943692630, .negSucc 1), (3038620721990, .ofNat 2), (3267528192950, .ofNat 1), (3283387485350, .negSucc 0), (3773502134290, .ofNat 1), (3785585665330, .negSucc 0), (3803188552450, .ofNat 1), (3821647728850, .negSucc 0), (4767377199550, .ofNat 1), (4790516167150, .negSucc 0), (5100251851525, .negSucc 0), (5125006461325, .ofNat 1), (5680194704485, .negSucc 0), (5698383857845, .ofNat 1), (5838697918550, .ofNat 1), (5867036654150, .negSucc 0), (6463648429705, .ofNat 1), (6495020428465, .negSucc 0), (6517737832585, .negSucc 0), (6538608971545, .ofNat 1), (6695875319395, .ofNat 1), (6728374455835, .negSucc 0), (7076401075378, .negSucc 0), (7099061169106, .ofNat 1), (7235240998675, .negSucc 0), (7270358003275, .ofNat 1), (7620191503645, .negSucc 0), (7657176906085, .ofNat 1), (8011505492585, .ofNat 1), (8050390178705, .negSucc 0), (8317677677015, .ofNat 1), (8355611868785, .negSucc 0), (8358048402095, .negSucc 0), (8382368258945, .ofNat 1), (8421346080425, .negSucc 0), (8462219971025, .ofNat 1), (9134136835495, .ofNat 1), (9178470331135, .negSucc 0), (10556335227575, .negSucc 0), (10607571512975, .ofNat 1), (11242665166390, .ofNat 1), (11297232626470, .negSucc 0), (12928545391075, .negSucc 0), (12991295448475, .ofNat 1), (14794438325015, .negSucc 1), (14841813163655, .ofNat 2), (15399968169670, .ofNat 1), (15449282039590, .negSucc 0), (16190791204910, .negSucc 0), (16242637453070, .ofNat 1), (16538050434590, .ofNat 1), (16618319605070, .negSucc 0), (16809547556690, .negSucc 0), (16863375190130, .ofNat 1), (18459564494770, .negSucc 0), (18518675822290, .ofNat 1), (22052087314645, .negSucc 1), (22122702640165, .ofNat 2), (24894472868435, .negSucc 0), (25015300815755, .ofNat 1), (26970499100825, .negSucc 1), (27101403260225, .ofNat 2), (34099929518555, .negSucc 0), (34209124516235, .ofNat 1), (35851037668015, .ofNat 1), (35965840074655, .negSucc 0), (37221141018385, .ofNat 1), (37340330778145, .negSucc 0), (40201309980475, .negSucc 1), (40396431274675, .ofNat 2), (40874749952705, .ofNat 1), (41005639320785, .negSucc 0), (50310295954010, .ofNat 1), (50471399883770, .negSucc 0), (55685261377999, .negSucc 0), (55955535661927, .ofNat 1), (57728535088610, .ofNat 1), (57913393747970, .negSucc 0), (67493124746570, .ofNat 1), (67820709739610, .negSucc 0), (68207208905377, .ofNat 1), (68425622436529, .negSucc 0), (70959048648610, .negSucc 0), (71303455868530, .ofNat 1), (73670859424990, .negSucc 0), (74028428704270, .ofNat 1), (80902354828670, .negSucc 0), (81295022932910, .ofNat 1), (110169266138365, .negSucc 0), (110703984280645, .ofNat 1), (118975522448545, .negSucc 0), (119552982683785, .ofNat 1), (123250092117355, .negSucc 0), (123848299426915, .ofNat 1), (124342839250735, .ofNat 1), (124946350323655, .negSucc 0), (222645742038790, .ofNat 1), (223358699561830, .negSucc 0), (238881563464450, .ofNat 2), (240041000304850, .negSucc 1), (356068745541350, .ofNat 2), (357796962718550, .negSucc 1), (454274500715255, .ofNat 1), (456479369873615, .negSucc 0), (493001285943035, .negSucc 0), (494579977601195, .ofNat 1), (556427230543865, .negSucc 0), (558209025140105, .ofNat 1), (674058926584015, .ofNat 1), (677330542613095, .negSucc 0), (763056038726785, .ofNat 1), (765499501324945, .negSucc 0), (831505576051850, .negSucc 0), (835541375985050, .ofNat 1), (975784928654090, .ofNat 1), (980521003628570, .negSucc 0), (1140902999699050, .ofNat 1), (1146440492630650, .negSucc 0), (1372951067434450, .negSucc 0), (1379614830114850, .ofNat 1), (1604999135169850, .ofNat 1), (1612789167599050, .negSucc 0), (1841190918400525, .ofNat 1), (1850127332538325, .negSucc 0), (2019714945637595, .negSucc 0), (2026182488882315, .ofNat 1), (2050550288319085, .ofNat 1), (2057116572682045, .negSucc 0), (2459049373693855, .negSucc 0), (2466923756264335, .ofNat 1), (2526285213619325, .negSucc 0), (2538546805110725, .ofNat 1), (2750889132815845, .ofNat 1), (2764240863096685, .negSucc 0), (2892153482823185, .negSucc 0), (2906190854512505, .ofNat 1), (3002681641402415, .negSucc 0), (3017255473156295, .ofNat 1), (3028916328400705, .ofNat 1), (3033902312891545, .negSucc 0), (3040105935033425, .ofNat 1), (3054861409540025, .negSucc 0), (3114093563452555, .ofNat 1), (3124065532434235, .negSucc 0), (3297423397613695, .negSucc 0), (3313427789539735, .ofNat 1), (3553926656447525, .negSucc 0), (3571176013969325, .ofNat 1), (3732787648906705, .negSucc 0), (3744740803778785, .ofNat 1), (4058602125066790, .negSucc 0), (4078300978155670, .ofNat 1), (4657041878700190, .ofNat 1), (4679645322193870, .negSucc 0), (4867133993528770, .ofNat 1), (4890757141240210, .negSucc 0), (5756982758431570, .negSucc 0), (5775417802955890, .ofNat 1), (8986904705505035, .ofNat 1), (9030523594487555, .negSucc 0), (9736350175397825, .ofNat 2), (9783606576941225, .negSucc 1), (14512672902951475, .ofNat 2), (14583111690157675, .negSucc 1), (39771105075949765, .ofNat 1), (39964138325312845, .negSucc 0), (44887764969515335, .negSucc 0), (45105632466839455, .ofNat 1), (45572481241566145, .ofNat 1), (45793672081468585, .negSucc 0), (53021371740822055, .negSucc 0), (53191157093635735, .ofNat 1), (74405681890435370, .negSucc 0), (74643944208748490, .ofNat 1), (79166464562078330, .ofNat 1), (79419971887056410, .negSucc 0), (92099359996044670, .negSucc 0), (92394281115914590, .ofNat 1), (94808020378474030, .ofNat 1), (95111615186775310, .negSucc 0), (144321738641258150, .ofNat 1), (145022219407644950, .negSucc 0), (172836546558521650, .ofNat 1), (173675426949880450, .negSucc 0), (212870301978545050, .ofNat 1), (213903490420388650, .negSucc 0), (319569564134214475, .negSucc 0), (321120628688356675, .ofNat 1), (382709495951012225, .negSucc 0), (384567016817592425, .ofNat 1), (471355668666778325, .negSucc 0), (473643443073717725, .ofNat 1), (729117095375171795, .ofNat 2), (731451878486515715, .negSucc 1), (887716823903481655, .ofNat 2), (890559476011424935, .negSucc 1), (1329192195959373725, .ofNat 2), (1335643570345981925, .negSucc 1), (1618322052848316025, .ofNat 2), (1626176749462369825, .negSucc 1), (11772845164211595850, .negSucc 1), (11829985908778697050, .ofNat 2), (14333709610942227650, .negSucc 1), (14403279780952418450, .ofNat 2), (48967034638930821350, .ofNat 1), (49204701301448158550, .negSucc 0), (52100147649494192150, .negSucc 0), (52353021206159826950, .ofNat 1), (60611400051282972850, .ofNat 1), (60905583868353218050, .negSucc 0), (62393993307626315650, .negSucc 0), (62696829128906842450, .ofNat 1), (108427005271918247275, .negSucc 0), (108953267167492351075, .ofNat 1), (115364612652451425475, .ofNat 1), (115924546956496759675, .negSucc 0), (134210957256412297025, .negSucc 0), (134862364279924982825, .ofNat 1), (138158128038315413225, .ofNat 1), (138828693071150865425, .negSucc 0), (479838382741333914725, .negSucc 1), (482167328894899474925, .ofNat 2), (584214261078242085025, .negSucc 1), (587049806555915506825, .ofNat 2)])

def upr184 : Tr := .node (.node .nil (.node .nil (.node (.node (.leaf [(399, .negSucc 0)]) .nil) (.node (.leaf [(158, .ofNat 1), (1349, .ofNat 1), (1387, .negSucc 0), (1691, .ofNat 1), (1843, .negSucc 0), (3290, .negSucc 0), (4690, .negSucc 0), (5110, .negSucc 0), (6790, .negSucc 0), (7014, .negSucc 0), (7210, .negSucc 0), (7266, .negSucc 0), (7285, .ofNat 1), (10385, .ofNat 1), (11315, .ofNat 1), (15035, .ofNat 1), (15965, .ofNat 1), (68637, .negSucc 0), (162491, .negSucc 1), (572810, .negSucc 0), (593390, .negSucc 0), (1268365, .ofNat 1), (1313935, .ofNat 1), (1439206, .ofNat 1), (5605355, .negSucc 1), (6085814, .negSucc 1), (6360362, .negSucc 0), (13475731, .ofNat 1), (14811230, .ofNat 1), (15343370, .ofNat 1), (17153570, .negSucc 0), (32796295, .negSucc 0), (33974605, .negSucc 0), (37982905, .ofNat 1), (49647430, .ofNat 2), (58659251, .ofNat 2), (59554037, .negSucc 0), (70005110, .negSucc 1), (83913410, .ofNat 1), (126313565, .negSucc 0), (144938465, .ofNat 1), (155011315, .ofNat 2), (177257710, .negSucc 0), (185808265, .negSucc 0), (188599390, .negSucc 0), (216113030, .ofNat 2), (219409610, .negSucc 0), (225862490, .negSucc 0), (278178530, .negSucc 0), (285696530, .negSucc 0), (342457430, .ofNat 1), (392499215, .ofNat 1), (417612935, .ofNat 1), (478535995, .negSucc 1), (485835565, .ofNat 1), (500124085, .ofNat 1), (615966745, .ofNat 1), (632613745, .ofNat 1), (758298595, .negSucc 0), (1118777290, .ofNat 1), (1283740690, .negSucc 0), (2023533155, .ofNat 2), (4951093910, .ofNat 1), (5588065490, .negSucc 0), (10963136515, .negSucc 0), (12373573585, .ofNat 1), (45599196965, .ofNat 1), (52322785865, .negSucc 0)]) .nil)))) (.node (.node (.node (.node .nil (.leaf [(362, .ofNat 1)])) .nil) (.node (.node (.leaf [(3, .ofNat 1)]) .nil) .nil)) (.node (.node upr183 .nil) .nil))

def upr185 : Tr := .node (.node (.node (.node (.node .nil (.leaf [(2806, .ofNat 1), (3082, .negSucc 0)])) .nil) .nil) (.node (.node (.node .nil (.leaf [(133, .negSucc 0)])) .nil) .nil)) (.node (.node .nil (.node (.node (.leaf [(19, .negSucc 0)]) .nil) .nil)) (.node (.node .nil (.node (.leaf [(107, .ofNat 1), (4027321, .negSucc 0)]) .nil)) .nil))

def upr186 : Tr := .node (.leaf [(452585, .ofNat 1), (989590, .negSucc 0), (2191235, .ofNat 1), (4008610, .negSucc 0), (16942505, .ofNat 1), (37045270, .negSucc 0), (163383185, .negSucc 0), (192291685, .ofNat 1), (286623455, .ofNat 1), (388211515, .negSucc 0), (524344330, .negSucc 0), (774246143, .negSucc 0), (848260301, .negSucc 0), (878736719, .negSucc 0), (1416393418, .ofNat 1), (1429283695, .ofNat 1), (1480635205, .ofNat 1), (1551793726, .ofNat 1), (1607546794, .ofNat 1), (3125169530, .negSucc 0), (3237451070, .negSucc 0), (3436114679, .negSucc 0), (3559567901, .negSucc 0), (5233487395, .ofNat 1), (5611811785, .ofNat 1), (5928388930, .ofNat 1), (6116244305, .negSucc 0), (6316218535, .ofNat 1), (6920018245, .ofNat 1), (7168641655, .ofNat 1), (8097644065, .negSucc 0), (8134301090, .negSucc 0), (9788735210, .ofNat 1), (9989091350, .ofNat 1), (11443169330, .negSucc 0), (11554788410, .negSucc 1), (12659369870, .negSucc 1), (13114197530, .negSucc 1), (14170571450, .ofNat 1), (16493615950, .ofNat 1), (17705729510, .ofNat 1), (20675096050, .ofNat 1), (22118702275, .negSucc 0), (25321185050, .ofNat 1), (26652162215, .negSucc 0), (28031461855, .ofNat 1), (29038580245, .ofNat 1), (30582016115, .negSucc 0), (31377693925, .negSucc 0), (33047141995, .negSucc 0), (33203331782, .negSucc 0), (34744187135, .ofNat 1), (36071990465, .ofNat 1), (36521578175, .negSucc 0), (39205543915, .negSucc 0), (39612799345, .ofNat 1), (45780569825, .negSucc 0), (48757036090, .ofNat 1), (56068338325, .negSucc 0), (69417298285, .negSucc 1), (71721990290, .ofNat 1), (72258517730, .ofNat 1), (75969155290, .negSucc 0), (78872435110, .negSucc 0), (86614514630, .negSucc 0), (103471067255, .negSucc 1), (107962008485, .negSucc 0), (116965290575, .negSucc 1), (160001003545, .negSucc 0), (168217415285, .ofNat 1), (174344489725, .negSucc 1), (174646106315, .ofNat 1), (191789282395, .ofNat 1), (236062008190, .ofNat 1), (241495077769, .negSucc 0), (270869285590, .ofNat 1), (292703257670, .ofNat 1), (307734228910, .negSucc 0), (319494772690, .negSucc 0), (320036493563, .ofNat 1), (350856222770, .negSucc 0), (477780562315, .negSucc 0), (515971413895, .negSucc 0), (534509309005, .negSucc 0), (539248319785, .ofNat 1), (1035978287950, .ofNat 2), (1044680815010, .ofNat 1), (1544194051850, .ofNat 2), (1970091423905, .ofNat 1), (2313221804665, .negSucc 0), (2610824026435, .negSucc 0), (2923249507465, .ofNat 1), (3580351445915, .ofNat 1), (3606061977350, .negSucc 0), (4231770694790, .ofNat 1), (4947852480550, .ofNat 1), (5954195357950, .negSucc 0), (6960538235350, .ofNat 1), (7984851521275, .ofNat 1), (9476747393305, .negSucc 0), (9621430559615, .ofNat 1), (10955959064075, .negSucc 0), (11538157794245, .negSucc 0), (11930018260195, .ofNat 1), (12542651555735, .negSucc 0), (13021988557865, .negSucc 0), (13184289721175, .ofNat 1), (14300220563545, .negSucc 0), (14611704549545, .ofNat 1), (15412620378275, .negSucc 0), (17514692208395, .negSucc 0), (17601290028490, .negSucc 0), (20196595343890, .ofNat 1), (21107719945870, .ofNat 1), (27012461073830, .negSucc 0), (38974285063085, .ofNat 1), (42224469897575, .ofNat 2), (62938360790725, .ofNat 2), (172478782995715, .ofNat 1), (194668643442385, .negSucc 0), (197638111579495, .ofNat 1), (248782704470045, .negSucc 0), (349120480306030, .negSucc 0), (371458649794270, .ofNat 1), (432141363142730, .negSucc 0), (444850726052570, .ofNat 1), (625892536632650, .ofNat 1), (749555164501150, .ofNat 1), (923173005906550, .ofNat 1), (1385904902543725, .negSucc 0), (1659729292823975, .negSucc 0), (2044168798793075, .negSucc 0), (3421105808983105, .ofNat 2), (4165274963722445, .ofNat 2), (5764422484330475, .ofNat 2), (7018316882001775, .ofNat 2), (51056313432641350, .negSucc 1), (62162235240587150, .negSucc 1), (212359564193731850, .ofNat 1), (225947205724386650, .negSucc 0), (262858688400728350, .ofNat 1), (270589414384915150, .negSucc 0), (470224749286120525, .negSucc 0), (500311669818284725, .ofNat 1), (582044238601612775, .negSucc 0), (599162274709454975, .ofNat 1), (2080956516843301475, .negSucc 1), (2533612394402640775, .negSucc 1)]) .nil

def upr187 : Tr := .node (.node (.node (.node (.node (.leaf [(19, .ofNat 1)]) .nil) .nil) .nil) (.node .nil (.node .nil upr186))) (.node .nil (.node (.node .nil (.node (.leaf [(2590, .ofNat 1), (5735, .negSucc 0), (10570, .ofNat 1), (23405, .negSucc 0), (99085, .ofNat 1), (365050, .ofNat 1), (808325, .negSucc 0), (9439150, .negSucc 0), (20900975, .ofNat 1)]) .nil)) .nil))

def upr188 : Tr := .node (.leaf [(4655, .ofNat 1), (5054, .ofNat 1), (11191, .negSucc 0), (41230, .negSucc 1), (91295, .ofNat 1), (120365, .negSucc 0), (1066090, .ofNat 1), (1680455, .negSucc 0), (43451765, .ofNat 1)]) (.leaf [(21546953647030, .ofNat 1), (22381430789270, .negSucc 0), (47711111646995, .negSucc 0), (49558882461955, .ofNat 1), (806609520641590, .ofNat 1), (837848145772310, .negSucc 0), (4186885501474645, .negSucc 0), (4349036509240805, .ofNat 1), (6240829332386735, .negSucc 0), (6482526117547615, .ofNat 1), (7146761639451295, .negSucc 0), (7399847816786015, .ofNat 1), (8452768842599755, .ofNat 1), (8780130311108795, .negSucc 0), (11416872617541610, .ofNat 1), (11453431795128970, .negSucc 0), (16858138981409231, .ofNat 1), (17511026246641279, .negSucc 0), (18469694910278717, .ofNat 1), (19133276763342623, .ofNat 1), (19184995016235853, .negSucc 0), (19874276274304207, .negSucc 0), (31120675759274815, .negSucc 0), (31220330572798255, .ofNat 1), (32238783870386485, .negSucc 0), (32342019096371845, .ofNat 1), (33788162252926942, .negSucc 0), (33896358907609534, .ofNat 1), (35002108202133898, .negSucc 0), (35114192161775146, .ofNat 1), (68046244406290010, .ofNat 1), (70491019654420190, .ofNat 1), (70681560586132090, .negSucc 0), (73221017852699710, .negSucc 0), (113951950113057715, .negSucc 0), (114316847727331555, .ofNat 1), (122189440482676345, .negSucc 0), (122580716237741065, .ofNat 1), (129082469988859810, .negSucc 0), (134081616152820290, .ofNat 1), (137526923269391095, .negSucc 0), (142853108854178855, .ofNat 1), (150673826899642165, .negSucc 0), (156087257806216135, .negSucc 0), (156509169869292485, .ofNat 1), (162132253816692215, .ofNat 1), (177113156496342530, .ofNat 1), (183972450070148770, .negSucc 0), (213136171376954570, .negSucc 0), (217498649232912950, .negSucc 0), (218195124704672150, .ofNat 1), (221390575508145130, .ofNat 1), (249159186257566610, .ofNat 1), (258808700946141490, .negSucc 0), (275640271010719790, .ofNat 1), (276522927930498830, .negSucc 0), (285543514280566010, .ofNat 1), (286457883425007770, .negSucc 0), (308544595423434650, .negSucc 0), (309532618767093050, .ofNat 1), (330641302046499361, .negSucc 0), (331700083595893297, .ofNat 1), (359125676640391150, .negSucc 0), (360275671023993550, .ofNat 1), (385517773056337670, .negSucc 0), (400448225630413030, .ofNat 1), (450171622830912850, .negSucc 0), (451613165086414450, .ofNat 1), (481604151872878675, .ofNat 1), (483146347560345475, .negSucc 0), (551333785264825850, .negSucc 0), (553099269600215450, .ofNat 1), (580313972291281655, .ofNat 1), (602788552834425895, .negSucc 0), (665881105975837955, .ofNat 1), (683205889866176725, .ofNat 1), (685393655841420325, .negSucc 0), (691669557164292595, .negSucc 0), (722956629345195494, .ofNat 1), (750955519206946246, .negSucc 0), (795206855418008975, .ofNat 1), (797753271553128575, .negSucc 0), (853646497481890555, .ofNat 1), (886706785324485995, .negSucc 0), (996808593411307025, .ofNat 1), (1000000579834203425, .negSucc 0), (1218152165434471330, .negSucc 0), (1220810524514971525, .ofNat 1), (1222052939563817410, .ofNat 1), (1224719811257619925, .negSucc 0), (1330239786000101690, .ofNat 1), (1377347178041676730, .negSucc 0), (1511465666032346845, .ofNat 2), (1570002179835930605, .negSucc 1), (1573329290040729410, .negSucc 0), (1634261677572766690, .ofNat 1), (1654123291097983930, .ofNat 1), (1717338193942492870, .ofNat 1), (1718184693906001370, .negSucc 0), (1783847803227249830, .negSucc 0), (1885911268194516710, .ofNat 1), (1958949428083912390, .negSucc 0), (2252939388991611335, .ofNat 2), (2340191928434689015, .negSucc 1), (2546757439273759775, .ofNat 2), (2554912681134940175, .negSucc 1), (2697336937747757945, .ofNat 1), (2705974366177024265, .negSucc 0), (2945530954714510885, .negSucc 0), (3049840179949427045, .ofNat 1), (3483800570804472265, .ofNat 1), (3618722286053983385, .negSucc 0), (3662701573145535845, .negSucc 0), (3796110145332585325, .ofNat 2), (3802677429444091355, .negSucc 0), (3804551822220431605, .ofNat 1), (3808266071880382525, .negSucc 1), (3949948707146053195, .ofNat 1), (4175946379573572715, .negSucc 0), (4337673733614377435, .ofNat 1), (5139923754579923230, .negSucc 0), (5338984325104915070, .ofNat 1), (5897804081500279030, .negSucc 0), (6126216077740877270, .ofNat 1), (6968352036863727371, .negSucc 0), (7238224548268412539, .ofNat 1), (11234563949098208215, .ofNat 1), (11270539336780170055, .negSucc 0), (11638200977209521085, .ofNat 1), (11675468893790236045, .negSucc 0), (11741386382892112345, .negSucc 1), (11778984720394313065, .ofNat 2), (22556994462139015150, .negSucc 1), (22629226604338041550, .ofNat 2), (22746479953275591170, .negSucc 0), (23627412724486394530, .ofNat 1), (24850884526216125475, .negSucc 0), (24930462176859349075, .ofNat 1), (33622689858660041450, .negSucc 1), (33730356636654816650, .ofNat 2), (38326882535389528150, .negSucc 0), (38449613107230042550, .ofNat 1), (43257739305391992850, .negSucc 0), (43396259496189574450, .ofNat 1), (50367205610824523305, .ofNat 1), (52317842461362730745, .negSucc 0), (56847082405993565395, .ofNat 1), (59048673946400207555, .negSucc 0), (77957201108749424555, .negSucc 0), (78517012373081574950, .ofNat 1), (78768440018386646150, .negSucc 0), (80976351911407091995, .ofNat 1), (84866668471219669475, .ofNat 2), (85138429023152237075, .negSucc 1), (95784994176225127025, .ofNat 2), (96091717455848343425, .negSucc 1), (103995136534187280770, .ofNat 1), (104328150380635344290, .negSucc 0), (107732644883995649350, .negSucc 0), (108077627001972374950, .ofNat 1), (129644369267181205150, .ofNat 1), (130059517239661671550, .negSucc 0), (151556093650366760950, .negSucc 0), (152041407477350968150, .ofNat 1), (173859098826109201675, .negSucc 0), (174415831469284716475, .ofNat 1), (206343068147571434185, .ofNat 1), (209493343997152677455, .negSucc 0), (214334386857840864665, .negSucc 0), (217606667573227748095, .ofNat 1), (220107834375057111350, .ofNat 2), (220812664995039948950, .negSucc 1), (238550856528847509275, .ofNat 1), (239314745504367401675, .negSucc 0), (251227428697455434165, .ofNat 1), (260957042924413820485, .negSucc 0), (268993488154734848885, .ofNat 1), (278519275788284773045, .negSucc 0), (287069674805901239975, .negSucc 0), (287988931030679415575, .ofNat 1), (318149658578950354265, .negSucc 0), (330471057800607321385, .ofNat 1), (335588493082954970675, .ofNat 1), (336663116556991429475, .negSucc 0), (352987662434713478725, .negSucc 0), (354118001632618674325, .ofNat 1), (381358200018476914715, .ofNat 1), (396127559350396855435, .negSucc 0), (405035595006961717225, .negSucc 0), (406332602404969288825, .ofNat 1), (439752931721844150130, .negSucc 1), (441161111182538085010, .ofNat 2), (459591409844634111790, .negSucc 0), (461063116198291682830, .ofNat 1), (487381633259055032275, .negSucc 0), (488942329631874172675, .ofNat 1), (588158981648983143110, .ofNat 1), (610937386161719629990, .negSucc 0), (751676206459374215350, .negSucc 0), (754083228490776956950, .ofNat 1), (848381376989422553650, .negSucc 0), (851098068894656756050, .ofNat 1), (919379435577827278775, .negSucc 1), (922323477889713403175, .ofNat 2), (973738634526940618145, .ofNat 1), (976856746189905759665, .negSucc 0), (1370395762465063302325, .negSucc 1), (1374784051948818091525, .ofNat 2), (3126462152993176525850, .ofNat 2), (3136473728746051115450, .negSucc 1), (3587458127204518066850, .ofNat 2), (3598945907015442272450, .negSucc 1), (4238640484224052556545, .ofNat 2), (4252213484062347016465, .negSucc 1), (4303296546135189183415, .negSucc 0), (4317076588000551260455, .ofNat 1), (5416899323354947802765, .ofNat 1), (5626686690107746057885, .negSucc 0), (6922880481627748021525, .negSucc 0), (6945048970794827469925, .ofNat 1), (7601615625039540010510, .ofNat 1), (7896013366228549716590, .negSucc 0), (7943657281667147148025, .negSucc 0), (7969094508391336460425, .ofNat 1), (8087998371957563774590, .negSucc 0), (8401232895892376569310, .ofNat 1), (8971169313964021296475, .ofNat 1), (8999896845846225016075, .negSucc 0), (9409280530927719354410, .ofNat 1), (9686009331240581045690, .negSucc 0), (9773686082478405391690, .negSucc 0), (10061132122093093429210, .ofNat 1), (13627944375797790795050, .negSucc 0), (13671583860556510843850, .ofNat 1), (13836004595275619662150, .ofNat 1), (13880310331710045360550, .negSucc 0), (15616043889246509418850, .ofNat 1), (15666049678124436376450, .negSucc 0), (16320527072220036159550, .negSucc 0), (16372788761348095160350, .ofNat 1), (20100815455347957491350, .negSucc 0), (20165182406482519208950, .ofNat 1), (30176162546409393903325, .ofNat 1), (30272792834089416868525, .negSucc 0), (30636867318110300680475, .negSucc 1), (30734972877357957584075, .ofNat 2), (34578382897617270856025, .negSucc 1), (34689110001561251976425, .ofNat 2), (36138309945630080067575, .ofNat 1), (36254032257270782140775, .negSucc 0), (44508948508270477302275, .ofNat 1), (44651475328639863962675, .negSucc 0), (74489847601273287740785, .negSucc 1), (77374713655680552144065, .ofNat 2), (90693101759781411733565, .negSucc 1), (94205492495713389195085, .ofNat 2), (125512327400000264078075, .negSucc 1), (125914243723369697199275, .ofNat 2), (127428546138931565819725, .ofNat 1), (127836598589375341431325, .negSucc 0), (146217849797513179918225, .ofNat 1), (146686069468193913265825, .negSucc 0), (152814143773340842170175, .negSucc 1), (153303486135931984540975, .ofNat 2), (1111680614114288053262950, .ofNat 2), (1115240444406988746622150, .negSucc 1), (1353496701992447459221550, .ofNat 2), (1357830877203969005934350, .negSucc 1), (4623835817041231102601450, .negSucc 0), (4638642291671619531936650, .ofNat 1), (4919687919663002477013050, .ofNat 1), (4935441773660900414629850, .negSucc 0), (5723384406359801613941950, .negSucc 0), (5741711862040733176405150, .ofNat 1), (5891710273071433053597550, .ofNat 1), (5910576742846662352886350, .negSucc 0), (10238493594877011727188925, .ofNat 1), (10271279360130014677859725, .negSucc 0), (10893594679253791199100325, .negSucc 0), (10928478213106279489537525, .ofNat 1), (12673208328368132145157175, .ofNat 1), (12713790551661623462039975, .negSucc 0), (13045929890372458904394575, .negSucc 0), (13087705644874752352819775, .ofNat 1), (45309950191400095332185075, .ofNat 2), (45455041984136460688938275, .negSucc 1), (55165905902176044023433175, .ofNat 2), (55342558495071446419291975, .negSucc 1)])

def upr189 : Tr := .node (.node .nil (.node (.node upr188 .nil) .nil)) (.node (.node (.node (.node (.leaf [(3, .ofNat 1)]) .nil) .nil) .nil) (.node (.node (.node .nil (.leaf [(179, .ofNat 1)])) .nil) .nil))

def upr190 : Tr := .node (.node (.node .nil (.node (.node (.leaf [(14, .negSucc 0), (31, .ofNat 1), (57, .negSucc 0)]) .nil) .nil)) (.node .nil (.node .nil (.node (.leaf [(4690, .negSucc 0), (10385, .ofNat 1), (175570, .negSucc 0), (911335, .ofNat 1), (1358405, .ofNat 1), (1839865, .negSucc 0), (3669413, .negSucc 0), (4020191, .negSucc 0), (4164629, .negSucc 0), (14811230, .negSucc 0), (15343370, .negSucc 0), (28096630, .ofNat 1), (29934685, .ofNat 1), (32796295, .ofNat 1), (33974605, .ofNat 1), (38551190, .negSucc 0), (46392110, .ofNat 1), (54233030, .negSucc 0), (83913410, .ofNat 1), (126313565, .negSucc 0), (144938465, .negSucc 0), (157361762, .negSucc 0), (185808265, .negSucc 0), (328991935, .negSucc 1), (342457430, .ofNat 1), (360043390, .negSucc 0), (373803010, .negSucc 0), (410495330, .negSucc 0), (490384205, .negSucc 1), (758298595, .negSucc 0), (797238935, .ofNat 1), (827706665, .ofNat 1), (908953945, .ofNat 1), (1118777290, .ofNat 1), (1283740690, .ofNat 1), (1516760633, .ofNat 1), (4951093910, .ofNat 1), (10963136515, .negSucc 0), (12373573585, .negSucc 0), (16968490265, .ofNat 1), (44913494755, .negSucc 0), (45599196965, .ofNat 1), (54683212295, .negSucc 0), (69249784595, .ofNat 1), (83008019945, .negSucc 0), (128021142530, .negSucc 0), (1179064950095, .negSucc 0), (1654599432730, .negSucc 0), (1760467534570, .ofNat 1), (2048063332430, .negSucc 0), (2108297279870, .ofNat 1), (16213771606555, .ofNat 2), (19740639638495, .ofNat 2)]) .nil)))) (.node .nil (.node (.node (.node (.leaf [(166, .ofNat 1)]) .nil) .nil) .nil))

def upr191 : Tr := .node (.node (.node (.node (.node (.leaf [(37, .ofNat 1)]) (.leaf [(19, .ofNat 1)])) .nil) (.node (.node (.leaf [(19, .ofNat 1)]) .nil) .nil)) .nil) (.node (.node (.node (.node (.leaf [(48013, .negSucc 0)]) .nil) .nil) (.node (.node (.leaf [(1, .negSucc 0)]) .nil) .nil)) (.node (.node (.node .nil (.leaf [(14, .ofNat 1), (31, .negSucc 0), (57, .ofNat 1), (362, .negSucc 0)])) .nil) .nil))

def upr192 : Tr := .node (.node .nil (.node (.node (.node .nil (.leaf [(35, .ofNat 1), (310, .negSucc 0), (12635, .negSucc 0)])) .nil) .nil)) .nil

def upr193 : Tr := .node (.node (.node .nil (.node (.node (.leaf [(19, .ofNat 1)]) .nil) .nil)) (.node (.node (.node (.leaf [(86, .ofNat 1)]) .nil) .nil) .nil)) (.node (.node (.node .nil (.node (.leaf [(62, .negSucc 0), (114, .ofNat 1), (274, .negSucc 0), (2527, .negSucc 0), (2641, .ofNat 1), (65341, .ofNat 1)]) .nil)) .nil) (.node (.node (.node (.leaf [(39203, .negSucc 0), (42593, .ofNat 1)]) .nil) .nil) .nil))

def upr194 : Tr := .node (.node (.node (.node upr175 upr176) (.node upr177 upr178)) (.node (.node upr179 upr180) (.node upr181 upr182))) (.node (.node (.node upr184 upr185) (.node upr187 upr189)) (.node (.node upr190 upr191) (.node upr192 upr193)))

def upr195 : Tr := .node (.node (.node (.node (.node (.leaf [(19, .ofNat 1)]) .nil) .nil) (.node (.node (.leaf [(9179273, .ofNat 1), (9631939, .negSucc 0)]) .nil) .nil)) (.node (.node .nil (.node (.leaf [(53, .ofNat 2), (79, .ofNat 2), (107, .negSucc 1), (1634, .ofNat 2), (2242, .negSucc 1), (2698, .ofNat 2), (3154, .negSucc 1), (3507, .negSucc 1), (3633, .negSucc 1), (19133, .negSucc 3), (28519, .negSucc 3), (90681, .ofNat 2), (93939, .ofNat 2), (137274, .negSucc 1), (324982, .negSucc 1), (986827, .ofNat 2), (1323141, .ofNat 2), (2612009, .negSucc 1), (3042907, .negSucc 1), (3180181, .negSucc 1), (4027321, .ofNat 2), (8403106, .ofNat 2), (78680881, .ofNat 2), (96225614, .negSucc 1), (102382526, .ofNat 2), (119108074, .negSucc 1), (122611066, .ofNat 2), (942935249, .ofNat 4), (1148045341, .ofNat 4)]) .nil)) .nil)) .nil

def upr196 : Tr := .node (.node (.node (.node (.node .nil (.leaf [(19, .ofNat 1)])) .nil) .nil) (.node (.node (.node .nil (.leaf [(3, .ofNat 1), (589, .negSucc 0)])) .nil) .nil)) (.node (.node .nil (.node (.node (.leaf [(14, .negSucc 0), (31, .ofNat 1)]) .nil) (.node (.leaf [(395485, .negSucc 0)]) .nil))) .nil)

def upr197 : Tr := .node (.node (.node (.node (.node .nil (.leaf [(107, .negSucc 0), (4027321, .ofNat 1)])) .nil) .nil) .nil) (.node (.node .nil (.node .nil (.node (.leaf [(172826945, .ofNat 1)]) .nil))) .nil)

def upr198 : Tr := .node (.node (.node (.node (.node (.leaf [(149, .ofNat 1)]) .nil) .nil) (.node (.node (.leaf [(1, .ofNat 2), (361, .negSucc 3)]) .nil) .nil)) .nil) (.node (.node .nil (.node .nil (.node (.leaf [(7514215, .negSucc 0)]) .nil))) (.node (.node (.node .nil (.leaf [(73, .ofNat 1)])) .nil) .nil))

def upr199 : Tr := .node (.node (.node (.node (.node (.leaf [(2, .negSucc 0)]) .nil) .nil) .nil) .nil) .nil

def upr200 : Tr := .node (.node (.node (.node (.node .nil (.leaf [(2, .negSucc 0)])) .nil) (.node (.node (.leaf [(14, .negSucc 0), (31, .ofNat 1)]) .nil) .nil)) .nil) (.node (.node (.node (.node (.leaf [(1, .ofNat 2)]) .nil) .nil) .nil) (.node (.node (.node .nil (.leaf [(177711557, .ofNat 1), (178004093, .negSucc 0)])) .nil) .nil))

def upr201 : Tr := .node (.node .nil (.node (.node (.node .nil (.leaf [(107870, .negSucc 0), (238855, .ofNat 1), (4038110, .negSucc 0), (84396499, .negSucc 0), (688497755, .ofNat 1)])) .nil) (.node (.node (.leaf [(3, .ofNat 1)]) (.leaf [(1, .ofNat 1)])) (.node (.leaf [(1241479, .negSucc 0), (4573870, .negSucc 0), (10127855, .ofNat 1), (118267210, .ofNat 1)]) .nil)))) (.node (.node .nil (.node .nil (.node (.leaf [(62486630, .ofNat 1), (623679845, .negSucc 0)]) .nil))) (.node (.node (.node (.leaf [(107, .ofNat 1)]) (.leaf [(17998842157, .ofNat 1), (19555255567, .negSucc 0), (176514326470121, .ofNat 1), (191778045234851, .negSucc 0), (208770751611869, .negSucc 0), (227924692504247, .ofNat 1)])) .nil) .nil))

def upr202 : Tr := .node .nil (.leaf [(8666315158081, .ofNat 1), (8708378031913, .negSucc 0), (8977679774539, .ofNat 1), (9021253889347, .negSucc 0), (18058604360818, .negSucc 0), (18707416493542, .negSucc 0), (19715414224534, .ofNat 1), (20423752460146, .ofNat 1), (176716342673719, .negSucc 0), (192929410625797, .ofNat 1), (339224336187742, .ofNat 1), (340870797249166, .negSucc 0), (3128539772067241, .negSucc 0), (3143724469520593, .ofNat 1), (3240942398608579, .negSucc 0), (3256672654054267, .ofNat 1), (5560049639056045, .negSucc 0), (6070163538263335, .ofNat 1), (6275365015384255, .negSucc 0), (6851106443025565, .ofNat 1), (6920338071292765, .ofNat 1), (6953926661351845, .negSucc 0), (10673060111152810, .ofNat 1), (10724862933075130, .negSucc 0), (12046178069732590, .ofNat 1), (12104645464359070, .negSucc 0), (14420390326568170, .negSucc 0), (15743407568339710, .ofNat 1), (23633204531838365, .negSucc 0), (23747910780380645, .ofNat 1), (26673680011550735, .negSucc 0), (26803143528223655, .ofNat 1), (31930864294543805, .ofNat 1), (34860402472752215, .negSucc 0), (49246153945924970, .ofNat 1), (53764305624618110, .negSucc 0), (55581804421974830, .ofNat 1), (60681228495369290, .negSucc 0), (61294422917164490, .negSucc 0), (61591921857687770, .ofNat 1), (98298068886304315, .ofNat 1), (98775168921794995, .negSucc 0), (112792091782424215, .ofNat 1), (113339540085347695, .negSucc 0), (114812315210293585, .ofNat 1), (125345918611518355, .negSucc 0), (204830530977744070, .negSucc 0), (223622971264571410, .ofNat 1), (235032735756046270, .negSucc 0), (256596116132310010, .ofNat 1), (453553318593576155, .ofNat 1), (495165150657265265, .negSucc 0), (520429629174102455, .ofNat 1), (568177114292972165, .negSucc 0), (870640038707266790, .negSucc 0), (874865781878755670, .ofNat 1), (999015670072900190, .negSucc 0), (1003864497898793870, .ofNat 1), (2007177919699232245, .ofNat 1), (2191329037313063935, .negSucc 0), (2265406770553716055, .ofNat 1), (2473249425932228965, .negSucc 0), (2498242043736688165, .negSucc 0), (2510367524748016045, .ofNat 1), (3852974700126164410, .negSucc 0), (3871675518840121930, .ofNat 1), (4348670283173464990, .negSucc 0), (4369777012633624270, .ofNat 1), (8531586835993649765, .ofNat 1), (8572995791717412845, .negSucc 0), (9629198484169815335, .ofNat 1), (9675934813688739455, .negSucc 0), (35485602867955857715, .negSucc 0), (35657835980767993195, .ofNat 1), (40717945133455141615, .negSucc 0), (40915573970810517895, .ofNat 1), (330945641785348793885, .ofNat 1), (361308674980398587255, .negSucc 0), (362582432284041930695, .ofNat 1), (375609346018797928205, .ofNat 1), (395848023478993391285, .negSucc 0), (410070108154885369415, .negSucc 0), (635282588753785121930, .negSucc 0), (638365999741152660890, .ofNat 1), (696012508203537776510, .negSucc 0), (699390678254365005230, .ofNat 1), (721018945624024163690, .negSucc 0), (724518487053923029370, .ofNat 1), (2054220230125927893065, .negSucc 0), (2242687304962680265595, .ofNat 1), (6810979544563191098705, .negSucc 0), (6844037351489143265465, .ofNat 1), (7088143972341489042455, .ofNat 1), (7701076861820295456605, .negSucc 0), (8383439317540948968995, .negSucc 0), (8813947800013361458135, .ofNat 1), (9150786569440623679465, .ofNat 1), (9152588731063911354185, .ofNat 1), (9622594767495770060005, .negSucc 0), (9990337242686691208795, .negSucc 0), (10049023287913322936345, .ofNat 1), (10970983843195814272235, .negSucc 0), (12368744426538087350090, .ofNat 1), (13503530778695721520670, .negSucc 0), (14192512349403927001490, .ofNat 1), (15494622633320598458870, .negSucc 0), (121203956211233462261315, .negSucc 0), (132323968929817523090345, .ofNat 1), (136797171951736391280785, .negSucc 0), (149347804286860220911955, .ofNat 1), (214294749344643135471275, .negSucc 0), (215334851491879117703075, .ofNat 1), (241864346600729377337225, .negSucc 0), (243038260693391839317425, .ofNat 1), (555788910368160360398150, .negSucc 0), (558486490410843384864950, .ofNat 1), (1230675444386640798024475, .ofNat 1), (1236648657338296066486675, .negSucc 0), (1898039208481124914174150, .ofNat 1), (1907251541785215042512950, .negSucc 0), (2142227069892174484986850, .ofNat 1), (2152624594712899148240050, .negSucc 0), (7894553132345402838048650, .negSucc 0), (7932870177861134519351450, .ofNat 1), (9058602794269044161277650, .negSucc 0), (9102569677480560543068450, .ofNat 1), (17480796221621963427107725, .ofNat 1), (17565641108121083578563925, .negSucc 0), (20058334758738597785686225, .ofNat 1), (20155690000135526916794425, .negSucc 0), (77360404513416171905130275, .ofNat 1), (77735881388568361490810075, .negSucc 0), (87313029122863305218738225, .ofNat 1), (87736812110314453993590425, .negSucc 0)])

def upr203 : Tr := .node (.node (.node .nil (.node upr202 .nil)) (.node (.node (.node (.leaf [(14, .ofNat 1), (4655, .negSucc 0), (5054, .negSucc 0), (11191, .ofNat 1), (41230, .ofNat 2), (91295, .negSucc 0), (120365, .ofNat 1), (1066090, .negSucc 0), (1680455, .ofNat 1), (43451765, .negSucc 0)]) .nil) .nil) .nil)) (.node .nil (.node (.node (.node (.leaf [(47083, .negSucc 0)]) .nil) .nil) .nil))

def upr204 : Tr := .node (.node (.node (.node (.node (.leaf [(74, .ofNat 1)]) (.leaf [(342457430, .negSucc 0), (758298595, .ofNat 1)])) (.node (.leaf [(74, .ofNat 1), (362, .negSucc 0)]) .nil)) .nil) (.node (.node (.node (.leaf [(3801, .negSucc 0)]) .nil) .nil) .nil)) (.node (.node (.node (.node .nil (.leaf [(2, .ofNat 1)])) .nil) .nil) (.node (.node (.node (.leaf [(67, .ofNat 1)]) .nil) .nil) .nil))

def upr205 : Tr := .node .nil (.node (.node (.node (.node (.leaf [(7093, .ofNat 1)]) (.leaf [(1991, .negSucc 0)])) .nil) .nil) .nil)

def upr206 : Tr := .node .nil (.leaf [(104359535, .ofNat 1), (104866055, .negSucc 0), (217461230, .negSucc 0), (237412490, .ofNat 1), (481521295, .ofNat 1), (525699085, .negSucc 0), (924327310, .negSucc 0), (928813630, .ofNat 1), (3906695855, .ofNat 1), (3925657415, .negSucc 0), (8140654190, .negSucc 0), (8887528970, .ofNat 1), (37673792135, .negSucc 0), (37856645855, .ofNat 1), (42255869945, .ofNat 1), (46132689035, .negSucc 0), (62985164635, .ofNat 1), (68763819505, .negSucc 0), (72128227595, .ofNat 1), (78365369945, .negSucc 0), (85309020455, .negSucc 0), (93135806165, .ofNat 1), (120906195430, .negSucc 0), (121493026390, .ofNat 1), (170139672571, .negSucc 0), (185749355473, .ofNat 1), (186404196097, .negSucc 0), (193101352843, .negSucc 0), (203506088611, .ofNat 1), (210817684609, .ofNat 1), (326599773478, .ofNat 1), (328184959894, .negSucc 0), (329572084345, .ofNat 1), (331171697185, .negSucc 0), (341412997555, .ofNat 1), (343070081515, .negSucc 0), (357821120146, .ofNat 1), (359557842658, .negSucc 0), (370676968774, .ofNat 1), (372476088502, .negSucc 0), (686752301410, .negSucc 0), (711426036790, .negSucc 0), (749759273830, .ofNat 1), (776696732770, .ofNat 1), (792318194609, .negSucc 0), (796163794457, .ofNat 1), (820784716571, .negSucc 0), (824768481683, .ofNat 1), (1206766267045, .ofNat 1), (1212623434285, .negSucc 0), (1294002382735, .ofNat 1), (1300282959655, .negSucc 0), (1302756443210, .ofNat 1), (1387981539395, .ofNat 1), (1410317203655, .negSucc 0), (1417162326815, .ofNat 1), (1422279507230, .negSucc 0), (1515323689385, .negSucc 0), (1520665810265, .ofNat 1), (1575300510035, .ofNat 1), (1660181249195, .negSucc 0), (1719828479705, .negSucc 0), (1787503026730, .negSucc 0), (1867199242615, .negSucc 0), (1876261890895, .ofNat 1), (1951499788990, .ofNat 1), (2151062964370, .ofNat 1), (2303339545850, .ofNat 1), (2314519047050, .negSucc 0), (2348415000310, .negSucc 0), (2514622902010, .negSucc 0), (2664366573110, .negSucc 1), (2677298357030, .ofNat 2), (2745330211630, .ofNat 1), (2919067032770, .negSucc 1), (2933235032210, .ofNat 2), (3023943692630, .negSucc 1), (3038620721990, .ofNat 2), (3267528192950, .ofNat 1), (3283387485350, .negSucc 0), (3803188552450, .ofNat 1), (3821647728850, .negSucc 0), (3890813081470, .ofNat 1), (4247780727610, .negSucc 0), (4767377199550, .ofNat 1), (4790516167150, .negSucc 0), (5100251851525, .negSucc 0), (5125006461325, .ofNat 1), (5838697918550, .ofNat 1), (5856781068355, .negSucc 0), (5867036654150, .negSucc 0), (6394118973865, .ofNat 1), (6463648429705, .ofNat 1), (6495020428465, .negSucc 0), (6695875319395, .ofNat 1), (6720361806655, .negSucc 0), (6728374455835, .negSucc 0), (7235240998675, .negSucc 0), (7270358003275, .ofNat 1), (7296392818654, .negSucc 0), (7336930036765, .ofNat 1), (7620191503645, .negSucc 0), (7657176906085, .ofNat 1), (7965809754202, .ofNat 1), (8011505492585, .ofNat 1), (8050390178705, .negSucc 0), (8317677677015, .ofNat 1), (8358048402095, .negSucc 0), (8421346080425, .negSucc 0), (8462219971025, .ofNat 1), (8615371823255, .negSucc 0), (9134136835495, .ofNat 1), (9178470331135, .negSucc 0), (9405800182565, .ofNat 1), (10556335227575, .negSucc 0), (10607571512975, .ofNat 1), (11242665166390, .ofNat 1), (11297232626470, .negSucc 0), (12928545391075, .negSucc 0), (12991295448475, .ofNat 1), (15254369050145, .negSucc 1), (15878723656810, .ofNat 1), (16538050434590, .ofNat 1), (16618319605070, .negSucc 0), (16653900741635, .ofNat 2), (16694131864130, .negSucc 0), (17332124164670, .negSucc 0), (17335537564030, .negSucc 0), (18225756445190, .ofNat 1), (18922282169210, .ofNat 1), (19033436966110, .negSucc 0), (20779684099930, .ofNat 1), (22737644433235, .negSucc 1), (24823738841305, .ofNat 2), (24894472868435, .negSucc 0), (25015300815755, .ofNat 1), (26970499100825, .negSucc 1), (27101403260225, .ofNat 2), (35160030954365, .negSucc 0), (36965577699145, .ofNat 1), (38378274936055, .ofNat 1), (38385833177495, .ofNat 1), (40201309980475, .negSucc 1), (40357032128635, .negSucc 0), (40396431274675, .ofNat 2), (41899339088965, .negSucc 0), (42145467567815, .ofNat 1), (46012157649845, .negSucc 0), (51874346605430, .ofNat 1), (55685261377999, .negSucc 0), (55955535661927, .ofNat 1), (56633625197090, .negSucc 0), (59523204573230, .ofNat 1), (64984237468490, .negSucc 0), (67493124746570, .ofNat 1), (67820709739610, .negSucc 0), (70327640270311, .ofNat 1), (70959048648610, .negSucc 0), (71303455868530, .ofNat 1), (73670859424990, .negSucc 0), (74028428704270, .ofNat 1), (76779940003093, .negSucc 0), (80902354828670, .negSucc 0), (81295022932910, .ofNat 1), (110169266138365, .negSucc 0), (110703984280645, .ofNat 1), (118975522448545, .negSucc 0), (119552982683785, .ofNat 1), (123250092117355, .negSucc 0), (123848299426915, .ofNat 1), (124342839250735, .ofNat 1), (124946350323655, .negSucc 0), (229567371324970, .ofNat 1), (238881563464450, .ofNat 2), (240041000304850, .negSucc 1), (250629324818110, .negSucc 0), (356068745541350, .ofNat 2), (357796962718550, .negSucc 1), (454274500715255, .ofNat 1), (456479369873615, .negSucc 0), (508327750791005, .negSucc 0), (554964933525815, .ofNat 1), (573725486415695, .negSucc 0), (626362668446285, .ofNat 1), (674058926584015, .ofNat 1), (677330542613095, .negSucc 0), (786777988117255, .ofNat 1), (831505576051850, .negSucc 0), (835541375985050, .ofNat 1), (858961945704565, .negSucc 0), (975784928654090, .ofNat 1), (980521003628570, .negSucc 0), (1140902999699050, .ofNat 1), (1146440492630650, .negSucc 0), (1372951067434450, .negSucc 0), (1379614830114850, .ofNat 1), (1604999135169850, .ofNat 1), (1612789167599050, .negSucc 0), (1841190918400525, .ofNat 1), (1850127332538325, .negSucc 0), (2082504011305085, .negSucc 0), (2114297965676155, .ofNat 1), (2273566017992855, .ofNat 1), (2308276949565265, .negSucc 0), (2526285213619325, .negSucc 0), (2535496504482265, .negSucc 0), (2538546805110725, .ofNat 1), (2714799305477785, .negSucc 0), (2750889132815845, .ofNat 1), (2764240863096685, .negSucc 0), (2768118889585195, .ofNat 1), (2892153482823185, .negSucc 0), (2906190854512505, .ofNat 1), (2949556075254835, .ofNat 1), (3002681641402415, .negSucc 0), (3017255473156295, .ofNat 1), (3040105935033425, .ofNat 1), (3054861409540025, .negSucc 0), (3210904762316365, .ofNat 1), (3297423397613695, .negSucc 0), (3313427789539735, .ofNat 1), (3505493345983495, .negSucc 0), (3553926656447525, .negSucc 0), (3571176013969325, .ofNat 1), (3848832860789815, .negSucc 0), (4058602125066790, .negSucc 0), (4078300978155670, .ofNat 1), (4201948977635845, .ofNat 1), (4657041878700190, .ofNat 1), (4679645322193870, .negSucc 0), (4867133993528770, .ofNat 1), (4890757141240210, .negSucc 0), (5935956315688510, .negSucc 0), (6480558256011130, .ofNat 1), (8986904705505035, .ofNat 1), (9030523594487555, .negSucc 0), (9736350175397825, .ofNat 2), (9783606576941225, .negSucc 1), (14512672902951475, .ofNat 2), (14583111690157675, .negSucc 1), (39771105075949765, .ofNat 1), (39964138325312845, .negSucc 0), (44887764969515335, .negSucc 0), (45105632466839455, .ofNat 1), (45572481241566145, .ofNat 1), (45793672081468585, .negSucc 0), (54669704541054865, .negSucc 0), (59685446838758995, .ofNat 1), (76718811897391910, .negSucc 0), (81627598175407190, .ofNat 1), (83757477884225330, .ofNat 1), (89116627067467970, .negSucc 0), (94962552534781810, .negSucc 0), (97755419975732290, .ofNat 1), (103675013950939030, .ofNat 1), (106724116604299270, .negSucc 0), (144321738641258150, .ofNat 1), (145022219407644950, .negSucc 0), (172836546558521650, .ofNat 1), (173675426949880450, .negSucc 0), (212870301978545050, .ofNat 1), (213903490420388650, .negSucc 0), (319569564134214475, .negSucc 0), (321120628688356675, .ofNat 1), (382709495951012225, .negSucc 0), (384567016817592425, .ofNat 1), (471355668666778325, .negSucc 0), (473643443073717725, .ofNat 1), (751783948081135685, .ofNat 2), (820757332495420655, .negSucc 1), (915314238118097665, .ofNat 2), (999290919140255395, .negSucc 1), (1329192195959373725, .ofNat 2), (1335643570345981925, .negSucc 1), (1618322052848316025, .ofNat 2), (1626176749462369825, .negSucc 1), (11772845164211595850, .negSucc 1), (11829985908778697050, .ofNat 2), (14333709610942227650, .negSucc 1), (14403279780952418450, .ofNat 2), (48967034638930821350, .ofNat 1), (49204701301448158550, .negSucc 0), (52100147649494192150, .negSucc 0), (52353021206159826950, .ofNat 1), (60611400051282972850, .ofNat 1), (60905583868353218050, .negSucc 0), (62393993307626315650, .negSucc 0), (62696829128906842450, .ofNat 1), (108427005271918247275, .negSucc 0), (108953267167492351075, .ofNat 1), (115364612652451425475, .ofNat 1), (115924546956496759675, .negSucc 0), (134210957256412297025, .negSucc 0), (134862364279924982825, .ofNat 1), (138158128038315413225, .ofNat 1), (138828693071150865425, .negSucc 0), (479838382741333914725, .negSucc 1), (482167328894899474925, .ofNat 2), (584214261078242085025, .negSucc 1), (587049806555915506825, .ofNat 2)])

end BP.EL
