import Verif.Lemmas.JTree
import Verif.Gen.Jacobian7

/-!
# Generated by tools/gen_jacobian.py
-/

namespace BP.EL

def jac203 : JTree := .node (.node (.node (.node (.node (.node (.leaf (.atom 751)) (.leaf (.adef 21121 [(43943, .ofNat 1), (91884773, .ofNat 1), (92089841, .negSucc 0), (93742511, .ofNat 1), (120824813, .ofNat 1)] 0))) (.node (.leaf (.adef 18253 [(71393785643, .ofNat 1), (103674725971, .negSucc 0), (3002848391659, .negSucc 0), (4159365521627, .negSucc 0), (4360596392723, .ofNat 1), (6040036633219, .ofNat 1)] 0)) .nil)) (.node (.node (.leaf (.adef 13147 [(86727, .ofNat 2), (235053927, .negSucc 0)] 0)) .nil) (.node (.leaf (.adef 40429 [(8885329, .ofNat 1), (14059541, .negSucc 0), (18010793, .ofNat 1), (15083917829, .ofNat 1), (18616078751, .ofNat 1), (212214453043, .negSucc 0), (6792233334643, .negSucc 0), (1091487378024269, .negSucc 0), (1497806697578153, .ofNat 1)] 0)) .nil))) (.node (.node (.node (.leaf (.atom 22433)) (.leaf (.adef 28111 [(4225763, .negSucc 0), (4633933, .ofNat 1)] 0))) (.node (.leaf (.adef 15887 [(26005037, .negSucc 0), (34460627, .ofNat 1), (78486937, .ofNat 1)] 0)) .nil)) (.node (.node (.leaf (.adef 35603 [(10531597, .ofNat 1), (37002817, .ofNat 1)] 0)) .nil) (.node (.leaf (.adef 42181 [(3813371, .negSucc 0), (5269871, .ofNat 1), (7128623, .ofNat 1), (330776503, .ofNat 1), (408233557, .ofNat 1)] 0)) .nil)))) (.node (.node (.node (.node (.leaf (.atom 10457)) (.leaf (.adef 34157 [(355731, .negSucc 3), (26707509, .ofNat 2), (150861969, .negSucc 1), (166261743, .negSucc 0), (278073473607, .ofNat 2)] 0))) (.node (.leaf (.adef 37831 [(2912911, .ofNat 1), (6114013, .ofNat 1), (135384773, .negSucc 0), (187526869, .negSucc 0), (484073329, .ofNat 1), (702948713, .negSucc 0)] 0)) .nil)) (.node (.node (.leaf (.adef 29209 [(15295433, .ofNat 1), (342491411, .ofNat 1)] 0)) (.leaf (.trans [(47513, .negSucc 0)] 0))) (.node (.leaf (.adef 16193 [(25975721, .ofNat 1), (34499519, .negSucc 0), (51994741, .ofNat 1)] 0)) .nil))) (.node (.node (.node (.leaf (.atom 5231)) (.leaf (.adef 46643 [(45560807, .negSucc 0), (50017027, .negSucc 0), (50030329, .ofNat 1), (63755707, .ofNat 1), (64596341, .negSucc 0)] 0))) (.node (.leaf (.adef 15959 [(34438777, .negSucc 0), (34834153, .ofNat 1), (35243437, .ofNat 1), (35390023, .negSucc 0)] 0)) .nil)) (.node (.node (.leaf (.adef 23893 [(6420761, .ofNat 1), (7876061, .ofNat 1), (9383153833, .negSucc 0), (11173235917, .negSucc 0), (15332607529, .ofNat 1)] 0)) .nil) (.node (.leaf (.adef 26879 [(42839, .ofNat 1), (1318600207, .ofNat 1)] 0)) .nil))))) (.node (.node (.node (.node (.node (.leaf (.atom 3889)) (.leaf (.adef 9413 [(35267, .ofNat 1), (15339829, .ofNat 1), (595509197, .ofNat 1), (1237373867, .ofNat 1), (1590065987, .ofNat 1), (4651474327, .ofNat 1)] 0))) (.node (.leaf (.adef 24391 [(24379, .ofNat 1), (18898541, .ofNat 1), (1829003597, .ofNat 1), (2005943263, .ofNat 1), (3366064939, .negSucc 0), (3837156047, .ofNat 1), (4503998909, .ofNat 1), (4636448741, .ofNat 1), (4908995797, .negSucc 0), (4956651211, .ofNat 1), (6265410139, .negSucc 0), (6355813903, .negSucc 0), (7553352689, .ofNat 1), (8403726157, .negSucc 0), (621126305017, .ofNat 1), (901546037207, .ofNat 1), (902547623707, .ofNat 2), (52887647346101, .ofNat 1)] 0)) .nil)) (.node (.node (.leaf (.adef 29101 [(223539, .negSucc 1), (17973873, .negSucc 0), (52561989, .negSucc 1), (61983891, .negSucc 0), (89723503899, .ofNat 2)] 0)) (.leaf (.trans [(42461, .negSucc 0)] 0))) (.node (.leaf (.adef 40993 [(5034137, .negSucc 0), (5755927, .ofNat 1), (7439869, .negSucc 0), (9983003, .ofNat 1)] 0)) .nil))) (.node (.node (.node (.leaf (.atom 28697)) (.leaf (.adef 22039 [(35419, .ofNat 1), (4611883, .negSucc 0), (4777529, .ofNat 1), (12236281, .ofNat 1), (13273123, .negSucc 0), (15756359, .ofNat 1), (73986697, .ofNat 1), (88619383, .ofNat 1), (111184201, .ofNat 1), (128400641, .ofNat 1), (128525959, .ofNat 1), (174416989, .ofNat 1), (319257907, .ofNat 1)] 0))) (.node (.leaf (.adef 19237 [(12018367, .ofNat 1), (14475163, .negSucc 0), (62944099, .ofNat 1), (94601189, .ofNat 1), (109174577, .negSucc 0), (109297379, .negSucc 0), (148617437, .negSucc 0), (160882087, .ofNat 1), (163632823, .ofNat 1)] 0)) .nil)) (.node (.node (.leaf (.adef 17707 [(1406941, .negSucc 0), (2516711, .ofNat 1)] 0)) .nil) (.node (.leaf (.adef 20639 [(2674603, .ofNat 1), (2780581, .ofNat 1), (121608779, .negSucc 0), (12370172651, .ofNat 1), (4097193362783, .negSucc 0), (4295416333367, .negSucc 0)] 0)) .nil)))) (.node (.node (.node (.node (.leaf (.atom 28559)) (.leaf (.adef 45137 [(86657167543, .negSucc 0), (117354279443, .ofNat 1)] 0))) (.node (.leaf (.adef 15803 [(34333499, .ofNat 1), (34732913, .negSucc 0), (34913653, .negSucc 0), (35002271, .ofNat 1)] 0)) .nil)) (.node (.node (.leaf (.adef 23071 [(21567059, .negSucc 0), (83903581, .negSucc 0), (100332511, .ofNat 1), (124379119, .ofNat 1), (127237381, .ofNat 1), (141448609, .ofNat 1)] 0)) .nil) (.node (.leaf (.adef 5351 [(27309, .ofNat 4), (51957099, .negSucc 1), (60868719, .negSucc 1), (68980869, .negSucc 1), (103059498609, .ofNat 3)] 0)) .nil))) (.node (.node (.node (.leaf (.atom 4001)) (.leaf (.atom 1259))) (.node (.leaf (.adef 25457 [(24579547, .negSucc 0), (26968687, .ofNat 1), (31245437, .ofNat 1), (3766633597, .ofNat 1)] 0)) .nil)) (.node (.node (.leaf (.adef 36809 [(2089289, .ofNat 1), (2848649, .ofNat 1), (4264489, .negSucc 0), (5118229, .ofNat 1), (88692607, .negSucc 0), (99379183, .ofNat 1)] 0)) .nil) (.node (.leaf (.adef 43579 [(4752103, .ofNat 1), (7531547, .negSucc 0), (10030931, .ofNat 1)] 0)) .nil)))))

def jac204 : JTree := .node (.node (.node (.node (.node (.leaf (.atom 2381)) (.leaf (.adef 21269 [(12725833, .negSucc 0), (391085381, .negSucc 0), (466645897, .ofNat 1), (543824381, .ofNat 1), (677641409, .negSucc 0), (700104511, .negSucc 0), (1020631039, .negSucc 0)] 0))) (.node (.leaf (.adef 18439 [(5001499, .ofNat 1), (8444939, .ofNat 1), (8501291, .ofNat 1), (11283773, .ofNat 1), (2563722751, .ofNat 1), (2704511009, .ofNat 1)] 0)) .nil)) (.node (.node (.leaf (.adef 17327 [(200745533, .ofNat 1), (291513301, .negSucc 0), (329235761, .negSucc 0), (456037633, .negSucc 0), (777435101, .ofNat 1), (1128954997, .negSucc 0)] 0)) (.leaf (.trans [] 0))) (.node (.leaf (.adef 40823 [(5414267, .negSucc 0), (6604501, .ofNat 1), (10561333, .negSucc 0), (150544930331, .ofNat 1), (185797636289, .ofNat 1), (195843867683, .ofNat 1), (268749105671, .negSucc 0)] 0)) .nil))) (.node (.node (.node .nil (.leaf (.adef 45707 [(2630669, .negSucc 1), (3700663, .ofNat 2), (5227357, .ofNat 2), (62619127, .negSucc 1)] 0))) (.node (.leaf (.adef 15913 [(38921, .ofNat 1), (2969581, .negSucc 0), (1285192019, .ofNat 1), (1570360433, .ofNat 1), (2851967999, .ofNat 1), (2885783629, .ofNat 1), (3144301889, .ofNat 1), (3500500139, .ofNat 1), (3970215421, .ofNat 1), (4173056353, .ofNat 1), (4968205667, .ofNat 1), (5437686481, .ofNat 1), (338639656847, .negSucc 1), (476654446139, .ofNat 1), (492279427777, .negSucc 1), (692911102549, .ofNat 1)] 0)) .nil)) (.node (.node (.leaf (.adef 17627 [(17623, .negSucc 0), (5809561, .negSucc 0), (6360359, .ofNat 1), (8396723, .negSucc 0), (10402537, .negSucc 0), (11015803, .ofNat 1), (16750339, .negSucc 0), (27173959, .ofNat 1), (30061393, .ofNat 1)] 0)) .nil) (.node (.leaf (.adef 11903 [(4955507, .negSucc 0), (1419417697, .negSucc 0), (4580181628823, .negSucc 0)] 0)) .nil)))) (.node (.node (.node (.node (.leaf (.atom 48371)) (.leaf (.adef 11953 [(1217066623, .ofNat 1), (3129321137, .ofNat 1)] 0))) (.node (.leaf (.adef 49033 [(4426547, .ofNat 1), (29196571, .ofNat 1)] 0)) .nil)) (.node (.node (.leaf (.adef 15451 [(6031007, .negSucc 0), (7274077, .ofNat 1), (17266751, .negSucc 0)] 0)) .nil) (.node (.leaf (.adef 7873 [(41539, .ofNat 1), (560422673, .ofNat 1), (824587949, .ofNat 1), (869809771, .ofNat 1), (1213670747, .ofNat 1), (2161216259, .ofNat 1), (2198019101, .ofNat 1), (2527374847, .ofNat 1), (2634949787, .ofNat 1), (2825857537, .ofNat 1), (3584894129, .ofNat 1), (90970822667, .ofNat 1), (99253390969, .ofNat 1), (124420048513, .ofNat 1), (135748049291, .ofNat 1), (25766107986937, .ofNat 1), (35240094700043, .ofNat 1)] 0)) .nil))) (.node (.node (.node (.leaf (.atom 48817)) (.leaf (.atom 49081))) (.node (.leaf (.adef 40037 [(18166153, .negSucc 0), (26473399, .ofNat 1)] 0)) .nil)) (.node (.node (.leaf (.adef 24061 [(5072491, .ofNat 1), (6334831, .ofNat 1), (7575871, .ofNat 1), (10316041, .negSucc 0), (11388343, .negSucc 0), (12505729, .ofNat 1)] 0)) .nil) (.node (.leaf (.adef 16451 [(35670253, .negSucc 0), (36178211, .ofNat 1), (36540367, .ofNat 1), (36685279, .negSucc 0)] 0)) .nil))))

def jac205 : JTree := .node (.node (.node (.node (.node (.leaf (.atom 4793)) (.leaf (.adef 44059 [(27755773, .ofNat 2), (27874997, .ofNat 2), (27887771, .ofNat 2), (34974553, .ofNat 1), (51320783, .ofNat 1), (6425066423, .ofNat 1), (7074132467, .negSucc 0), (7630213471, .negSucc 0), (9810401197, .ofNat 1), (44295357971, .ofNat 1), (2406438163231, .negSucc 1), (19230604507073, .ofNat 1)] 0))) (.node (.leaf (.adef 30491 [(25631009, .negSucc 0), (26960029, .ofNat 1), (29585399, .ofNat 1), (8422684759, .negSucc 0)] 0)) .nil)) (.node (.node (.leaf (.adef 14983 [(449231, .ofNat 4), (1055078867, .ofNat 2)] 1)) (.leaf (.trans [] 0))) (.node (.leaf (.adef 25847 [(3573222371, .ofNat 4), (3632908247, .negSucc 3), (3798850259, .negSucc 3), (3870771263, .negSucc 3), (419043125117, .negSucc 3), (438183949649, .negSucc 3), (639685922809, .ofNat 2), (738630232687, .negSucc 1), (63092427620779, .ofNat 4), (68346251755687, .negSucc 3), (68865043556731, .negSucc 3), (74599564188343, .ofNat 4), (104333259524699, .ofNat 2), (106352536489877, .ofNat 2), (113879188557611, .negSucc 1), (116083218445253, .negSucc 1)] 1)) .nil))) (.node (.node (.node (.leaf (.atom 35401)) (.leaf (.adef 45497 [(45491, .ofNat 1), (12476209, .ofNat 1), (14455919, .ofNat 1), (31649509, .negSucc 0), (34653881, .ofNat 1), (41116079, .ofNat 1)] 0))) (.node (.leaf (.adef 24971 [(25717927, .ofNat 1), (29403427, .negSucc 0), (30847049, .ofNat 1), (37657883, .negSucc 0)] 0)) .nil)) (.node (.node (.leaf (.adef 2393 [(17876879, .negSucc 0), (21408997, .negSucc 0), (50927963, .negSucc 0)] 0)) .nil) (.node (.leaf (.adef 42337 [(3455273, .ofNat 1), (41413649309, .ofNat 1)] 0)) .nil)))) (.node (.node (.node (.node (.leaf (.atom 48049)) (.leaf (.adef 27701 [(276923731, .negSucc 0), (415794323, .ofNat 1), (424760189, .negSucc 0), (542062003, .negSucc 0), (666378503, .ofNat 1)] 0))) (.node (.leaf (.adef 18671 [(292673899, .ofNat 1), (364466711, .ofNat 1), (377741483, .ofNat 1), (465871973, .ofNat 1), (506699081, .negSucc 0), (573304837, .negSucc 0), (92652380863, .negSucc 0), (98737469789, .negSucc 0), (110412089389, .negSucc 0), (112075186279, .ofNat 1), (118249546919, .ofNat 1), (174692434357, .ofNat 1), (545137963979, .negSucc 0), (766354818103, .negSucc 0), (991785880673, .ofNat 1), (151327969778797, .ofNat 1), (183050993878501, .negSucc 0)] 0)) .nil)) (.node (.node (.leaf (.adef 6569 [(366399251, .negSucc 3), (169010334247, .negSucc 1), (511331684089, .ofNat 2)] 1)) .nil) (.node (.leaf (.adef 26053 [(26819101, .ofNat 1), (30656839, .negSucc 0), (31073323, .ofNat 1), (37910177, .negSucc 0)] 0)) .nil))) (.node (.node (.node (.leaf (.atom 10847)) (.leaf (.adef 46889 [(22359563, .negSucc 0), (22456543, .ofNat 1), (22536179, .negSucc 0), (29995781, .negSucc 0), (30175967, .ofNat 1), (30671057, .negSucc 0)] 0))) (.node (.leaf (.adef 31729 [(19802479, .ofNat 1), (21406039, .negSucc 0), (21773597, .negSucc 0), (22061371, .ofNat 1)] 0)) .nil)) (.node (.node (.leaf (.adef 24019 [(6526361, .negSucc 0), (7817273, .ofNat 1)] 0)) .nil) (.node (.leaf (.adef 42961 [(18106729, .ofNat 1), (40189109, .ofNat 1)] 0)) .nil))))

def jac206 : JTree := .node (.node (.node (.node (.leaf (.atom 47711)) (.leaf (.adef 14557 [(27367, .ofNat 1), (2177953, .negSucc 0), (4104377, .negSucc 0), (14762687, .ofNat 1), (359948119, .negSucc 0), (388024831, .negSucc 0), (628008761, .negSucc 0), (658665067, .negSucc 0), (659502229, .negSucc 0), (1007303177, .negSucc 0), (1167005089, .negSucc 0), (2630074121, .negSucc 0), (3618414329, .negSucc 0), (4527972583, .negSucc 0), (116073631561, .negSucc 0), (125127619489, .negSucc 0), (324828306263, .negSucc 0), (19338567953213, .negSucc 0), (20847017016437, .negSucc 0), (21259263618013, .ofNat 1), (22917530991637, .ofNat 1), (54118357367779, .negSucc 0), (59493362106179, .ofNat 1)] 0))) (.node (.leaf (.adef 8629 [(3146291, .ofNat 1), (578777219, .negSucc 0), (855654511, .negSucc 0), (999149159, .negSucc 0), (1158770009, .negSucc 0), (1162982123, .negSucc 0), (1185668941, .ofNat 1), (1208293211, .negSucc 0), (1482600541, .negSucc 0), (1884614657, .negSucc 0), (2028650797, .negSucc 0), (2373098647, .negSucc 0), (2852893661, .negSucc 0), (3059591911, .negSucc 0), (3096883379, .negSucc 0), (3881410487, .negSucc 0), (119726276317, .negSucc 0), (131923881659, .negSucc 0), (2685542115824129, .negSucc 0), (3899819016936313, .ofNat 1)] 0)) .nil)) (.node (.node (.leaf (.adef 29179 [(3357659, .ofNat 1), (50724143, .negSucc 0)] 0)) (.leaf (.trans [(46867, .ofNat 1)] 0))) (.node (.leaf (.adef 19927 [(5992327907, .ofNat 1), (6059001931, .ofNat 1), (8840204941, .ofNat 1), (8938566053, .ofNat 1), (15792052009, .negSucc 0), (15967763297, .negSucc 0), (16846556939, .negSucc 0), (17647590419, .ofNat 1), (26028841099, .ofNat 1), (46508348993, .negSucc 0), (179639008643, .ofNat 1), (194433599449, .ofNat 1), (890604390761, .ofNat 1), (891685378553, .negSucc 0), (894361657289, .ofNat 1), (1084868624471, .ofNat 1), (1824415792007, .negSucc 0), (2766430958177, .ofNat 1), (3090452284919, .negSucc 0), (4537392867881, .negSucc 0), (4987300564189, .ofNat 1), (5485882277677, .negSucc 0), (16138046850559, .ofNat 1), (115065487025393, .negSucc 0), (115698207322667, .negSucc 0), (310025314592999, .negSucc 0), (311730076935581, .negSucc 0)] 0)) .nil))) (.node (.node (.node (.leaf (.atom 28793)) (.leaf (.adef 22133 [(9291679, .ofNat 1), (1719856849, .negSucc 0), (2537654177, .ofNat 1), (2893329499, .ofNat 1), (46704691981, .negSucc 0), (554607788431, .negSucc 0), (92401006668923, .negSucc 0), (101578222549723, .ofNat 1)] 0))) (.node (.leaf (.adef 25261 [(3495303809, .ofNat 4), (3549906079, .negSucc 3), (3712056763, .negSucc 3), (3786364277, .negSucc 3), (462889588871, .negSucc 3), (475660285123, .negSucc 3), (484033208387, .negSucc 3), (515269404319, .ofNat 4), (574399306277, .negSucc 3), (600636406169, .negSucc 3), (706536228059, .ofNat 1), (815424298789, .negSucc 0), (1076970486701, .negSucc 1), (1131888731777, .negSucc 1), (1200558572383, .ofNat 2), (1429283884531, .negSucc 1), (1941536603359, .ofNat 2), (2061257418793, .negSucc 1), (2316536882839, .negSucc 1), (2471654595337, .negSucc 1), (72225507758161, .ofNat 4), (77214458734271, .negSucc 3), (78239860512133, .negSucc 3), (83644250741963, .ofNat 4), (119422206200257, .ofNat 1), (121674366547367, .ofNat 1), (127671252149327, .negSucc 0), (130078979662537, .negSucc 0), (166445400534739, .negSucc 1), (187059076562797, .negSucc 1), (24836319821305217, .ofNat 2), (26551879681823887, .negSucc 1), (31617639302491031, .negSucc 1), (33801616367610841, .ofNat 2)] 1)) .nil)) (.node (.node (.leaf (.adef 15583 [(2464999, .ofNat 1), (2888359, .negSucc 0), (2821330501313, .ofNat 1), (2957826991337, .ofNat 1)] 0)) .nil) (.node (.leaf (.adef 26699 [(561707, .negSucc 0), (854939, .ofNat 1), (2335867, .negSucc 0), (72960911, .negSucc 0), (303210233, .negSucc 0), (13254835861, .negSucc 0), (14164591237, .negSucc 0), (19696594237, .ofNat 1), (51966377371, .ofNat 1), (72261926371, .negSucc 0)] 0)) .nil)))

def jac207 : JTree := .node (.node (.node (.node (.node (.node (.node (.leaf (.atom 293)) (.leaf (.adef 4549 [(998489, .ofNat 1), (1047593, .ofNat 1), (399395039, .ofNat 1)] 0))) (.node (.leaf (.adef 18133 [(5404361, .negSucc 0), (8419003, .negSucc 0), (14075693, .ofNat 1), (15344239, .ofNat 1), (22306129, .negSucc 0), (29822833, .negSucc 0)] 0)) .nil)) (.node (.node (.leaf (.adef 2269 [(10385521831, .ofNat 1)] 0)) .nil) (.node (.leaf (.adef 4519 [(2977613, .negSucc 0), (4761931, .ofNat 1), (367358221, .ofNat 1), (2306274833, .ofNat 1), (181469020111, .negSucc 0), (232242263167, .negSucc 0), (644920216337, .negSucc 0)] 0)) .nil))) (.node (.node (.node (.leaf (.atom 35323)) (.leaf (.adef 21943 [(29492311, .ofNat 1), (30368951, .negSucc 0), (32755621, .negSucc 0), (10194975613, .ofNat 1)] 0))) (.node (.leaf (.adef 38737 [(44370563, .negSucc 0), (44685239, .negSucc 0), (44829167, .ofNat 1), (62563967, .ofNat 1), (62786177, .negSucc 0)] 0)) .nil)) (.node (.node (.leaf (.adef 23321 [(11487029, .ofNat 1), (18096263, .negSucc 0), (18304001, .ofNat 1), (1685741852749, .negSucc 0), (1739477283631, .ofNat 1)] 0)) .nil) (.node (.leaf (.adef 42013 [(2826823, .ofNat 1), (5034011, .negSucc 0), (7039499, .negSucc 0), (335429429, .negSucc 0), (460297073, .ofNat 1)] 0)) .nil)))) (.node (.node (.node (.node (.leaf (.atom 9931)) (.leaf (.adef 34031 [(6977233, .negSucc 0), (7290473, .negSucc 0)] 0))) (.node (.leaf (.adef 24683 [(37633, .ofNat 1), (1307970799, .ofNat 1), (46299475421, .negSucc 0)] 0)) .nil)) (.node (.node (.leaf (.adef 17471 [(222661849, .ofNat 1), (323339153, .negSucc 0), (1008084523, .ofNat 1), (1463893331, .negSucc 0), (95299356569, .negSucc 0)] 0)) (.leaf (.trans [] 0))) (.node (.leaf (.adef 41341 [(10309693, .negSucc 0), (18221143, .negSucc 0), (22569839, .ofNat 1), (22765333, .ofNat 1), (24736289, .ofNat 1), (30389603, .ofNat 1)] 0)) .nil))) (.node (.node (.node (.leaf (.atom 6689)) (.leaf (.adef 46411 [(23574841, .negSucc 0), (23645663, .negSucc 0), (23831279, .ofNat 1), (26921821, .ofNat 1), (27318419, .negSucc 0), (33777229, .negSucc 1)] 0))) (.node (.leaf (.adef 25349 [(298023593, .ofNat 1), (358399741, .ofNat 1), (361761239, .negSucc 0), (369594967, .ofNat 1), (373182523, .negSucc 0), (381726919, .ofNat 1), (384323429, .ofNat 1), (487079369, .ofNat 1), (510933479, .negSucc 0), (598828573, .negSucc 0), (548883637169, .negSucc 0), (557653014583, .ofNat 1), (564734347681, .negSucc 0), (773105176781, .negSucc 0), (1000382431559, .ofNat 1)] 0)) .nil)) (.node (.node (.leaf (.adef 8423 [(3069221, .ofNat 1), (3905521, .ofNat 1), (463461751, .negSucc 0), (682501009, .negSucc 0), (829084439, .negSucc 0), (1218379831, .negSucc 0), (1905038167, .negSucc 0), (2034347873, .negSucc 0), (2368079639, .negSucc 0), (2868314147, .negSucc 0), (3069401603, .negSucc 0), (3130911101, .negSucc 0), (3923081717, .negSucc 0)] 0)) .nil) (.node (.leaf (.adef 42767 [(24266166907, .ofNat 1), (28534807517, .ofNat 1)] 0)) .nil))))) jac204) (.node jac205 (.node jac206 (.node (.node (.node (.node (.leaf (.atom 16879)) (.leaf (.adef 21739 [(548585023, .negSucc 0), (674618987, .ofNat 1), (73418796577, .ofNat 1), (87939228937, .negSucc 0)] 0))) (.node (.leaf (.adef 4159 [(38726539, .negSucc 0), (71672297, .ofNat 1)] 0)) .nil)) (.node (.node (.leaf (.adef 29501 [(3480343, .ofNat 1), (51020911, .negSucc 0)] 0)) .nil) (.node (.leaf (.adef 20287 [(11676661, .ofNat 1), (953636863, .negSucc 0), (985403059, .ofNat 1), (1702901063, .negSucc 0), (1767019181, .ofNat 1), (1993438633, .ofNat 1), (13028705869, .ofNat 1), (19573747553, .negSucc 1)] 0)) .nil))) (.node (.node (.node (.leaf (.atom 7207)) (.leaf (.atom 49207))) (.node (.leaf (.adef 6299 [(345383, .ofNat 1), (554809, .ofNat 1)] 0)) .nil)) (.node (.node (.leaf (.adef 36973 [(29782667, .ofNat 1), (43649107, .ofNat 1), (6290239463, .ofNat 1), (6599161297, .negSucc 0), (7122201473, .negSucc 0), (8790430081, .ofNat 1), (20779046971, .ofNat 1), (41325356827, .ofNat 1)] 0)) .nil) (.node (.leaf (.adef 6917 [(126485917, .ofNat 1), (127014959, .negSucc 0), (127172753, .ofNat 1), (157885667, .ofNat 1), (158401183, .negSucc 0), (158714641, .ofNat 1), (198637069, .ofNat 1), (198987197, .negSucc 0), (199123829, .ofNat 1), (199270963, .ofNat 1), (199370657, .negSucc 0), (199388177, .ofNat 1)] 0)) .nil))))))

def jac208 : JTree := .node (.node (.node (.node (.leaf (.atom 5861)) (.leaf (.adef 9433 [(1566989, .negSucc 0), (2818691, .ofNat 1), (7827623501, .negSucc 0), (11020994291, .negSucc 0), (11366909797, .ofNat 1)] 0))) (.node (.leaf (.adef 24571 [(37589, .negSucc 0), (8250499, .ofNat 1), (252705863, .ofNat 1), (276293861, .ofNat 1), (124998405667, .ofNat 1)] 0)) .nil)) (.node (.node (.leaf (.adef 2593 [(89711, .ofNat 1), (21855023, .negSucc 0)] 0)) (.leaf (.trans [] 0))) (.node (.leaf (.adef 20011 [(19997, .negSucc 0), (6084083, .negSucc 0), (6618847, .ofNat 1), (8550149, .ofNat 1), (11251711, .negSucc 0), (14246273, .negSucc 0), (22876991, .ofNat 1)] 0)) .nil))) (.node (.node (.node (.leaf (.atom 9629)) (.leaf (.adef 35023 [(21622031, .negSucc 0), (21921401, .ofNat 1), (22691521, .ofNat 1), (23127751, .negSucc 0)] 0))) (.node (.leaf (.adef 39323 [(39251, .ofNat 4), (1229372093, .negSucc 3), (1261050547, .negSucc 3), (1292560333, .negSucc 3), (2235121033, .negSucc 3), (2297939093, .negSucc 3), (2352598949, .negSucc 3), (10399787443, .negSucc 3), (10436807657, .ofNat 4), (30178263877, .ofNat 4), (46979024177, .negSucc 1), (82282353893, .ofNat 4), (84618132283, .negSucc 3), (85292751113, .ofNat 4), (85580894887, .ofNat 4), (86775521587, .ofNat 4), (88599161059, .ofNat 4), (117407356189, .negSucc 3), (120297331813, .ofNat 4), (125849362633, .negSucc 0), (140401579793, .negSucc 3), (143757856387, .ofNat 4), (248339962993, .negSucc 3), (257425774213, .negSucc 3), (261900988487, .negSucc 3), (267404994359, .negSucc 3), (304502659507, .ofNat 4), (311527746797, .negSucc 3), (319450631429, .negSucc 3), (336097878679, .negSucc 3), (344412084739, .negSucc 3), (353119580993, .negSucc 3), (448305602783, .negSucc 3), (457429122421, .ofNat 4), (10133130364559, .negSucc 3), (10258414560491, .negSucc 3), (10273446418663, .ofNat 4), (10294931528209, .ofNat 4), (10661189194309, .negSucc 3), (10808817414413, .ofNat 4), (10811489590457, .ofNat 2), (13673159865751, .negSucc 3), (13722414918803, .ofNat 4), (14159603083651, .ofNat 4), (17636483240599, .ofNat 2), (17699263983701, .negSucc 1), (29768025862349, .ofNat 4), (30827068134449, .negSucc 3), (31184000355491, .negSucc 0), (31253938450393, .ofNat 4), (42078184100983, .ofNat 4), (42413652806813, .negSucc 3), (43237055673199, .negSucc 3), (43581763493189, .ofNat 4), (57752461407419, .negSucc 3), (58798255219787, .negSucc 3), (3809164222605359, .ofNat 2), (3961866275313781, .ofNat 2), (5280663072218441, .ofNat 2)] 1)) .nil)) (.node (.node (.leaf (.adef 29879 [(36109, .ofNat 1), (2959039, .negSucc 0), (1261259201, .negSucc 0), (1546037041, .ofNat 1), (2480264159, .negSucc 0), (3054206539, .ofNat 1), (5271826829, .ofNat 1), (5451716201, .ofNat 1), (7726058059, .ofNat 1), (673760711399, .ofNat 1), (693574102751, .ofNat 1), (1129918630979, .ofNat 1)] 0)) .nil) (.node (.leaf (.adef 7883 [(42703, .ofNat 1), (502985503, .ofNat 1), (740076739, .ofNat 1), (876084323, .ofNat 1), (1222425811, .ofNat 1), (2168058799, .ofNat 1), (2204978161, .ofNat 1), (2535376667, .ofNat 1), (2642465093, .ofNat 1), (2833917343, .ofNat 1), (3595118831, .ofNat 1)] 0)) .nil)))

def jac209 : JTree := .node (.node (.node (.node (.node (.node (.leaf (.trans [(67519, .ofNat 1), (98431, .ofNat 1)] 0)) (.leaf (.adef 27073 [(11720011, .negSucc 0), (13799251, .ofNat 1), (18976537, .ofNat 1), (20599757, .negSucc 0)] 0))) (.node (.leaf (.adef 37097 [(11108717, .ofNat 1), (14148461, .ofNat 1)] 0)) .nil)) (.node (.node (.leaf (.adef 14867 [(584123, .ofNat 1), (21403523, .negSucc 0)] 0)) .nil) (.node (.leaf (.adef 40169 [(11819579, .ofNat 1), (15039527, .ofNat 1)] 0)) .nil))) (.node (.node (.node (.leaf (.atom 1237)) (.leaf (.mult 10399 4624 (.negSucc 0) 0))) (.node (.leaf (.adef 31153 [(19634093, .ofNat 1), (21071153, .negSucc 0), (22106299, .negSucc 0), (22165639, .ofNat 1)] 0)) .nil)) (.node (.node (.leaf (.adef 2969 [(291698239, .ofNat 1), (355962173, .ofNat 1), (374495989, .ofNat 1), (507720689, .negSucc 0), (59136062881, .negSucc 0), (68907873041, .negSucc 0), (71004343151, .ofNat 1), (109180156477, .ofNat 1), (542973198271, .negSucc 0), (760398050783, .negSucc 0), (997352314679, .ofNat 1), (94916106275179, .ofNat 1), (114199156252783, .negSucc 0)] 0)) .nil) (.node (.leaf (.adef 20333 [(4949969, .ofNat 1), (18238567, .negSucc 0), (26577899, .negSucc 0), (69045593, .negSucc 0), (1890067519, .ofNat 1), (550230551503, .ofNat 1)] 0)) .nil)))) jac208) (.node (.node (.node (.node (.node (.leaf (.atom 1283)) (.leaf (.adef 33857 [(2027671, .ofNat 1), (4728209, .negSucc 0)] 0))) (.node (.leaf (.adef 24247 [(25145119, .ofNat 1), (28737199, .negSucc 0), (30778183, .ofNat 1), (37525729, .negSucc 0)] 0)) .nil)) (.node (.node (.leaf (.adef 8287 [(4177109, .negSucc 0), (61148119, .negSucc 0)] 0)) (.leaf (.trans [(1, .ofNat 1)] 0))) (.node (.leaf (.adef 40787 [(27477311, .negSucc 0), (1706370037, .ofNat 1), (1707558271, .ofNat 1), (2477910989, .negSucc 0), (2479636487, .negSucc 0)] 0)) .nil))) (.node (.node (.node (.leaf (.atom 4451)) (.leaf (.adef 45659 [(34186739, .ofNat 4), (625844029, .negSucc 3), (476462484367, .negSucc 1), (1306388732021, .ofNat 2)] 1))) (.node (.leaf (.adef 38867 [(11576171, .ofNat 1), (14726069, .ofNat 1)] 0)) .nil)) (.node (.node (.leaf (.adef 8293 [(8587673, .negSucc 0), (11494429, .negSucc 0), (11606887, .ofNat 1), (14073277, .ofNat 1), (15286511, .ofNat 1), (17295097, .ofNat 1)] 0)) .nil) (.node (.leaf (.adef 33113 [(37763389, .ofNat 1), (986331343, .negSucc 0), (1076575327, .ofNat 1), (113438748743, .negSucc 0), (123717028139, .ofNat 1), (452383309457, .negSucc 0), (493773935873, .ofNat 1)] 0)) .nil)))) (.node (.node (.node (.node (.leaf (.atom 7129)) (.leaf (.adef 27791 [(277046669, .negSucc 0), (302394941, .ofNat 1)] 0))) (.node (.leaf (.adef 30949 [(878557, .ofNat 1), (1490707, .ofNat 1), (1566781, .negSucc 0), (2099567, .negSucc 0), (2860189, .negSucc 0), (93770819, .negSucc 0), (98544851, .negSucc 0), (152042887, .ofNat 1)] 0)) .nil)) (.node (.node (.leaf (.adef 15427 [(13998683, .ofNat 1), (335937001, .negSucc 0), (1017458369, .ofNat 1), (1477505593, .negSucc 0), (10139530787, .negSucc 0), (14781678563, .negSucc 0), (53983863383, .negSucc 0), (74080006571, .ofNat 1), (1629385995421, .negSucc 0), (2235944552377, .ofNat 1), (2375362385629, .negSucc 0), (3259619636473, .ofNat 1)] 0)) .nil) (.node (.leaf (.adef 41513 [(14583931, .ofNat 1), (16598999, .negSucc 0), (26406539, .negSucc 0)] 0)) .nil))) (.node (.node (.node (.leaf (.atom 6143)) (.leaf (.adef 47389 [(896812813, .negSucc 0), (958715407, .negSucc 0), (1002461213, .ofNat 1)] 0))) (.node (.leaf (.adef 39983 [(12416581, .negSucc 0), (12526669, .ofNat 1), (12567589, .negSucc 0)] 0)) .nil)) (.node (.node (.leaf (.adef 17971 [(294144431, .ofNat 1), (362073509, .ofNat 1), (379869973, .ofNat 1), (453396293, .ofNat 1), (508936771, .negSucc 0), (557358823, .negSucc 0), (60657660931, .negSucc 0), (72654948359, .ofNat 1), (92451132781, .negSucc 0), (111831750373, .ofNat 1), (542020385431, .negSucc 0), (763553266819, .negSucc 0), (988330680757, .ofNat 1), (95259784554739, .ofNat 1), (115229182449787, .negSucc 0)] 0)) .nil) (.node (.leaf (.adef 33577 [(2560111, .ofNat 1), (3100033, .ofNat 1), (3843811, .ofNat 1), (330952121, .negSucc 0), (408450299, .negSucc 0)] 0)) .nil)))))

def jac210 : JTree := .node (.node (.node (.node (.node (.node (.leaf (.trans [(188339, .negSucc 0), (205571, .ofNat 1)] 0)) (.leaf (.adef 21143 [(43991, .ofNat 1), (91579783, .ofNat 1), (91697171, .negSucc 0), (93573373, .ofNat 1), (120664361, .ofNat 1)] 0))) (.node (.leaf (.adef 8543 [(7196419, .negSucc 0), (8620531, .negSucc 0), (11549183, .negSucc 0), (11639801, .ofNat 1), (13851701, .negSucc 0), (15186649, .negSucc 0)] 0)) .nil)) (.node (.node (.leaf (.adef 7243 [(167950154419, .ofNat 1), (508201538231, .negSucc 0)] 0)) (.leaf (.trans [(1249, .negSucc 0)] 0))) (.node (.leaf (.adef 40471 [(756910709, .ofNat 1), (5428431003403, .negSucc 0)] 0)) .nil))) (.node (.node (.node (.leaf (.atom 48487)) (.leaf (.adef 11519 [(1022867, .ofNat 1), (5611559, .negSucc 0), (291506161, .negSucc 0), (304033981, .ofNat 1), (347557409, .negSucc 0), (360622253, .ofNat 1), (1831543687, .ofNat 1), (1880108719, .negSucc 0), (1905293057, .negSucc 0), (1955864753, .ofNat 1), (2276721479, .ofNat 1), (2359197133, .negSucc 0), (3010123661, .ofNat 1)] 0))) (.node (.leaf (.mult 7759 2646 (.negSucc 0) 0)) .nil)) (.node (.node (.leaf (.adef 35753 [(10576079, .ofNat 1), (37972133, .ofNat 1)] 0)) .nil) (.node (.leaf (.adef 42227 [(46991729, .negSucc 0), (47330557, .negSucc 0), (47505707, .ofNat 1), (64747211, .ofNat 1), (65111603, .negSucc 0)] 0)) .nil)))) (.node (.node (.node (.node (.leaf (.atom 47977)) (.leaf (.adef 34231 [(134391, .ofNat 2), (690249303, .negSucc 0)] 0))) (.node (.leaf (.adef 37951 [(10828981, .negSucc 0), (10833217, .ofNat 1), (27412673, .ofNat 1), (27502109, .negSucc 0), (29260337, .ofNat 1), (29268133, .ofNat 1), (33126397, .ofNat 1), (33157379, .ofNat 1), (33253399, .negSucc 0), (33261131, .ofNat 1), (37155221, .negSucc 0), (863880571, .negSucc 0), (864556481, .negSucc 0), (881929681, .negSucc 0), (882344479, .negSucc 0), (1196595563, .negSucc 0), (1197531793, .negSucc 0), (1226368681, .ofNat 1), (1226945479, .ofNat 1), (1594477751, .negSucc 0), (1594903949, .ofNat 1), (1625966203, .ofNat 1), (1627814567, .ofNat 1), (1661710109, .ofNat 1), (1662520337, .ofNat 1), (2361152291, .negSucc 0), (2363836399, .negSucc 0), (2422485341, .ofNat 1), (2423666513, .ofNat 1)] 0)) .nil)) (.node (.node (.leaf (.adef 13339 [(87861, .ofNat 2), (236991717, .negSucc 0)] 0)) .nil) (.node (.leaf (.mult 7853 3414 (.negSucc 0) 0)) .nil))) (.node (.node (.node (.leaf (.atom 10711)) (.leaf (.adef 35221 [(21841343, .negSucc 0), (22026497, .ofNat 1), (23069671, .ofNat 1), (23429467, .negSucc 0)] 0))) (.node (.leaf (.adef 39671 [(2117839, .negSucc 0), (2869421, .negSucc 0), (3358781, .ofNat 1), (4467629, .ofNat 1), (5163281, .negSucc 0)] 0)) .nil)) (.node (.node (.leaf (.adef 36341 [(8298643, .ofNat 1), (13082599, .negSucc 0), (13089163, .negSucc 0), (16760209, .ofNat 1), (16761611, .ofNat 1), (920659279, .ofNat 1), (212831355311, .negSucc 0), (218403340501, .ofNat 1)] 0)) .nil) (.node (.leaf (.adef 33391 [(128697, .ofNat 2), (691196949, .negSucc 0)] 0)) .nil))))) (.node (.node (.node (.node (.node (.leaf (.atom 16787)) (.leaf (.adef 21397 [(224825137, .ofNat 1), (336739607, .ofNat 1)] 0))) (.node (.leaf (.adef 9781 [(2126777, .ofNat 1), (139195313, .negSucc 0), (153020113, .ofNat 1)] 0)) .nil)) (.node (.node (.leaf (.adef 29153 [(53645121, .ofNat 2), (57384759, .negSucc 3), (62208963, .ofNat 1), (2218606821, .ofNat 2), (3234344229, .ofNat 2), (91572414111, .negSucc 1)] 0)) (.leaf (.trans [(46451, .negSucc 0)] 0))) (.node (.leaf (.adef 32411 [(19973719, .ofNat 1), (21432469, .negSucc 0), (22103993, .negSucc 0), (22325951, .ofNat 1)] 0)) .nil))) (.node (.node (.node (.leaf (.atom 17107)) (.leaf (.adef 22111 [(10657001, .ofNat 1), (1585572383, .ofNat 1), (4568524487, .negSucc 0)] 0))) (.node (.leaf (.adef 39107 [(507889763, .ofNat 2), (1351221947, .negSucc 3), (1821128839, .ofNat 1), (572062125073, .ofNat 2)] 1)) .nil)) (.node (.node (.leaf (.adef 17761 [(12711883, .negSucc 0), (13648927, .negSucc 0), (63440959, .ofNat 1), (12673394579, .ofNat 1), (414639769021, .negSucc 0), (423866923223, .negSucc 0)] 0)) .nil) (.node (.leaf (.adef 33223 [(4264801, .ofNat 1), (8347951, .ofNat 1)] 0)) .nil)))) (.node (.node (.node (.node (.leaf (.atom 1789)) (.leaf (.adef 27893 [(9244723, .negSucc 0), (8307670037, .ofNat 1)] 0))) (.node (.leaf (.adef 7723 [(1180457, .ofNat 1), (1194451, .ofNat 1)] 0)) .nil)) (.node (.node (.leaf (.adef 29453 [(3467029, .ofNat 1), (50807609, .negSucc 0)] 0)) .nil) (.node (.leaf (.adef 26339 [(41651, .ofNat 1), (78297467, .negSucc 0), (1316164301, .ofNat 1), (1357515763, .negSucc 0)] 0)) .nil))) (.node (.node (.node (.leaf (.atom 1979)) (.leaf (.atom 499))) (.node (.leaf (.adef 19559 [(2137939, .negSucc 0), (3632017, .ofNat 1), (2785939311557, .negSucc 0), (2920723569293, .negSucc 0)] 0)) .nil)) (.node (.node (.leaf (.adef 30313 [(19340131, .ofNat 1), (20817451, .negSucc 0), (20887591, .negSucc 0), (21066083, .ofNat 1)] 0)) .nil) (.node (.leaf (.adef 14387 [(43633, .ofNat 1), (9201553, .ofNat 1), (11290793, .ofNat 1), (11754917, .ofNat 1), (14785787, .negSucc 0), (17699573, .negSucc 0), (19845379, .ofNat 1), (23469577, .negSucc 0), (25711897, .ofNat 1), (30462461, .ofNat 1), (43739959, .negSucc 0)] 0)) .nil)))))

def jac211 : JTree := .node (.node (.node (.node (.node (.leaf (.atom 47533)) (.leaf (.adef 43913 [(30345461, .negSucc 0), (6697117109, .ofNat 1), (8529955867, .negSucc 0)] 0))) (.node (.leaf (.adef 13627 [(8620531, .negSucc 0), (9580801, .negSucc 0), (11639801, .ofNat 1), (13851701, .negSucc 0), (15186649, .negSucc 0), (18163903, .negSucc 0)] 0)) .nil)) (.node (.node (.leaf (.adef 17191 [(649159183, .ofNat 2), (8684472241, .ofNat 4), (12611185577, .negSucc 3)] 1)) .nil) (.node (.leaf (.adef 19751 [(40283, .ofNat 1), (10602869, .ofNat 1), (11262389, .ofNat 1), (13354787, .ofNat 1), (14293571, .negSucc 0), (18076141, .negSucc 0), (26350447, .ofNat 1), (68889487, .ofNat 1)] 0)) .nil))) (.node (.node (.node (.leaf (.atom 12659)) (.leaf (.adef 9467 [(15725693, .ofNat 1), (581296567, .ofNat 1), (1209442177, .negSucc 0), (4768021523, .negSucc 0)] 0))) (.node (.leaf (.adef 15881 [(4951147, .ofNat 2), (6625799, .ofNat 2), (26778421, .ofNat 2), (27951061, .negSucc 1), (80821121, .negSucc 1), (308070121, .ofNat 2), (691744541, .ofNat 2)] 0)) .nil)) (.node (.node (.leaf (.adef 23339 [(139216027, .ofNat 1), (139504229, .negSucc 0), (236270137, .ofNat 1), (10918216171, .negSucc 0), (11039530189, .ofNat 1)] 0)) .nil) (.node (.leaf (.adef 16273 [(35184671, .negSucc 0), (35613701, .ofNat 1), (36041939, .ofNat 1), (36165527, .negSucc 0)] 0)) .nil)))) (.node (.node (.node (.node (.leaf (.atom 16823)) (.leaf (.adef 27697 [(3817311343, .ofNat 4), (3877366687, .negSucc 3), (4054474939, .negSucc 3), (4135185979, .negSucc 3), (275171089811, .negSucc 3), (287740205567, .negSucc 3), (695861205307, .ofNat 2), (802752615859, .negSucc 1), (43630912542257, .ofNat 4), (47264140014821, .negSucc 3), (47584153514861, .negSucc 3), (51546574737233, .ofNat 4), (119523026423677, .ofNat 2), (121723792844989, .ofNat 2), (130352580464521, .negSucc 1), (132752750461897, .negSucc 1)] 1))) (.node (.leaf (.adef 30757 [(113097, .ofNat 8), (682141041, .negSucc 3), (736340733, .negSucc 3), (29697756273, .negSucc 3), (1351113651369, .ofNat 6)] 1)) .nil)) (.node (.node (.leaf (.adef 2917 [(66013, .ofNat 1), (19149841, .negSucc 0)] 0)) (.leaf (.trans [] 0))) (.node (.leaf (.adef 16189 [(53541053, .ofNat 1), (19919784473, .negSucc 0), (32845019903, .negSucc 0)] 0)) .nil))) (.node (.node (.node (.leaf (.atom 10091)) (.leaf (.adef 46523 [(731832803, .negSucc 0), (732238273, .ofNat 1), (781625897, .negSucc 0), (782318329, .ofNat 1), (820933087, .ofNat 1), (821296151, .negSucc 0), (1102124413, .ofNat 1), (1179100507, .negSucc 0), (1192858043, .ofNat 1), (1196279773, .negSucc 0), (1201425641, .ofNat 1), (7020842840947, .ofNat 1), (7601095636433, .ofNat 1), (7946823026909, .negSucc 0), (10726734211999, .negSucc 0)] 0))) (.node (.leaf (.adef 39499 [(2043871, .ofNat 1), (2258353, .negSucc 0), (2482927, .ofNat 1), (2807681, .ofNat 1), (4993477, .negSucc 0), (7271857, .negSucc 0), (100745731, .ofNat 1), (331661567, .negSucc 0), (455126579, .ofNat 1), (604930831, .negSucc 1)] 0)) .nil)) (.node (.node (.leaf (.adef 23869 [(27377953, .ofNat 1), (28564553, .negSucc 0), (91004317, .negSucc 0)] 0)) .nil) (.node (.leaf (.adef 5381 [(27723, .ofNat 2), (51986313, .negSucc 0)] 0)) .nil))))

def jac212 : JTree := .node (.leaf (.adef 31271 [(8637703, .ofNat 1), (8647987, .ofNat 1), (8665127, .ofNat 1), (8683981, .ofNat 1), (10900333, .ofNat 1), (12616507, .ofNat 1), (13581901, .negSucc 1), (13585577, .negSucc 1), (13626013, .negSucc 1), (13629689, .negSucc 1), (19970051, .ofNat 1), (23575907, .ofNat 1), (24565753, .ofNat 1), (24940723, .ofNat 1), (25740277, .ofNat 1), (25901851, .ofNat 1), (25917239, .ofNat 1), (26189869, .ofNat 1), (30850231, .ofNat 1), (30981143, .ofNat 1), (30997507, .ofNat 1), (32537213, .ofNat 1), (34522331, .ofNat 1), (34561613, .ofNat 1), (37398037, .ofNat 1), (37409051, .ofNat 1), (44551571, .negSucc 0), (51619957, .ofNat 1), (53354479, .ofNat 1), (601036537, .ofNat 1), (623215007, .ofNat 1), (1338739729, .negSucc 0), (1388139719, .negSucc 0), (1684254427, .ofNat 1), (1851533627, .negSucc 0), (1920752879, .ofNat 1), (1978853111, .ofNat 1), (2040620033, .ofNat 1), (2192675363, .negSucc 0), (2263002871, .negSucc 0), (2331448481, .negSucc 0), (2407257499, .negSucc 0), (2459498303, .ofNat 1), (2498739953, .negSucc 0), (2544763409, .ofNat 1), (2556630449, .ofNat 1), (3141995951, .ofNat 1), (3753931411, .ofNat 1), (3942763553, .negSucc 0), (4073549377, .negSucc 0), (4569974869, .ofNat 1), (5023392769, .ofNat 2), (5076718663, .ofNat 2), (5080460831, .ofNat 2), (6628676969, .negSucc 0), (7051187113, .ofNat 1), (7803500219, .ofNat 1), (8236079833, .ofNat 1), (8314837733, .ofNat 1), (8393888291, .ofNat 1), (8546833777, .ofNat 1), (8721399839, .negSucc 0), (9316085627, .ofNat 1), (9959962613, .ofNat 1), (10160156519, .ofNat 1), (10549510703, .negSucc 1), (10608124523, .negSucc 1), (12310851629, .ofNat 1), (12676184567, .ofNat 1), (13485337259, .ofNat 1), (14354647441, .ofNat 1), (14825770697, .ofNat 1), (16672254857, .ofNat 1), (16693872749, .ofNat 1), (18484114339, .ofNat 1), (32892470987, .negSucc 0), (39406850579, .ofNat 1), (46681092467, .ofNat 1), (193226949283, .ofNat 1), (243309696767, .ofNat 1), (244614184457, .ofNat 2), (245877344183, .ofNat 1), (246641640779, .negSucc 0), (253640538127, .ofNat 2), (266391389447, .ofNat 1), (272716370099, .ofNat 1), (283650577741, .ofNat 1), (294468889699, .ofNat 1), (301657912117, .ofNat 1), (310118641579, .ofNat 1), (313586056249, .ofNat 1), (321306524843, .negSucc 0), (325825553021, .ofNat 1), (340411206461, .ofNat 1), (348528691187, .ofNat 1), (348840595841, .negSucc 0), (351893326739, .negSucc 0), (358624678367, .negSucc 0), (376290353137, .ofNat 1), (427061900341, .ofNat 1), (431184681877, .negSucc 0), (486816827447, .ofNat 2), (490428877657, .negSucc 0), (504345673541, .ofNat 2), (611519033561, .ofNat 1), (639445432853, .negSucc 0), (672254759161, .negSucc 0), (1004691947093, .negSucc 0), (1096615827077, .ofNat 1), (1383583779223, .ofNat 1), (1521000540023, .negSucc 0), (1874788178863, .ofNat 1), (2060991083663, .negSucc 0), (2947228755299, .negSucc 0), (3671937704783, .ofNat 2), (3865345719541, .negSucc 0), (4199220485197, .negSucc 1), (30957480220747, .ofNat 1), (32076440692819, .ofNat 1), (32099822664317, .ofNat 1), (33260073190709, .ofNat 1), (39392760934847, .ofNat 1), (40816615268519, .ofNat 1), (271892338177331, .ofNat 1), (298896531894931, .negSucc 0), (356591894558629, .ofNat 1), (392008400457029, .negSucc 0)] 0)) .nil

def jac213 : JTree := .node (.node (.node (.node (.node (.leaf (.atom 1993)) (.leaf (.adef 21341 [(29354243, .ofNat 1), (29856209, .negSucc 0), (32726107, .negSucc 0), (10185789571, .ofNat 1)] 0))) (.node (.leaf (.adef 18451 [(37603427, .ofNat 1), (38639663, .negSucc 0), (46171627, .ofNat 1), (16120123949, .negSucc 0)] 0)) .nil)) (.node (.node (.leaf (.adef 15149 [(4057, .ofNat 1), (536257, .negSucc 0), (61175173, .negSucc 0)] 0)) (.leaf (.trans [] 0))) (.node (.leaf (.adef 19889 [(119076091, .negSucc 0), (187644943, .ofNat 1), (232412717, .ofNat 1), (5976067003, .ofNat 1), (6042560099, .ofNat 1), (8816224853, .ofNat 1), (8914319149, .ofNat 1), (11136298367, .ofNat 1), (11264615639, .ofNat 1), (15735587501, .negSucc 0), (15910670533, .negSucc 0), (16452575383, .ofNat 1), (17518052653, .ofNat 1), (25837810697, .ofNat 1), (33662476777, .ofNat 1), (46155816137, .negSucc 0), (83385106837, .ofNat 1), (84350021603, .ofNat 1), (178276684667, .ofNat 1), (192977628317, .ofNat 1), (1149393236317, .ofNat 1), (1572580384511, .ofNat 1), (1590274356491, .ofNat 1), (2930969667979, .ofNat 1), (3088068872059, .negSucc 0), (4237063093673, .ofNat 1), (4284736634813, .ofNat 1), (4983454267529, .ofNat 1), (16125600896099, .ofNat 1)] 0)) .nil))) (.node (.node (.node .nil (.leaf (.adef 34729 [(57120451, .ofNat 4), (5435133259, .negSucc 1), (284621358887, .negSucc 3), (751314837509, .negSucc 1), (1044742008509, .ofNat 2)] 1))) jac212) (.node (.node (.leaf (.adef 29759 [(19203139, .ofNat 1), (20754893, .negSucc 0), (21150131, .negSucc 0), (21215429, .ofNat 1)] 0)) .nil) (.node (.leaf (.adef 26573 [(5704411, .negSucc 0), (7468963, .negSucc 0)] 0)) .nil)))) (.node (.node (.node (.node (.leaf (.atom 8053)) (.leaf (.adef 14621 [(27817, .ofNat 1), (442980143, .negSucc 0), (1010361427, .ofNat 1), (2960334911, .ofNat 1), (123873722927, .ofNat 1), (133536134423, .ofNat 1), (323790186373, .ofNat 1), (346656609841, .ofNat 1), (429728042021, .ofNat 1), (559955621717, .ofNat 1)] 0))) (.node (.leaf (.adef 38449 [(2814209, .ofNat 1), (2818082229491, .ofNat 1), (4092287588827, .negSucc 0)] 0)) .nil)) (.node (.node (.leaf (.adef 3793 [(290629171, .negSucc 0), (21513146591251, .negSucc 0), (3106287856568701, .negSucc 0), (4510806359634197, .ofNat 1), (319660720881327469, .ofNat 1), (88653294644310492061, .ofNat 1), (106960418768816338243, .ofNat 1)] 0)) .nil) (.node (.leaf (.adef 41609 [(23654051591, .ofNat 1), (27978166031, .ofNat 1)] 0)) .nil))) (.node (.node (.node (.leaf (.atom 3931)) (.leaf (.atom 439))) (.node (.leaf (.adef 31907 [(21291617, .negSucc 0), (21449243, .ofNat 1), (22543187, .ofNat 1), (22580867, .negSucc 0)] 0)) .nil)) (.node (.node (.leaf (.adef 13523 [(36749, .ofNat 1), (7114637, .negSucc 0), (10924513, .negSucc 0), (14291489, .negSucc 0), (19381757, .ofNat 1), (20370547, .ofNat 1), (22252393, .negSucc 0), (26450051, .negSucc 0), (43332383, .negSucc 0)] 0)) .nil) (.node (.leaf (.adef 33601 [(2563259, .ofNat 1), (3110363, .ofNat 1), (3834679, .negSucc 0), (333059537, .ofNat 1), (411051203, .ofNat 1)] 0)) .nil))))

def jac214 : JTree := .node (.node (.node (.node (.leaf (.atom 47837)) (.leaf (.adef 27431 [(10659073, .ofNat 1), (10734523, .ofNat 1), (16014857, .ofNat 1), (20262373, .negSucc 0), (21242071, .ofNat 1), (22687363, .ofNat 1), (23263393, .ofNat 1), (25505147, .ofNat 1), (29739569, .ofNat 1), (31759313, .ofNat 1), (33099089, .ofNat 1), (40768303, .ofNat 1), (44257979, .ofNat 1), (45200641, .ofNat 1), (55241831, .ofNat 1), (601947097, .ofNat 1), (624159167, .ofNat 1), (863958569, .negSucc 0), (895838959, .negSucc 0), (1778477879, .ofNat 1), (1832429101, .ofNat 1), (1844104369, .ofNat 1), (1870276147, .ofNat 1), (2016067373, .negSucc 0), (2034813527, .ofNat 1), (2076179459, .negSucc 0), (2525555783, .ofNat 1), (3210106381, .ofNat 1), (3329721583, .ofNat 1), (3346937353, .ofNat 1), (3638949247, .negSucc 0), (3748757213, .negSucc 0), (6305935729, .ofNat 1), (6901302593, .ofNat 1), (7063337009, .ofNat 1), (7364382257, .ofNat 1), (7925050201, .ofNat 1), (8326783709, .ofNat 1), (8496921529, .ofNat 1), (9054605597, .negSucc 0), (9388313887, .ofNat 1), (10055747879, .ofNat 1), (10803691033, .ofNat 1), (10860351079, .ofNat 1), (10991689991, .ofNat 1), (12177044851, .ofNat 1), (13187645509, .ofNat 1), (13426197683, .ofNat 1), (13454625803, .ofNat 1), (14910879149, .ofNat 1), (16690860971, .ofNat 1), (20252600009, .ofNat 1), (21597137279, .negSucc 0), (21860135651, .negSucc 0), (22805400757, .ofNat 1), (25678965769, .ofNat 1), (33374927137, .ofNat 1), (37867009727, .ofNat 1), (40805737673, .ofNat 1), (264996394183, .ofNat 1), (275145781577, .ofNat 1), (277289958509, .ofNat 1), (282803058137, .ofNat 1), (285514707013, .ofNat 1), (293509270027, .ofNat 1), (321298770449, .negSucc 0), (327686856557, .negSucc 0), (328557641837, .ofNat 1), (334462580273, .ofNat 1), (347172491333, .ofNat 1), (356546020141, .ofNat 1), (363909531353, .ofNat 1), (369982530329, .ofNat 1), (414292629661, .negSucc 0), (430036162081, .negSucc 0)] 0))) (.node (.leaf (.adef 18503 [(102616649, .ofNat 1), (109667347, .ofNat 1)] 0)) .nil)) (.node (.node (.leaf (.adef 35509 [(782124881, .negSucc 3), (817850357, .negSucc 3), (911703031, .ofNat 4), (987622243, .negSucc 3), (252646650461, .ofNat 2), (321629400923, .negSucc 1), (42703571577703, .ofNat 2), (45653305428233, .negSucc 1), (47992258359769, .ofNat 2), (51307306347959, .negSucc 1)] 1)) .nil) (.node (.leaf (.adef 8951 [(41221, .ofNat 1), (8630969, .ofNat 1), (10662293, .ofNat 1), (11795473, .negSucc 0), (14879719, .ofNat 1), (17529433, .ofNat 1), (20027009, .negSucc 0), (21865933, .negSucc 0), (23976187, .ofNat 1), (28434451, .ofNat 1), (44529791, .ofNat 1)] 0)) .nil))) (.node (.node (.node (.leaf (.atom 12907)) (.leaf (.adef 34841 [(19582721, .ofNat 1), (20753921, .negSucc 0), (21735323, .ofNat 1), (21989321, .negSucc 0)] 0))) (.node (.leaf (.adef 39191 [(3050699, .ofNat 1), (4804301, .ofNat 1), (6597169, .ofNat 1), (155657657, .negSucc 0)] 0)) .nil)) (.node (.node (.leaf (.adef 23747 [(5532379, .ofNat 1), (5874919, .ofNat 1), (515068769, .negSucc 0), (550646959, .ofNat 1)] 0)) .nil) (.node (.leaf (.adef 14293 [(7097927, .ofNat 1), (14796427, .ofNat 1), (3121933459, .ofNat 1), (4485489241, .ofNat 1), (6070460281, .negSucc 1)] 0)) .nil)))

def jac215 : JTree := .node (.node (.node (.node (.node (.node (.leaf (.atom 563)) (.leaf (.adef 44123 [(27691903, .ofNat 2), (27811127, .ofNat 2), (3167996707, .ofNat 1), (4826588477, .negSucc 0), (5206330861, .negSucc 0), (8231934989, .ofNat 1), (1165106613061, .ofNat 1), (1248419521879, .negSucc 1), (1285070212999, .ofNat 1), (1340805909013, .negSucc 0)] 0))) (.node (.leaf (.adef 30509 [(6178199, .ofNat 1), (722833513, .negSucc 0)] 0)) .nil)) (.node (.node (.leaf (.adef 29021 [(38059321, .ofNat 4), (46333471, .negSucc 1)] 1)) (.leaf (.trans [] 0))) (.node (.leaf (.adef 40559 [(52385643, .ofNat 1), (116240139, .ofNat 2), (135688173, .ofNat 2), (150999867, .ofNat 1), (261503096409, .negSucc 1)] 0)) .nil))) (.node (.node (.node (.leaf (.atom 22483)) (.leaf (.adef 28229 [(151447, .negSucc 0), (151751, .ofNat 1), (9083231, .ofNat 1), (8975368189, .ofNat 1)] 0))) (.node (.leaf (.adef 19181 [(6811817, .ofNat 1), (8685757, .ofNat 1), (8736517, .ofNat 1), (11592131, .ofNat 1), (2554987249, .ofNat 1), (2635670659, .ofNat 1)] 0)) .nil)) (.node (.node (.leaf (.adef 35869 [(68407663, .ofNat 1), (76402861, .ofNat 1), (101672203, .negSucc 0), (103284791, .negSucc 0)] 0)) .nil) (.node (.leaf (.adef 16339 [(35472991, .ofNat 1), (35595163, .negSucc 0), (36128401, .ofNat 1), (36137173, .negSucc 0)] 0)) .nil)))) (.node (.node (.node (.node (.leaf (.atom 2753)) (.leaf (.adef 34283 [(33279083, .ofNat 1), (891220933, .ofNat 1), (3392682203, .negSucc 0), (1059920695313, .ofNat 1)] 0))) (.node (.leaf (.adef 38083 [(360761, .ofNat 1), (459061, .ofNat 1), (2430053, .negSucc 0), (2578283, .negSucc 0), (136396651, .ofNat 1), (173561951, .ofNat 1), (3144610649029, .ofNat 1), (4001452787729, .ofNat 1), (4566456931613, .negSucc 0), (5810723125513, .negSucc 0)] 0)) .nil)) (.node (.node (.leaf (.mult 811 1340 (.negSucc 0) 0)) .nil) (.node (.leaf (.adef 20183 [(4512581, .ofNat 1), (9061211, .ofNat 1), (9115531, .ofNat 1), (12103283, .ofNat 1), (2072773123, .ofNat 1), (2750955611, .ofNat 1)] 0)) .nil))) (.node (.node (.node (.leaf (.atom 48731)) (.leaf (.adef 47123 [(46318177, .negSucc 0), (50081917, .ofNat 1), (50585167, .negSucc 0), (103561517, .negSucc 0), (103690309, .ofNat 1), (105037397, .negSucc 0)] 0))) (.node (.leaf (.adef 39841 [(2524099, .ofNat 1), (125155441, .ofNat 1), (159257741, .ofNat 1)] 0)) .nil)) (.node (.node (.leaf (.adef 30097 [(109407, .ofNat 2), (678887541, .negSucc 0)] 0)) .nil) (.node (.leaf (.adef 43049 [(1083735421, .ofNat 4), (1108729499, .negSucc 3), (2496869663, .ofNat 4), (2551853167, .negSucc 3), (113840344523, .ofNat 2), (152148657841, .negSucc 3), (155893788697, .ofNat 4), (307445571647, .negSucc 3), (314382939697, .negSucc 3), (18495030060979, .ofNat 4), (18561655017887, .negSucc 3), (19153018560079, .negSucc 3), (31500184691039, .ofNat 2)] 1)) .nil))))) (.node jac214 (.node (.node (.node (.node (.leaf (.atom 10499)) (.leaf (.adef 11969 [(7292176747, .ofNat 1), (7644973603, .ofNat 1)] 0))) (.node (.leaf (.adef 18787 [(5459147, .negSucc 0), (9048119, .negSucc 0), (10521943, .negSucc 0), (16982773, .negSucc 0), (28045489, .ofNat 1), (30256241, .ofNat 1)] 0)) .nil)) (.node (.node (.leaf (.adef 2927 [(290571169, .negSucc 0), (373048879, .negSucc 0), (506453143, .ofNat 1), (90838859699, .ofNat 1), (109293580823, .negSucc 0), (535435930169, .ofNat 1), (749842605337, .ofNat 1), (983507594881, .negSucc 0), (93598530854381, .negSucc 0), (112613903683337, .ofNat 1)] 0)) .nil) (.node (.leaf (.adef 41801 [(506864909, .negSucc 3), (518981431, .ofNat 4), (1098556523, .negSucc 3), (1123342117, .negSucc 3), (1521654619, .negSucc 3), (1562065117, .ofNat 4), (2328674839, .ofNat 4), (4985334139, .ofNat 4), (5046971911, .ofNat 4), (6434013269, .negSucc 3), (11712642163, .ofNat 4), (19028112463, .negSucc 3), (20913289933, .ofNat 4), (36581698067, .negSucc 3), (37033987583, .negSucc 3), (37088254219, .ofNat 4), (39030648341, .ofNat 2), (49361587963, .negSucc 3), (49539404039, .ofNat 4), (51117700663, .ofNat 4), (113085074897, .ofNat 1), (132331799839, .negSucc 0), (137270006707, .negSucc 3), (140252019737, .negSucc 3), (150335431693, .negSucc 3), (153530846429, .negSucc 3), (163022668453, .negSucc 3), (164858439953, .ofNat 1), (164877497017, .ofNat 4), (205073730049, .negSucc 3), (210072303977, .ofNat 4), (218310102821, .ofNat 4), (223821365021, .negSucc 3), (323621278051, .negSucc 3), (336594631409, .negSucc 3), (1095805350593, .ofNat 2), (10247486983619, .negSucc 3), (10284401677807, .ofNat 4), (10612056738719, .ofNat 4), (11322477540137, .negSucc 1), (14363959955119, .negSucc 1), (17644125327781, .negSucc 1), (17784793277591, .ofNat 2), (18300787092611, .ofNat 2), (19973826716119, .ofNat 2)] 1)) .nil))) (.node (.node (.node (.leaf (.atom 11743)) .nil) (.node (.leaf (.adef 12409 [(4005593, .ofNat 1), (8862727, .ofNat 1), (8920789, .ofNat 1), (11842151, .ofNat 1), (2059619767, .ofNat 1), (2690578273, .ofNat 1)] 0)) .nil)) (.node (.node (.leaf (.adef 37049 [(11826553, .ofNat 1), (11885483, .negSucc 0), (11889601, .negSucc 0)] 0)) .nil) (.node (.leaf (.adef 43777 [(1211929, .negSucc 0), (13948093909, .negSucc 0), (17769106937, .ofNat 1)] 0)) .nil)))))

def jac216 : JTree := .node (.node (.node (.node (.node (.leaf (.atom 1559)) (.leaf (.adef 9871 [(71189, .negSucc 0), (29762827, .ofNat 1)] 0))) (.node (.leaf (.adef 18341 [(2653379, .ofNat 1), (2714923, .negSucc 0), (114579743, .negSucc 0), (133634089, .negSucc 0), (150175931, .negSucc 0), (167037407, .negSucc 0), (185825089, .ofNat 1), (266369449, .negSucc 0), (342793963, .ofNat 1), (370400449, .ofNat 1), (499734187, .ofNat 1), (919828957, .negSucc 0), (2027068721, .negSucc 0), (15276053339, .ofNat 1)] 0)) .nil)) (.node (.node (.leaf (.adef 3833 [(289512299, .ofNat 1), (528830143, .negSucc 0), (541336319, .negSucc 0), (749826607, .negSucc 0), (767942471, .ofNat 1), (11615053363, .ofNat 1), (16866838811, .negSucc 0)] 0)) (.leaf (.trans [(757, .ofNat 1)] 0))) (.node (.leaf (.adef 32261 [(96753, .ofNat 2), (140096529, .negSucc 1), (157059333, .negSucc 0), (416499381, .negSucc 0), (270609004467, .ofNat 2)] 0)) .nil))) (.node (.node (.node (.leaf (.atom 22511)) (.leaf (.adef 28283 [(1392436499, .negSucc 3), (1995285169, .ofNat 2)] 1))) (.node (.leaf (.adef 8747 [(1318649, .ofNat 1), (1450387, .ofNat 1), (1566011, .negSucc 0), (372256793, .negSucc 0)] 0)) .nil)) (.node (.node (.leaf (.adef 23581 [(967999414807, .ofNat 1)] 0)) .nil) (.node (.leaf (.adef 42461 [(818761073, .negSucc 0), (818921701, .ofNat 1), (880155653, .negSucc 0), (880500829, .ofNat 1), (919944181, .ofNat 1), (920845601, .negSucc 0), (1048785413, .negSucc 0), (1082823703, .negSucc 0), (1083080323, .ofNat 1), (1094175329, .ofNat 1), (1239112979, .ofNat 1), (7034793251837, .ofNat 1), (7667066096183, .ofNat 1), (7984672127653, .negSucc 0), (10815321729823, .negSucc 0)] 0)) .nil)))) (.node (.node (.node (.node (.leaf (.atom 28547)) (.leaf (.adef 21569 [(421771919851, .ofNat 1)] 0))) (.node (.leaf (.adef 38167 [(11921821, .ofNat 2), (13561979, .ofNat 2), (26842901, .ofNat 1), (26963471, .ofNat 1), (30274109, .ofNat 1), (30394739, .ofNat 1), (33783887, .ofNat 1), (37139537, .ofNat 1), (933991453, .ofNat 1), (1266145333, .ofNat 1), (1270945859, .ofNat 1), (1293487607, .ofNat 1), (1780288919, .ofNat 1), (3797003543, .ofNat 1), (3970048867, .ofNat 1), (144507191789, .ofNat 1), (195183747601, .ofNat 1), (510783301739, .negSucc 0), (546065474629, .ofNat 1), (50522879765879, .ofNat 1), (51519695461603, .ofNat 1)] 0)) .nil)) (.node (.node (.leaf (.adef 17491 [(387487, .ofNat 4), (780196007, .ofNat 2)] 1)) .nil) (.node (.leaf (.adef 20219 [(39545039, .ofNat 1), (40593379, .negSucc 0), (49263133, .ofNat 1), (16952468993, .negSucc 0)] 0)) .nil))) (.node (.node (.node (.leaf (.atom 5437)) (.leaf (.adef 47269 [(848827733, .negSucc 0), (849152317, .ofNat 1), (906721517, .negSucc 0), (907067941, .ofNat 1), (953362033, .ofNat 1), (953543981, .negSucc 0), (1197311141, .negSucc 0), (1211581813, .ofNat 1), (1214854667, .negSucc 0), (1220540581, .ofNat 1), (1279484323, .ofNat 1), (7117959594083, .ofNat 1), (7705927295677, .ofNat 1), (8070036667771, .negSucc 0), (10896017205541, .negSucc 0)] 0))) (.node (.leaf (.adef 31847 [(52755210371, .ofNat 1), (55307517179, .ofNat 1)] 0)) .nil)) (.node (.node (.leaf (.adef 30133 [(109581, .ofNat 2), (683458533, .negSucc 0)] 0)) .nil) (.node (.leaf (.adef 26947 [(43151, .ofNat 1), (11745259, .ofNat 1), (13044509, .negSucc 0), (13876861, .ofNat 1), (17491613, .ofNat 1), (18369121, .ofNat 1), (26703877, .negSucc 0), (68896853, .negSucc 0)] 0)) .nil))))

def jac217 : JTree := .node (.node (.node (.node (.node (.node (.leaf (.atom 9907)) (.leaf (.adef 21067 [(6620365337, .ofNat 1), (6920732089, .ofNat 1), (7846065341, .ofNat 1), (9280731631, .ofNat 1), (1708233091051, .negSucc 0), (1839109550353, .ofNat 1), (28292415282706667, .ofNat 1), (34917574925146673, .ofNat 1), (36805596992713331, .ofNat 1), (50506923665793047, .negSucc 0)] 0))) (.node (.leaf (.adef 18233 [(37159, .ofNat 1), (10440929, .negSucc 0), (10483127, .ofNat 1), (12429919, .ofNat 1), (14162149, .negSucc 0), (15650147, .ofNat 1), (17002637, .negSucc 0), (18711893, .ofNat 1), (26137481, .negSucc 0), (35723201, .ofNat 1), (68616731, .negSucc 0)] 0)) .nil)) (.node (.node (.leaf (.adef 22721 [(17914797, .negSucc 0), (53207991, .negSucc 1), (63886149, .ofNat 1), (93499421607, .ofNat 2)] 0)) .nil) (.node (.leaf (.adef 32077 [(54454577, .ofNat 1), (93798017, .negSucc 0), (123426803, .ofNat 1), (13265998961, .negSucc 0)] 0)) .nil))) (.node (.node (.node (.leaf (.atom 12703)) (.leaf (.adef 16729 [(4151171, .ofNat 1), (304143180569, .ofNat 1)] 0))) (.node (.leaf (.adef 31223 [(6185521, .ofNat 1), (6604931, .ofNat 1), (14595247185913, .negSucc 0), (15301367936737, .negSucc 0), (15598073541539, .negSucc 0), (16352711216411, .negSucc 0)] 0)) .nil)) (.node (.node (.leaf (.adef 2383 [(17786551, .ofNat 1), (21331757, .ofNat 1), (50762687, .negSucc 0)] 0)) .nil) (.node (.leaf (.adef 42157 [(5491169, .ofNat 1), (6674303, .negSucc 0), (10578221, .negSucc 0), (152487967883, .ofNat 1), (188195669777, .ofNat 1), (198371564819, .ofNat 1), (272217768503, .negSucc 0)] 0)) .nil)))) (.node (.node (.node (.node (.leaf (.atom 10453)) (.leaf (.adef 44701 [(52740099, .ofNat 1), (93662841, .ofNat 2), (117152073, .ofNat 2), (160030881, .ofNat 1), (263272499937, .negSucc 1)] 0))) (.node (.leaf (.adef 30809 [(113397, .ofNat 8), (499601169, .negSucc 3), (685575117, .negSucc 3), (737257761, .negSucc 3), (1357915510053, .ofNat 6)] 1)) .nil)) (.node (.node (.leaf (.adef 15313 [(222157070687, .ofNat 2), (253091872303, .negSucc 1), (282669492773, .negSucc 1), (284290134157, .negSucc 1), (16927007477647, .negSucc 3), (19174117991527, .negSucc 3)] 1)) (.leaf (.trans [(47491, .ofNat 1)] 0))) (.node (.leaf (.adef 32563 [(6216901, .ofNat 1), (6745757, .negSucc 0)] 0)) .nil))) (.node (.node (.node (.leaf (.atom 10099)) (.leaf (.adef 46619 [(45332167, .negSucc 0), (49987339, .ofNat 1), (50005643, .negSucc 0), (63012559, .ofNat 1), (63577733, .negSucc 0)] 0))) (.node (.leaf (.adef 39551 [(13908991, .ofNat 1), (18803777, .negSucc 0), (26325457, .negSucc 0), (4116687151, .negSucc 1)] 0)) .nil)) (.node (.node (.leaf (.adef 23887 [(6274391, .negSucc 0), (8048749, .negSucc 0), (270448949, .negSucc 0), (9909831149, .ofNat 1)] 0)) .nil) (.node (.leaf (.adef 26863 [(7480633, .ofNat 4), (2704771033, .ofNat 2)] 1)) .nil))))) (.node (.node (.node (.node (.node (.leaf (.atom 4219)) (.leaf (.adef 21377 [(10459, .ofNat 1), (2768333, .ofNat 1), (9472753, .ofNat 1), (9537821, .ofNat 1), (12657031, .ofNat 1), (827987821, .ofNat 1), (2878021507, .ofNat 1)] 0))) (.node (.leaf (.adef 37357 [(1187987, .ofNat 1), (13174566563, .ofNat 1)] 0)) .nil)) (.node (.node (.leaf (.adef 29063 [(52381467, .ofNat 2), (61974513, .ofNat 1), (89415352197, .negSucc 1)] 0)) (.leaf (.trans [(37061, .negSucc 0)] 0))) (.node (.leaf (.adef 19891 [(40949, .ofNat 1), (78986189, .ofNat 1), (79391843, .ofNat 1), (79503583, .negSucc 0), (84861289, .ofNat 1), (84951973, .negSucc 0), (86718833, .ofNat 1), (103737223, .ofNat 1), (107961037, .ofNat 1), (113417279, .ofNat 1), (115745171, .ofNat 1)] 0)) .nil))) (.node (.node (.node (.leaf (.atom 28687)) (.leaf (.adef 45869 [(12207799, .negSucc 0), (12209917, .ofNat 1), (27746077, .ofNat 1), (38411281, .negSucc 0), (1869422147, .ofNat 1), (1871402537, .ofNat 1), (1911260333, .ofNat 1), (1911395371, .ofNat 1), (2714687659, .negSucc 0), (2717563489, .negSucc 0), (2786286317, .ofNat 1), (2786483179, .ofNat 1), (157723002517, .ofNat 1)] 0))) (.node (.leaf (.adef 39041 [(22464865729, .negSucc 0), (26822228539, .ofNat 1), (35222045239, .negSucc 0), (8583003485713, .ofNat 1), (106755692410153, .negSucc 0), (119086870796819, .ofNat 1), (310512002551313, .ofNat 1), (346378744719499, .negSucc 0), (4802217555934047761, .ofNat 1), (5279171095794093361, .negSucc 0), (5356913984732350603, .negSucc 0), (5888959661127559403, .ofNat 1)] 0)) .nil)) (.node (.node (.leaf (.adef 8353 [(3515249, .ofNat 1), (5402443, .ofNat 1), (5437769, .negSucc 1), (6414011, .ofNat 1)] 0)) .nil) (.node (.leaf (.adef 42557 [(11464793719, .ofNat 1)] 0)) .nil)))) (.node (.node (.node (.node (.leaf (.atom 3433)) (.leaf (.adef 45127 [(139638358697, .ofNat 1), (177686957797, .ofNat 1)] 0))) (.node (.leaf (.adef 38543 [(38501, .ofNat 1), (10990387, .ofNat 1), (13039699, .ofNat 1), (18601949, .negSucc 0), (20929351, .negSucc 0), (22183853, .negSucc 0), (22880597, .ofNat 1), (26066473, .negSucc 0), (30035449, .ofNat 1), (68532623, .negSucc 0), (1734737283941, .ofNat 1)] 0)) .nil)) (.node (.node (.leaf (.adef 15473 [(7973059, .negSucc 0), (9533347, .ofNat 1), (22647403, .ofNat 1)] 0)) .nil) (.node (.leaf (.adef 41621 [(9044881, .ofNat 1), (14365861, .negSucc 0), (18408961, .ofNat 1), (28806949, .negSucc 0), (35580211, .ofNat 1), (147092929, .ofNat 1), (349994017, .negSucc 0), (350696561, .ofNat 1), (855826997, .ofNat 1), (857544901, .negSucc 0), (945025013, .negSucc 0), (965975503, .negSucc 0)] 0)) .nil))) (.node (.node (.node (.leaf (.atom 5449)) (.leaf (.atom 1409))) (.node (.leaf (.adef 16033 [(15220311943, .ofNat 1), (16731984743, .negSucc 0), (16923358489, .ofNat 1), (29254336471, .negSucc 0)] 0)) .nil)) (.node (.node (.leaf (.adef 24071 [(1478317, .negSucc 0), (281846143, .ofNat 1), (309838943, .negSucc 0)] 0)) .nil) (.node (.leaf (.adef 43543 [(85841527, .ofNat 1), (62032990399, .ofNat 1)] 0)) .nil)))))

def jac218 : JTree := .node (.node (.node (.node (.leaf (.atom 449)) (.leaf (.adef 9349 [(15194089, .ofNat 1), (15282361, .ofNat 1), (4606454291, .ofNat 1)] 0))) (.node (.leaf (.adef 13597 [(317268643, .negSucc 0), (328975973, .negSucc 0), (346188137, .negSucc 0), (358962607, .negSucc 0), (626323547, .ofNat 1), (649435117, .ofNat 1), (1725370211, .negSucc 0), (1864406591, .ofNat 1), (2522463109, .ofNat 1), (4708904033, .ofNat 1), (4719792503, .ofNat 1), (4858198403, .ofNat 1), (5163844597, .ofNat 1), (5402193239, .ofNat 1), (5826973651, .negSucc 0), (5945917801, .ofNat 1), (10752034213, .negSucc 0), (11148788243, .negSucc 0), (45984280891, .negSucc 0), (170779663891, .ofNat 1), (171122470403, .negSucc 0), (174552208661, .ofNat 1), (174902587813, .negSucc 0), (3685252145213, .negSucc 0), (3821239309243, .negSucc 0), (4733389878907, .negSucc 0), (4952978651561, .negSucc 0), (5051454142373, .negSucc 0), (5868726709673, .negSucc 0), (6303605584723, .negSucc 0), (6536210956853, .negSucc 0), (7145713591201, .ofNat 1), (7358773807183, .ofNat 1), (18037302751199, .negSucc 0), (20327965176821, .ofNat 1), (20820837866033, .negSucc 0), (1251976316710279, .ofNat 1), (1370513616667973, .negSucc 0), (1397762270571089, .negSucc 0), (1552271635703981, .ofNat 1), (1815735510703991, .negSucc 0), (2365406202844247, .negSucc 0), (2636726429515327, .ofNat 1), (3434932574051359, .ofNat 1), (284837121864066197, .ofNat 1), (295347716766799267, .ofNat 1), (298579879622927869, .ofNat 1), (309597587358091259, .ofNat 1), (362449416649915297, .ofNat 1), (379936795051518569, .ofNat 1), (413627184630470509, .negSucc 0), (428890180373292299, .negSucc 0), (433583776536947093, .negSucc 0), (449583177885173923, .negSucc 0), (526332139570653209, .negSucc 0), (551726494939384993, .negSucc 0)] 0)) .nil)) (.node (.node (.leaf (.adef 9677 [(810127, .ofNat 1), (42440837, .ofNat 1), (46656037, .negSucc 0)] 0)) .nil) (.node (.leaf (.adef 16067 [(40231, .ofNat 1), (2977613, .negSucc 0), (756655243, .ofNat 1), (924547801, .ofNat 1), (2301185591, .ofNat 1), (2824470851, .ofNat 1), (3150830981, .ofNat 1), (4181721637, .ofNat 1), (5448977749, .ofNat 1), (373775453113, .negSucc 0), (514234349737, .negSucc 0), (643497074999, .negSucc 0)] 0)) .nil))) (.node (.node (.node (.leaf (.atom 1481)) (.leaf (.adef 28019 [(3182593, .ofNat 1), (28369633, .ofNat 1), (32435329, .negSucc 0), (35927867, .negSucc 0), (1071353281, .negSucc 0), (1144754599, .ofNat 1)] 0))) (.node (.leaf (.adef 13781 [(38729, .ofNat 1), (8170277, .negSucc 0), (10191053, .ofNat 1), (12103549, .ofNat 1), (14624587, .ofNat 1), (17466587, .negSucc 0), (19628431, .negSucc 0), (21623837, .ofNat 1), (23472457, .negSucc 0), (27989419, .ofNat 1), (43982129, .negSucc 0)] 0)) .nil)) (.node (.node (.leaf (.adef 23311 [(11400041, .ofNat 1), (17967427, .negSucc 0), (18169729, .ofNat 1), (49034071, .ofNat 1), (49083901, .negSucc 0), (57713651, .ofNat 1)] 0)) .nil) (.node (.leaf (.adef 41981 [(5044331, .negSucc 0), (5770223, .negSucc 0), (7451827, .negSucc 0), (10026937, .ofNat 1)] 0)) .nil)))

def jac219 : JTree := .node (.node (.node (.leaf (.atom 7541)) (.leaf (.adef 46381 [(845564057, .negSucc 0), (845887393, .ofNat 1), (904543861, .negSucc 0), (904889453, .ofNat 1), (945188023, .ofNat 1), (945368411, .negSucc 0), (1174991701, .negSucc 0), (1188805501, .ofNat 1), (1192111999, .negSucc 0), (1197292681, .ofNat 1), (1274574769, .ofNat 1), (7090591598207, .ofNat 1), (7687420115141, .ofNat 1), (8000845155901, .negSucc 0), (10854207717223, .negSucc 0)] 0))) (.node (.leaf (.adef 39409 [(9970451, .ofNat 1), (10002163, .ofNat 1), (19211867, .ofNat 1), (19271713, .ofNat 1), (27130253, .ofNat 1), (27301319, .ofNat 1), (28882153, .ofNat 1), (30661843, .ofNat 1), (30792371, .ofNat 1), (34166257, .ofNat 1), (37216789, .ofNat 1), (51078347, .ofNat 1), (51573283, .ofNat 1), (58817929, .negSucc 0), (58890137, .negSucc 0), (80973197, .ofNat 1), (93372413, .ofNat 1), (279295039, .ofNat 1), (289601129, .ofNat 1), (1035345343, .ofNat 1), (1107108809, .ofNat 1), (1116517019, .ofNat 1), (1273280221, .ofNat 1), (1508595097, .ofNat 1), (1786921061, .negSucc 1), (1797867679, .ofNat 1), (1923650033, .ofNat 1), (2012079737, .negSucc 1), (2067804737, .ofNat 1), (3539536219, .ofNat 1), (3840411277, .ofNat 1), (4009249547, .ofNat 1), (4690683791, .ofNat 1), (5085870211, .ofNat 1), (5908370609, .ofNat 1), (6151980929, .ofNat 1), (6364585033, .ofNat 1), (6576190703, .ofNat 1), (6613349671, .ofNat 1), (7775312191, .ofNat 1), (79736566583, .ofNat 1), (87024576629, .ofNat 1), (96209781203, .ofNat 1), (101463151483, .ofNat 1), (101892260429, .ofNat 1), (101901954367, .ofNat 1), (106212674177, .negSucc 1), (107093005619, .ofNat 1), (110131961047, .negSucc 1), (110736995329, .ofNat 1), (116816291717, .ofNat 1), (121126855987, .ofNat 1), (123789135809, .ofNat 1), (125335001651, .ofNat 1), (139512863123, .ofNat 1), (140177099299, .ofNat 1), (144108706813, .ofNat 1), (153873204071, .ofNat 1), (153890507893, .ofNat 1), (156845170627, .ofNat 1), (158185327067, .ofNat 1), (160188669359, .ofNat 1), (173061451331, .ofNat 1), (173735835253, .negSucc 1), (177972379303, .negSucc 1), (191329351999, .ofNat 1), (196283632537, .ofNat 1), (197466018083, .ofNat 1), (205281851497, .ofNat 1), (225453047563, .negSucc 0), (228206134447, .ofNat 1), (231049678397, .ofNat 1), (236360507587, .negSucc 0), (242227904453, .ofNat 1), (507976385221, .ofNat 2), (513019084931, .negSucc 0), (548455693741, .ofNat 1), (1100943225749, .negSucc 1), (1126368379337, .ofNat 1), (1168727809241, .negSucc 1), (1239507611821, .ofNat 1), (1431682496381, .ofNat 1), (1635680036857, .negSucc 0), (4008287519657, .negSucc 1), (13017955473073, .ofNat 1), (13498322833703, .ofNat 1), (14742781533583, .ofNat 1), (15286795612313, .ofNat 1), (16565082304973, .ofNat 1), (18759888218483, .ofNat 1), (148892233877279, .ofNat 2), (236482818591653, .negSucc 1), (276742719716077, .negSucc 1)] 0)) .nil)) (.node (.node (.leaf (.adef 5059 [(23773, .ofNat 1), (288303907, .negSucc 0), (459270377, .negSucc 0), (561918619, .negSucc 0), (983086583, .negSucc 0), (1003016921, .negSucc 0), (1296684023, .negSucc 0), (1659483431, .negSucc 0), (3118015969, .negSucc 0), (4608267241, .negSucc 0), (8383001929, .negSucc 0)] 0)) .nil) (.node (.leaf (.adef 42743 [(21604239919, .ofNat 1), (22649457031, .ofNat 1)] 0)) .nil))

def jac220 : JTree := .node (.node (.node (.node (.node (.leaf (.atom 1289)) (.leaf (.mult 7069 4260 (.negSucc 0) 0))) (.node (.leaf (.adef 24337 [(5707783, .ofNat 1), (6061603, .ofNat 1), (516365627, .negSucc 0), (552033397, .ofNat 1), (774078689, .ofNat 1), (823448891, .negSucc 0)] 0)) .nil)) (.node (.node (.leaf (.adef 3041 [(1486717, .negSucc 0), (46570389149, .ofNat 2), (67627347253, .negSucc 1), (1958767375837, .negSucc 1), (2713167108461, .negSucc 1), (2844430633589, .ofNat 2), (3939934742917, .ofNat 2)] 0)) (.leaf (.trans [] 0))) (.node (.leaf (.adef 19861 [(293586643, .negSucc 0), (371722309, .negSucc 0), (378920339, .ofNat 1), (497411327, .negSucc 0), (611758399, .ofNat 1), (105358707167, .ofNat 1), (126248086853, .negSucc 0), (548067238369, .negSucc 0), (770472791333, .negSucc 0), (997115197603, .ofNat 1), (152141123834567, .ofNat 1), (184034610180911, .negSucc 0), (2813788306799029, .negSucc 0), (3403645386085357, .ofNat 1)] 0)) .nil))) (.node (.node (.node (.leaf (.adef 16987 [(330989, .negSucc 0), (370807, .ofNat 1), (944033, .ofNat 1), (980879, .negSucc 0)] 0)) (.leaf (.adef 34649 [(137073, .ofNat 2), (691408737, .negSucc 0)] 0))) (.node (.leaf (.adef 9829 [(24479605559, .ofNat 1), (25663933391, .ofNat 1), (27415956167, .ofNat 1), (28742345183, .ofNat 1)] 0)) .nil)) (.node (.node (.leaf (.adef 13451 [(8550121, .negSucc 0), (11597483, .ofNat 1), (13804283, .ofNat 1), (15139643, .ofNat 1), (17155139, .negSucc 0)] 0)) .nil) (.node (.leaf (.adef 9161 [(8869313, .negSucc 0), (10939067, .ofNat 1), (11809073, .ofNat 1)] 0)) .nil)))) (.node (.node (.node (.node (.leaf (.atom 48313)) (.leaf (.adef 12577 [(699708386683, .ofNat 1)] 0))) (.node (.leaf (.adef 38317 [(44140037, .negSucc 0), (44470289, .negSucc 0), (44627707, .ofNat 1), (61368719, .ofNat 1), (61757347, .negSucc 0)] 0)) .nil)) (.node (.node (.leaf (.adef 15443 [(786104437, .negSucc 3), (822011689, .negSucc 3), (918964259, .ofNat 4), (995488127, .negSucc 3), (247110169993, .ofNat 2), (314419460947, .negSucc 1), (42444319574623, .ofNat 2), (46290047601379, .negSucc 1), (47676368254237, .ofNat 2), (51996153503401, .negSucc 1)] 1)) .nil) (.node (.leaf (.adef 7867 [(41521, .ofNat 1), (454746181, .ofNat 1), (727427479, .ofNat 1), (828444167, .ofNat 1), (1222019299, .ofNat 1), (1783548097, .ofNat 1), (1807438991, .ofNat 1), (2238030979, .ofNat 1), (2653074979, .ofNat 1), (2839072771, .ofNat 1), (3628692469, .ofNat 1), (90970822667, .ofNat 1), (99253390969, .ofNat 1), (115758512767, .ofNat 1), (126297911669, .ofNat 1), (168066261431, .ofNat 1), (183368093917, .ofNat 1), (25766107986937, .ofNat 1), (32786845858037, .ofNat 1), (47602223592541, .ofNat 1)] 0)) .nil))) (.node (.node (.node (.leaf (.atom 6197)) (.leaf (.atom 49037))) (.node (.leaf (.adef 19469 [(17145113, .negSucc 0), (68971157, .ofNat 1)] 0)) .nil)) (.node (.node (.leaf (.adef 36643 [(1472281, .ofNat 1), (1803161, .ofNat 1)] 0)) .nil) (.node (.leaf (.adef 43319 [(37722703, .ofNat 1), (1131940891, .negSucc 0), (1210129301, .ofNat 1), (125622568787, .negSucc 0), (137004780551, .ofNat 1), (519167488709, .negSucc 0), (555028796299, .ofNat 1)] 0)) .nil))))

def jac221 : JTree := .node (.node (.node (.node .nil (.leaf (.adef 44041 [(3136697, .negSucc 0), (11665957, .ofNat 1), (12794291, .negSucc 0)] 0))) (.node (.leaf (.adef 4729 [(450059, .ofNat 1), (450559, .ofNat 2), (795607, .ofNat 1), (2169053, .ofNat 1), (26401937, .ofNat 1)] 0)) .nil)) (.node (.node (.leaf (.adef 983 [(23834207, .negSucc 0), (26201407, .ofNat 1), (34746143, .negSucc 0), (36434407, .negSucc 0), (6828615389, .ofNat 1), (7158985061, .ofNat 1)] 0)) (.leaf (.trans [(1129, .ofNat 1)] 0))) (.node (.leaf (.adef 25819 [(5667257, .ofNat 4), (2365874039, .ofNat 2)] 1)) .nil))) (.node (.node (.node (.leaf (.atom 12823)) (.leaf (.adef 28163 [(10973951, .ofNat 1), (11037329, .ofNat 1), (16106801, .ofNat 1), (20618179, .negSucc 0), (21363967, .ofNat 1), (23338817, .ofNat 1), (23933267, .ofNat 1), (26235263, .ofNat 1), (30568729, .ofNat 1), (32682697, .ofNat 1), (33999829, .ofNat 1), (41913539, .ofNat 1), (45524207, .ofNat 1), (46538909, .ofNat 1), (56758027, .ofNat 1), (604850591, .ofNat 1), (627169801, .ofNat 1), (865965053, .negSucc 0), (897919483, .negSucc 0), (1780717423, .ofNat 1), (1840750969, .ofNat 1), (1846426553, .ofNat 1), (1884421687, .ofNat 1), (2018606101, .negSucc 0), (2047340773, .ofNat 1), (2078793883, .negSucc 0), (2541623363, .ofNat 1), (3224663417, .ofNat 1), (3345976871, .ofNat 1), (3351676619, .ofNat 1), (3655450979, .negSucc 0), (3767058181, .negSucc 0), (6342088243, .ofNat 1), (6940930457, .ofNat 1), (7097891641, .ofNat 1), (7389896429, .ofNat 1), (7946313017, .ofNat 1), (8381749757, .ofNat 1), (8557659713, .ofNat 1), (9097334663, .negSucc 0), (9449273299, .ofNat 1), (10113435161, .ofNat 1), (10854674107, .ofNat 1), (10897977163, .ofNat 1), (11300199791, .ofNat 1), (12254745871, .ofNat 1), (13263251503, .ofNat 1), (13529497411, .ofNat 1), (13552639021, .ofNat 1), (14996419091, .ofNat 1), (16797364391, .ofNat 1), (20281277707, .ofNat 1), (21655082143, .negSucc 0), (21988948909, .negSucc 0), (22960721141, .ofNat 1), (25853857097, .ofNat 1), (34363907189, .ofNat 1), (38117077343, .ofNat 1), (41938190141, .ofNat 1), (266274605249, .ofNat 1), (276395339813, .ofNat 1), (278627467627, .ofNat 1), (284167159711, .ofNat 1), (287674152673, .ofNat 1), (294190924999, .ofNat 1), (322044964613, .negSucc 0), (328447886609, .negSucc 0), (330142440811, .ofNat 1), (336521685427, .ofNat 1), (349381201913, .ofNat 1), (358165252729, .ofNat 1), (364754686061, .ofNat 1), (372780835109, .ofNat 1), (416843205239, .negSucc 0), (432772051141, .negSucc 0)] 0))) (.node (.leaf (.adef 15889 [(2480531, .ofNat 1), (2940661, .ofNat 1), (153863251, .ofNat 1), (195698561, .ofNat 1), (260825897, .negSucc 0), (352509167, .negSucc 0), (380238953, .negSucc 0), (490182167, .ofNat 1), (32460645341, .negSucc 0), (36111685507, .ofNat 1)] 0)) .nil)) (.node (.node (.leaf (.adef 23509 [(23590223, .ofNat 1), (37228409, .negSucc 0), (37557347, .ofNat 1), (268042087, .ofNat 1), (268383293, .negSucc 0), (289587383, .ofNat 1), (386883559, .negSucc 0), (389359631, .ofNat 1), (512360869, .ofNat 1), (4798405736077, .negSucc 0), (4942958325307, .ofNat 1)] 0)) .nil) (.node (.leaf (.adef 42323 [(3479041, .ofNat 1), (55941444283, .ofNat 1)] 0)) .nil)))

def jac222 : JTree := .node (.node (.node (.node (.node (.leaf (.atom 47699)) (.leaf (.adef 14543 [(44351, .ofNat 1), (44357, .ofNat 1), (5782943, .ofNat 1), (6880669, .ofNat 1), (1508144999, .ofNat 1), (1595871253, .ofNat 1), (1607986781, .ofNat 1), (1655451821, .ofNat 1), (1710085231, .ofNat 1), (1773737003, .ofNat 1), (2235653003, .ofNat 1), (2322460243, .ofNat 1), (7806886049, .ofNat 1), (7878229511, .ofNat 1), (11278036823, .ofNat 1), (13086057407, .ofNat 1), (411890085337, .ofNat 1), (435849037739, .ofNat 1), (469620228419, .ofNat 1), (496937245993, .ofNat 1), (610580087989, .ofNat 1), (634288048109, .ofNat 1), (696158442743, .ofNat 1), (723189289183, .ofNat 1)] 0))) (.node (.leaf (.adef 8627 [(3146291, .ofNat 1), (4003591, .ofNat 1), (583761307, .negSucc 0), (859656013, .negSucc 0), (1015821493, .negSucc 0), (1223874247, .negSucc 0), (1253986171, .negSucc 0), (1256578621, .ofNat 1), (1492798997, .negSucc 0), (1622887691, .negSucc 0), (1916062339, .negSucc 0), (2046120341, .negSucc 0), (2381783363, .negSucc 0), (2872518037, .negSucc 0), (3073900213, .negSucc 0), (3149029217, .negSucc 0), (3928831507, .negSucc 0), (161725926779, .negSucc 0), (178202418733, .negSucc 0), (3627622949165623, .negSucc 0), (5267864867980031, .ofNat 1)] 0)) .nil)) (.node (.node (.leaf (.adef 10937 [(1531879, .ofNat 1), (4801241, .ofNat 1), (4803457, .negSucc 0), (8286503, .negSucc 0), (8293067, .negSucc 0), (10611037, .ofNat 1), (10612439, .ofNat 1), (354128711, .negSucc 0), (363399901, .ofNat 1)] 0)) (.leaf (.trans [(46829, .negSucc 0)] 0))) (.node (.leaf (.adef 41161 [(2811059, .negSucc 0), (6617461, .negSucc 0), (334352897, .ofNat 1), (458819789, .negSucc 0)] 0)) .nil))) (.node (.node (.node (.leaf (.atom 28771)) (.leaf (.adef 28439 [(21394441, .ofNat 1), (21401213, .ofNat 1), (23457649, .ofNat 1), (23459771, .ofNat 1), (45772487, .ofNat 1), (3045514559, .ofNat 1), (6369104939, .ofNat 1), (7126275803, .ofNat 1), (8416103537, .ofNat 1), (8592700973, .ofNat 1), (38247320893, .ofNat 1)] 0))) (.node (.leaf (.adef 31337 [(6684217, .negSucc 0), (6975271, .negSucc 0)] 0)) .nil)) (.node (.node (.leaf (.adef 6217 [(397261, .ofNat 1), (1834093, .ofNat 1)] 0)) .nil) (.node (.leaf (.adef 12491 [(124842503, .negSucc 0), (125225491, .ofNat 1), (52379164073, .ofNat 1), (144752391139, .negSucc 0)] 0)) .nil)))) (.node (.node (.node (.node (.leaf (.atom 1049)) (.leaf (.adef 21727 [(4180013, .negSucc 0), (128483587, .ofNat 1), (136333481, .ofNat 1), (341383079, .ofNat 1), (352754747, .negSucc 0)] 0))) (.node (.leaf (.adef 10259 [(4754069, .negSucc 0), (5805727, .ofNat 1)] 0)) .nil)) (.node (.node (.leaf (.adef 23167 [(21611039, .negSucc 0), (84024011, .negSucc 0), (127678339, .ofNat 1), (141610967, .ofNat 1), (150311089427, .ofNat 1), (177488343089, .ofNat 1)] 0)) .nil) (.node (.leaf (.adef 26399 [(7381471, .negSucc 0), (8836631, .ofNat 1)] 0)) .nil))) (.node (.node (.node (.leaf (.atom 2909)) (.leaf (.atom 463))) (.node (.leaf (.adef 19603 [(16534423, .ofNat 2), (372379333, .negSucc 1), (540751901, .ofNat 2), (24740476877, .negSucc 1)] 0)) .nil)) (.node (.node (.leaf (.adef 30323 [(2881037, .negSucc 0), (3190223, .negSucc 0), (3754013, .ofNat 1), (99136361, .ofNat 1), (122350859, .ofNat 1), (319888187, .negSucc 0), (394795553, .negSucc 0)] 0)) .nil) (.node (.leaf (.adef 43717 [(13076779, .negSucc 0), (13265281, .ofNat 1), (13952203, .ofNat 1), (14203087, .negSucc 0)] 0)) .nil))))

def jac223 : JTree := .node (.node (.node (.node (.node (.node (.node (.node (.leaf (.atom 523)) (.leaf (.adef 21011 [(5721167, .negSucc 0), (16258729, .ofNat 1), (33452191, .negSucc 1)] 0))) (.node (.leaf (.adef 7321 [(4283761, .ofNat 1), (314659699, .negSucc 0)] 0)) .nil)) (.node (.node (.leaf (.atom 49009)) .nil) (.node (.leaf (.adef 40129 [(6594323, .ofNat 1), (8160797, .negSucc 0), (14038217, .ofNat 1)] 0)) .nil))) (.node (.node (.node (.leaf (.atom 4421)) (.leaf (.adef 27983 [(13621104097, .negSucc 0), (15194455931, .ofNat 1)] 0))) (.node (.leaf (.adef 18899 [(19454881, .negSucc 0), (68809879, .negSucc 0), (1782527221, .negSucc 0)] 0)) .nil)) (.node (.node (.leaf (.adef 1447 [(4918037, .negSucc 0), (5910791, .ofNat 1), (13557223, .negSucc 0)] 0)) .nil) (.node (.leaf (.adef 41863 [(3213359, .ofNat 2), (4091413, .negSucc 1), (5842751, .ofNat 2), (6798361, .ofNat 2), (7406911, .ofNat 2), (500788423, .ofNat 2), (730062727, .ofNat 2), (26304549067, .negSucc 1)] 0)) .nil)))) (.node (.node (.node (.node (.leaf (.atom 5417)) (.leaf (.adef 27481 [(55594177, .negSucc 0), (62015771, .ofNat 1)] 0))) (.node (.leaf (.adef 24517 [(6436399, .negSucc 0), (8241353, .negSucc 0), (9826633753, .negSucc 0), (2599133611741, .ofNat 1)] 0)) .nil)) (.node (.node (.leaf (.adef 17387 [(376223, .negSucc 0), (386899, .ofNat 2)] 0)) .nil) (.node (.leaf (.adef 19949 [(5571101, .negSucc 0), (8488147, .negSucc 0), (10692523, .negSucc 0), (30499801, .ofNat 1)] 0)) .nil))) (.node (.node (.node (.leaf (.atom 12967)) (.leaf (.adef 46181 [(22777961, .negSucc 0), (22825417, .negSucc 0), (23025439, .ofNat 1), (25148857, .ofNat 1), (25619563, .negSucc 0)] 0))) (.node (.leaf (.adef 31489 [(290019, .negSucc 3), (875319, .ofNat 4), (4897881, .negSucc 1), (26483139, .negSucc 1), (140466519, .ofNat 2), (153280989, .ofNat 1), (249996897, .ofNat 1), (255983499, .ofNat 1), (3245384853, .negSucc 1), (52509109167, .ofNat 3), (275737376097, .negSucc 1), (323937559287, .negSucc 1), (365932906281, .negSucc 1), (373502903517, .negSucc 0), (432027601857, .negSucc 0), (546714797777541, .ofNat 4)] 0)) .nil)) (.node (.node (.leaf (.adef 8387 [(1614887, .ofNat 1), (2443489, .ofNat 1)] 0)) .nil) (.node (.leaf (.adef 42667 [(23503759, .negSucc 0), (26269921, .negSucc 0)] 0)) .nil))))) jac216) jac217) (.node (.node (.node jac218 (.node (.node (.node (.node (.leaf (.atom 11551)) (.leaf (.adef 27581 [(247384408549, .negSucc 3), (258684299353, .negSucc 3), (260167425377, .negSucc 3), (281832052181, .ofNat 4), (625593382013, .ofNat 2), (712705653997, .negSucc 1), (721690934981, .negSucc 1), (725828637229, .negSucc 1), (1119454164947, .ofNat 4), (1136151725713, .negSucc 3), (1188048247861, .negSucc 3), (1212673201391, .negSucc 3)] 1))) (.node (.leaf (.adef 24677 [(7191809, .ofNat 4), (586634303, .ofNat 2), (2344666411, .ofNat 1), (5070497023, .ofNat 2)] 1)) .nil)) (.node (.node (.leaf (.adef 6551 [(1272923, .ofNat 2), (1356769, .ofNat 1)] 0)) (.leaf (.trans [] 0))) (.node (.leaf (.adef 32503 [(8682643, .ofNat 1), (8710259, .ofNat 1), (25651511, .ofNat 1), (25813253, .ofNat 1), (31037693, .ofNat 1), (31169821, .ofNat 1), (34417441, .ofNat 1), (37379101, .ofNat 1), (1078915517, .ofNat 2), (1098742129, .ofNat 2), (1334768443, .ofNat 1), (1581146873, .ofNat 1), (1713128903, .ofNat 1), (1829543603, .ofNat 1), (3087427571, .ofNat 1), (3483830323, .ofNat 1), (3599905811, .ofNat 1), (28310989787, .ofNat 2), (33538424233, .negSucc 1), (34479090871, .negSucc 1), (36177513881, .ofNat 2), (69437595319, .ofNat 2), (83783088979, .ofNat 2), (88357921019, .ofNat 2), (88731605197, .ofNat 2), (109146424243, .ofNat 2), (136586662211, .ofNat 2), (149971579609, .ofNat 2), (151423551061, .ofNat 2), (178767142121, .ofNat 2), (448649300443, .negSucc 0), (489698285227, .ofNat 1), (11336524291889, .ofNat 2), (11754846221479, .ofNat 2), (14425495488589, .ofNat 2)] 0)) .nil))) jac219)) jac220) (.node (.node jac221 (.node (.node (.node (.node (.leaf (.atom 14731)) (.leaf (.adef 44893 [(27555247, .ofNat 1), (1827965983, .ofNat 1), (1828362061, .ofNat 1), (2654486951, .negSucc 0), (2655062117, .negSucc 0)] 0))) (.node (.leaf (.adef 18593 [(18587, .ofNat 1), (6030559, .ofNat 1), (6571177, .ofNat 1), (8692699, .negSucc 0), (11030207, .negSucc 0), (14121181, .ofNat 1), (15262693, .negSucc 0), (22293983, .negSucc 0), (29678179, .ofNat 1)] 0)) .nil)) (.node (.node (.leaf (.adef 23021 [(9146817, .ofNat 2), (56247381, .negSucc 1), (65239731, .negSucc 0), (95234908491, .ofNat 2)] 0)) .nil) (.node (.leaf (.adef 16217 [(2486179, .ofNat 1), (2526431, .negSucc 0), (2976287, .ofNat 1), (4950149, .negSucc 0), (3206270769379, .ofNat 1), (3361390740571, .ofNat 1)] 0)) .nil))) (.node (.node (.node (.leaf (.atom 13063)) (.leaf (.adef 46853 [(882586549, .ofNat 1), (942270121, .ofNat 1), (988759421, .negSucc 0), (1325967773, .negSucc 0)] 0))) (.node (.leaf (.adef 31721 [(3373, .ofNat 1), (1378739, .ofNat 1), (1756681, .negSucc 0), (2583281, .ofNat 1), (2981161, .negSucc 0)] 0)) .nil)) (.node (.node (.leaf (.adef 24001 [(6518287, .negSucc 0), (7810249, .ofNat 1)] 0)) .nil) (.node (.leaf (.adef 42943 [(67361193, .ofNat 2), (118875969, .ofNat 2), (133972989, .ofNat 4), (156879873, .ofNat 1), (266893598943, .negSucc 1)] 0)) .nil))))) jac222))

def jac224 : JTree := .node (.node (.node (.leaf (.atom 3307)) (.leaf (.adef 7951 [(66013, .negSucc 0), (3238457, .negSucc 0)] 0))) (.node (.leaf (.adef 31151 [(8629133, .ofNat 1), (8658271, .ofNat 1), (10698907, .negSucc 0), (12452579, .negSucc 0), (13574549, .negSucc 1), (13620499, .negSucc 1), (25732583, .ofNat 1), (25778747, .ofNat 1), (30833867, .ofNat 1), (30874777, .ofNat 1), (34247357, .ofNat 1), (37232827, .ofNat 1), (271311379, .negSucc 0), (281322869, .negSucc 0), (794743589, .ofNat 1), (990071129, .ofNat 1), (1059075793, .ofNat 1), (1084522217, .ofNat 1), (1328581799, .ofNat 1), (1665470591, .negSucc 0), (1670963977, .negSucc 0), (1800952711, .negSucc 0), (1821063679, .ofNat 1), (1830884191, .ofNat 1), (1836923177, .ofNat 1), (4100352877, .negSucc 0), (4226975161, .ofNat 1), (4327350611, .ofNat 1), (4661777279, .ofNat 1), (4744090877, .ofNat 1), (4855114057, .negSucc 0), (4963548647, .ofNat 1), (5018715059, .ofNat 2), (5066427701, .ofNat 2), (5067550217, .ofNat 1), (5222909239, .ofNat 1), (10522157587, .negSucc 1), (49553418011, .ofNat 1), (51381957421, .ofNat 1), (67932015253, .ofNat 1), (69115752467, .ofNat 1), (81161824417, .ofNat 1), (83394754847, .ofNat 1), (83764995389, .ofNat 1), (84225986567, .ofNat 1), (86442101153, .ofNat 1), (87948382567, .ofNat 1), (88320334721, .ofNat 1), (108309666757, .ofNat 2), (108640531199, .ofNat 1), (109207378879, .negSucc 0), (112306333427, .ofNat 2), (120250618349, .negSucc 0), (121324855331, .ofNat 1), (122778915559, .negSucc 1), (122950805069, .ofNat 1), (126439753897, .negSucc 1), (135953583823, .ofNat 1), (136170131239, .negSucc 0), (137917267067, .ofNat 1), (139989353593, .negSucc 0), (142267312543, .negSucc 0), (146508293167, .ofNat 1), (147213815261, .ofNat 1), (148662720133, .ofNat 1), (149463828653, .ofNat 1), (153663593087, .negSucc 0), (157218090223, .ofNat 1), (161273013541, .ofNat 1), (177938557453, .ofNat 1), (192643699289, .ofNat 1), (983459419763, .ofNat 1), (1005862911167, .negSucc 0), (1166715134911, .ofNat 2), (1331597133931, .negSucc 1), (1980060842069, .negSucc 0), (3853882442321, .ofNat 1), (4498083612479, .negSucc 0), (5276154241187, .ofNat 1), (11165994722947, .ofNat 1), (11283979567477, .ofNat 1), (11578024048517, .ofNat 1), (11700362577347, .ofNat 1), (13112831699369, .ofNat 1), (13831111727879, .negSucc 0), (14208500097047, .ofNat 1), (14341484854369, .negSucc 0), (14358633400577, .ofNat 1), (15534028154371, .negSucc 0), (15969717736477, .negSucc 0), (16756378155347, .ofNat 1), (17599807021579, .negSucc 0), (130835860667437, .negSucc 0), (142806634384093, .ofNat 1), (350024174956583, .ofNat 1), (539116406585591, .negSucc 0), (32290975438003127, .negSucc 0), (35498096910802327, .ofNat 1), (49735406548531079, .ofNat 1), (54675099082949479, .negSucc 0)] 0)) .nil)) (.node (.node (.leaf (.adef 29641 [(21720989, .negSucc 0), (81163441, .negSucc 0), (127869619, .ofNat 1), (128227711, .negSucc 0), (6971673131, .negSucc 0), (7182104477, .ofNat 1)] 0)) .nil) (.node (.leaf (.adef 20323 [(295285361, .ofNat 1), (376564783, .ofNat 1), (381343543, .ofNat 1), (510210533, .negSucc 0), (512226463, .ofNat 1), (629853707, .negSucc 0), (68536157501, .negSucc 0), (70130899279, .negSucc 0), (82113563497, .ofNat 1), (111715691927, .ofNat 1), (549650342129, .negSucc 0), (774301715621, .negSucc 0), (1002243294563, .ofNat 1), (96600745246901, .ofNat 1), (116851249988333, .negSucc 0)] 0)) .nil))

def jac225 : JTree := .node (.node (.node (.node (.node (.leaf (.atom 1093)) (.leaf (.adef 27239 [(1857083, .negSucc 0), (5162533, .negSucc 0)] 0))) (.node (.leaf (.adef 15733 [(2471353, .ofNat 1), (2914889, .ofNat 1), (117318701, .ofNat 1), (130514227, .negSucc 0), (160953703, .ofNat 1), (163137701, .negSucc 0), (190267123, .negSucc 0), (195269717, .negSucc 0), (260150707, .negSucc 0), (350988241, .negSucc 0), (379254643, .negSucc 0), (488067241, .ofNat 1)] 0)) .nil)) (.node (.node (.leaf (.adef 22807 [(23884681, .ofNat 1), (83052647, .ofNat 1), (129552211, .negSucc 0), (134943709, .ofNat 1), (139848491, .ofNat 1), (158620307, .negSucc 0)] 0)) (.leaf (.trans [] 0))) (.node (.leaf (.adef 40751 [(11327417, .negSucc 0), (37558223, .ofNat 1), (854312527, .ofNat 1), (856027391, .negSucc 0), (1698712529, .ofNat 1), (1736386123, .ofNat 1), (2466791113, .negSucc 0), (2531350027, .ofNat 1), (32884121203, .ofNat 1)] 0)) .nil))) (.node (.node (.node (.leaf (.atom 35437)) (.leaf (.adef 34603 [(7499647, .ofNat 4), (2199475727, .ofNat 2)] 1))) (.node (.leaf (.adef 19213 [(36781810829, .ofNat 1), (38514968339, .negSucc 0), (38561321621, .ofNat 1), (40378329611, .negSucc 0)] 0)) .nil)) (.node (.node (.leaf (.adef 7607 [(1188919, .ofNat 1), (1303727, .ofNat 1)] 0)) .nil) (.node (.leaf (.adef 20533 [(18496573, .ofNat 1), (26808367, .negSucc 0), (69293713, .negSucc 0)] 0)) .nil)))) (.node (.node (.node (.node (.leaf (.atom 48311)) (.leaf (.adef 12553 [(9629597, .ofNat 1), (9689287, .ofNat 1), (12856121, .ofNat 1), (741313733, .negSucc 0), (2921358551, .ofNat 1)] 0))) (.node (.leaf (.adef 38239 [(3689593, .negSucc 0), (3772277, .negSucc 0), (5172611, .ofNat 1), (7275997, .ofNat 1), (322873693, .ofNat 1), (398480167, .ofNat 1), (724970087, .negSucc 1), (25917597611, .negSucc 0), (27237106619, .negSucc 0)] 0)) .nil)) (.node (.node (.leaf (.adef 17551 [(6171499, .ofNat 1), (10968011, .ofNat 1), (14092027, .ofNat 1), (146753749, .ofNat 1), (1014817849, .ofNat 1), (1037024321, .ofNat 1), (1037159359, .ofNat 1), (1473671153, .negSucc 0), (1511801729, .ofNat 1), (1511998591, .ofNat 1)] 0)) .nil) (.node (.leaf (.adef 32611 [(41479, .ofNat 1), (2986147, .negSucc 0), (1433344483, .negSucc 0), (1756977203, .ofNat 1), (2329054151, .negSucc 0), (2868005971, .ofNat 1), (5336151019, .ofNat 1), (5518235311, .ofNat 1), (7820327549, .ofNat 1), (632684698511, .ofNat 1), (651290160839, .ofNat 1), (1061032821131, .ofNat 1)] 0)) .nil))) (.node (.node (.node (.leaf (.atom 6113)) (.leaf (.adef 22247 [(1721, .ofNat 1), (318551, .negSucc 0), (470023, .ofNat 1), (535901, .ofNat 1), (8650619, .negSucc 0), (102724169, .negSucc 0), (17114466877, .negSucc 0), (18814266077, .ofNat 1)] 0))) (.node (.leaf (.adef 39971 [(39953, .ofNat 1), (11002963, .negSucc 0), (13030331, .ofNat 1), (18784979, .ofNat 1), (22298323, .ofNat 1), (22413487, .ofNat 1), (24116941, .negSucc 0), (26246411, .negSucc 0), (30071731, .negSucc 0), (68706139, .negSucc 0), (1775225861063, .ofNat 1)] 0)) .nil)) (.node (.node (.leaf (.adef 36607 [(10594589, .negSucc 0), (10600237, .ofNat 1), (27285509, .negSucc 0), (36710357, .ofNat 1), (1584378013, .ofNat 1), (1584774091, .ofNat 1), (1619983367, .ofNat 1), (2300759861, .negSucc 0), (2301335027, .negSucc 0), (2361654983, .ofNat 1), (231849687791, .ofNat 1), (303325528993, .ofNat 1), (442196050657, .ofNat 1)] 0)) .nil) (.node (.leaf (.adef 43223 [(2843713, .ofNat 1), (5071427, .negSucc 0), (7115371, .ofNat 1), (338120759, .negSucc 0), (463990283, .ofNat 1)] 0)) .nil))))

def jac226 : JTree := .node (.node (.node (.node (.node .nil (.leaf (.adef 16529 [(36524861, .ofNat 1), (36609841, .negSucc 0), (36961439, .negSucc 0), (36976777, .ofNat 1)] 0))) (.node (.leaf (.adef 37199 [(9582389, .negSucc 0), (18110749, .negSucc 0), (20560219, .ofNat 1), (22232669, .ofNat 1), (22541851, .ofNat 1), (30037717, .ofNat 1)] 0)) .nil)) (.node (.node (.leaf (.adef 22741 [(9072027, .ofNat 2), (53752473, .negSucc 1), (64129599, .negSucc 0), (94456209321, .ofNat 2)] 0)) (.leaf (.trans [(15467, .ofNat 1)] 0))) (.node (.leaf (.adef 32119 [(5205852966817, .ofNat 1)] 0)) .nil))) (.node (.node (.node (.leaf (.atom 48481)) (.leaf (.adef 14669 [(28099, .ofNat 1), (14863231, .ofNat 1), (613832491, .ofNat 1), (642945137, .negSucc 0), (643762319, .negSucc 0), (1140661859, .ofNat 1), (2631205579, .negSucc 0), (3619970971, .negSucc 0), (4529920517, .negSucc 0), (113453459291, .ofNat 1), (122303068259, .ofNat 1), (317495838853, .ofNat 1), (18877026951943, .negSucc 0), (20349474844207, .negSucc 0), (20751882624743, .ofNat 1), (22370573211407, .ofNat 1), (52826749793369, .negSucc 0), (58073472795769, .ofNat 1)] 0))) (.node (.leaf (.adef 19069 [(654013, .negSucc 0), (2035673, .negSucc 0), (2663233, .ofNat 1), (2738927, .negSucc 0), (67767773, .ofNat 1), (204532873, .negSucc 0), (267060779, .negSucc 0), (344279381, .ofNat 1), (371361779, .ofNat 1), (501899669, .ofNat 1), (879307969, .negSucc 0), (2031520493, .ofNat 1), (7195274717, .ofNat 1), (31702809263, .ofNat 1), (36974913049, .ofNat 1)] 0)) .nil)) (.node (.node (.leaf (.adef 11069 [(295596329, .ofNat 1), (335606663, .negSucc 0), (350346437, .ofNat 1), (351488431, .negSucc 0), (353956673, .negSucc 0), (32987420837, .negSucc 0), (127751678789, .negSucc 0), (544098591757, .negSucc 0), (545263440043, .ofNat 1), (553619270491, .ofNat 1)] 0)) .nil) (.node (.leaf (.adef 20407 [(121586053, .negSucc 0), (193712983, .ofNat 1), (240035977, .ofNat 1), (6094697689, .ofNat 1), (6162510737, .ofNat 1), (8988990487, .ofNat 1), (9089007071, .ofNat 1), (11498724697, .ofNat 1), (11633278793, .ofNat 1), (16049062873, .negSucc 0), (16227633809, .negSucc 0), (16799373289, .ofNat 1), (18091965007, .ofNat 1), (26681633731, .ofNat 1), (34372035991, .ofNat 1), (47667639731, .negSucc 0), (86098044827, .ofNat 1), (87084895277, .ofNat 1), (184127691487, .ofNat 1), (199283685103, .ofNat 1), (229780025291, .ofNat 1), (232830780067, .ofNat 1), (831364771403, .ofNat 1), (842089165009, .ofNat 1), (1165718740519, .negSucc 0), (1603391471497, .ofNat 1), (1621526542343, .ofNat 1), (2239977698429, .ofNat 1), (2268872839687, .ofNat 1), (2972599943953, .negSucc 0), (3153136043137, .negSucc 0), (4320078576271, .ofNat 1), (4368940586849, .ofNat 1), (5088458166347, .ofNat 1), (16465375452857, .ofNat 1)] 0)) .nil)))) (.node (.node (.node (.node (.leaf (.atom 35279)) (.leaf (.adef 34213 [(148824441, .ofNat 2), (166573359, .ofNat 1), (274317838623, .negSucc 1)] 0))) (.node (.leaf (.adef 15773 [(8848573, .ofNat 1), (60943979, .ofNat 1), (73144349, .ofNat 1), (91761433, .ofNat 1)] 0)) .nil)) (.node (.node (.leaf (.adef 23003 [(223287, .negSucc 1), (18062487, .ofNat 1), (55677627, .ofNat 2), (64908639, .ofNat 1), (94270232997, .negSucc 1)] 0)) .nil) (.node (.leaf (.adef 20113 [(2052847, .negSucc 0), (2217979, .negSucc 0), (2669297, .ofNat 1), (2772109, .negSucc 0), (5638561, .ofNat 1), (135495589, .negSucc 0), (7518835409, .ofNat 1), (4565062099153, .negSucc 0), (4785920645497, .negSucc 0)] 0)) .nil))) (.node (.node (.node (.leaf (.atom 13007)) (.leaf (.adef 46727 [(826712783, .negSucc 0), (826874971, .ofNat 1), (882807523, .negSucc 0), (883153739, .ofNat 1), (926312413, .ofNat 1), (927220073, .negSucc 0), (1184122381, .negSucc 0), (1197885247, .ofNat 1), (1201219357, .negSucc 0), (1206901813, .ofNat 1), (1243364707, .ofNat 1), (7103114325827, .ofNat 1), (7690166626753, .ofNat 1), (8039945312269, .negSucc 0), (10852431990959, .negSucc 0)] 0))) (.node (.leaf (.adef 25373 [(1548737, .ofNat 1), (284327027, .negSucc 0), (312566227, .ofNat 1), (8820820963, .ofNat 1)] 0)) .nil)) (.node (.node (.leaf (.adef 23911 [(1360835863, .ofNat 4), (1960453903, .ofNat 2)] 1)) .nil) (.node (.leaf (.adef 42863 [(13729853, .ofNat 1), (14725787, .ofNat 1), (14729069, .ofNat 1), (222490080499, .negSucc 0)] 0)) .nil))))

def jac227 : JTree := .node (.node (.node (.node (.node (.leaf (.atom 2659)) (.leaf (.adef 21391 [(7525933, .negSucc 0), (43098241, .ofNat 1), (50398891, .negSucc 0), (50493479, .ofNat 1), (2055410579, .negSucc 0), (2343495073, .negSucc 0)] 0))) (.node (.leaf (.adef 13681 [(37369, .ofNat 1), (37379, .ofNat 1), (2990875963, .ofNat 1), (3089581193, .ofNat 1), (5252272849, .ofNat 1), (5793673687, .ofNat 1), (7544230271, .ofNat 1), (7983065437, .ofNat 1), (8248839407, .ofNat 1), (8324221673, .ofNat 1), (11183461187, .ofNat 1), (11617699147, .ofNat 1), (11916494489, .ofNat 1), (13826868401, .ofNat 1), (1048029959377, .ofNat 1), (1066786606489, .ofNat 1), (1228054841569, .ofNat 1), (1250033403433, .ofNat 1), (642033793391017, .ofNat 1), (752318863950649, .ofNat 1)] 0)) .nil)) (.node (.node (.leaf (.adef 13259 [(695895743, .negSucc 3), (3456434899, .ofNat 2), (150742467851, .ofNat 4), (494637420311, .negSucc 1), (687818829311, .ofNat 2)] 1)) (.leaf (.trans [(46271, .ofNat 1)] 0))) (.node (.leaf (.adef 41057 [(3445969, .ofNat 1), (4132543, .negSucc 0)] 0)) .nil))) (.node (.node (.node (.leaf (.atom 22571)) (.leaf (.adef 45979 [(36581011, .ofNat 1), (53621311, .ofNat 1), (6462143837, .ofNat 1), (7168147379, .negSucc 0), (7737941587, .negSucc 0), (9940520969, .ofNat 1), (23505226153, .ofNat 1), (44896721839, .ofNat 1)] 0))) (.node (.leaf (.adef 8783 [(551567, .negSucc 0), (1557571, .negSucc 0), (1990567, .ofNat 1), (2789153, .ofNat 1), (133764131, .negSucc 0), (144033629, .negSucc 0), (6381674749, .ofNat 1), (9267170453, .negSucc 0), (19260811049, .negSucc 0), (27969651553, .ofNat 1), (1932340700113, .ofNat 1)] 0)) .nil)) (.node (.node (.leaf (.adef 10163 [(11483834077, .ofNat 1)] 0)) .nil) (.node (.leaf (.adef 20693 [(29258891, .ofNat 1), (31247747, .negSucc 0), (41514377, .ofNat 1), (9253974131, .negSucc 0)] 0)) .nil)))) (.node (.node (.node (.node (.leaf (.atom 6959)) (.leaf (.adef 21701 [(4203833, .ofNat 1), (11921111, .ofNat 1), (13026847, .negSucc 0), (126551981, .ofNat 1), (126670373, .ofNat 1), (3019251139, .negSucc 0), (5388321667, .negSucc 0), (6673482329, .negSucc 0)] 0))) (.node (.leaf (.adef 38629 [(12148151, .ofNat 1), (12190861, .negSucc 0), (12219191, .negSucc 0)] 0)) .nil)) (.node (.node (.leaf (.adef 4969 [(373349137, .ofNat 1), (758964649471, .negSucc 0)] 0)) .nil) (.node (.leaf (.adef 26321 [(7411169, .ofNat 4), (626316443, .ofNat 2), (2698272527, .ofNat 1), (8594982817, .ofNat 2)] 1)) .nil))) (.node (.node (.node (.leaf (.atom 1439)) (.leaf (.atom 271))) (.node (.leaf (.adef 25471 [(11100877, .ofNat 1), (11169047, .ofNat 1), (978732263, .ofNat 1), (2410592161, .ofNat 1), (3366930683, .ofNat 1), (44026553992831, .negSucc 0), (48399246510431, .ofNat 1)] 0)) .nil)) (.node (.node (.leaf (.adef 30271 [(2465821, .negSucc 0), (2955149, .ofNat 1)] 0)) .nil) (.node (.leaf (.adef 43627 [(37711577, .ofNat 1), (1137128323, .negSucc 0), (1215675053, .ofNat 1), (126787538513, .negSucc 0), (135545342143, .ofNat 1), (518235912379, .negSucc 0), (554032871669, .ofNat 1)] 0)) .nil))))

def jac228 : JTree := .node (.node (.node (.node (.node (.leaf (.atom 3359)) (.leaf (.adef 43889 [(14530423, .negSucc 0), (13986317263, .negSucc 0), (17814033569, .ofNat 1)] 0))) (.node (.leaf (.adef 13619 [(37117, .ofNat 1), (7221827, .negSucc 0), (11608243, .negSucc 0), (14482639, .negSucc 0), (19541597, .ofNat 1), (20469899, .ofNat 1), (22430521, .negSucc 0), (26770729, .negSucc 0), (43918657, .negSucc 0)] 0)) .nil)) (.node (.node (.leaf (.adef 14923 [(220763508299, .ofNat 2), (227830007381, .negSucc 3), (238236702857, .negSucc 3), (251504259931, .negSucc 1), (262710251567, .ofNat 4), (280939115467, .negSucc 1), (282549836003, .negSucc 1), (284586624251, .negSucc 3)] 1)) .nil) (.node (.leaf (.adef 25667 [(20061053, .ofNat 1), (10717849133, .ofNat 1)] 0)) .nil))) (.node (.node (.node (.leaf (.atom 35381)) (.leaf (.adef 21977 [(10457, .ofNat 1), (2702263, .ofNat 1), (9739943, .ofNat 1), (9800269, .ofNat 1), (13004281, .ofNat 1), (809297351, .negSucc 0), (2955439139, .ofNat 1)] 0))) (.node (.leaf (.adef 5779 [(687601, .ofNat 1), (91349693, .ofNat 1), (100422493, .negSucc 0), (6186761201, .ofNat 1), (6486077849, .ofNat 1), (7313336549, .negSucc 0)] 0)) .nil)) (.node (.node (.leaf (.adef 3253 [(14219328011, .ofNat 1), (260935461471810349, .ofNat 1)] 0)) .nil) (.node (.leaf (.adef 20393 [(121503307, .negSucc 0), (192885523, .ofNat 1), (239034713, .ofNat 1), (6086567237, .ofNat 1), (6154289821, .ofNat 1), (8976455441, .ofNat 1), (9076332553, .ofNat 1), (11450219519, .ofNat 1), (11584233919, .ofNat 1), (16030565879, .negSucc 0), (16208931007, .negSucc 0), (16787940391, .ofNat 1), (18007894139, .ofNat 1), (26566509449, .ofNat 1), (34348643929, .ofNat 1), (47471034869, .negSucc 0), (85718641469, .ofNat 1), (86750770439, .ofNat 1), (183306803963, .ofNat 1), (198394975451, .ofNat 1), (229556058229, .ofNat 1), (232357274789, .ofNat 1), (827768524657, .ofNat 1), (841106391869, .ofNat 1), (1154057666089, .ofNat 1), (1601641946053, .ofNat 1), (1620052382633, .ofNat 1), (2230288194151, .ofNat 1), (2266224916667, .ofNat 1), (2942864032543, .ofNat 1), (3150514288991, .negSucc 0), (4315364763379, .ofNat 1), (4364968702319, .ofNat 1), (5084227240021, .ofNat 1), (16451684902951, .ofNat 1)] 0)) .nil)))) (.node (.node (.node (.node (.leaf (.atom 7127)) (.leaf (.adef 27689 [(3816194231, .ofNat 4), (3876798179, .negSucc 3), (4053880463, .negSucc 3), (4133975843, .negSucc 3), (254849487097, .negSucc 3), (266490363709, .negSucc 3), (644471304689, .ofNat 2), (743468699993, .negSucc 1), (38370926177039, .ofNat 4), (41566144773467, .negSucc 3), (41881658419871, .negSucc 3), (45369222238763, .ofNat 4), (105113758941379, .ofNat 2), (107049208854403, .ofNat 2), (114731099450131, .negSucc 1), (116843632563667, .negSucc 1)] 1))) (.node (.leaf (.adef 30713 [(52178877, .negSucc 1), (61539129, .negSucc 1), (136795671, .negSucc 3), (149512383, .negSucc 1), (169219023, .negSucc 3), (244684161, .negSucc 1), (246687921, .ofNat 2), (103350463893, .ofNat 3), (272327664087, .ofNat 4), (306956900079, .ofNat 4), (361035659403, .ofNat 4), (368559193581, .negSucc 1), (429969767697, .ofNat 2), (539398163250783, .negSucc 7)] 0)) .nil)) (.node (.node (.leaf (.adef 3719 [(287565649, .negSucc 0), (368900497, .ofNat 1), (103380279373, .negSucc 0), (541081298569, .negSucc 0), (754532013529, .negSucc 0), (991800565973, .ofNat 1), (150926672657663, .ofNat 1), (181588766648051, .negSucc 0), (2677503029073061, .negSucc 0), (3221461549401697, .ofNat 1)] 0)) (.leaf (.trans [] 0))) (.node (.leaf (.adef 5807 [(557827, .ofNat 1), (60515849, .ofNat 1), (66526249, .negSucc 0)] 0)) .nil))) (.node (.node (.node (.leaf (.atom 6703)) (.leaf (.adef 46499 [(22285603, .negSucc 0), (22353847, .negSucc 0), (22450811, .ofNat 1), (24129113, .ofNat 1), (24521641, .negSucc 0)] 0))) (.node (.leaf (.adef 39443 [(7789, .ofNat 1), (9811, .ofNat 1), (3109417, .ofNat 1), (3429263, .ofNat 1), (3632311, .ofNat 1), (5210833, .negSucc 0), (5723761, .negSucc 0), (7368121, .negSucc 0), (9959039, .ofNat 1), (11507381, .negSucc 0), (12628829, .ofNat 1)] 0)) .nil)) (.node (.node (.leaf (.adef 17921 [(10369087, .ofNat 1), (14122151, .negSucc 0), (15067291, .negSucc 0), (16521251, .ofNat 1), (17892751, .ofNat 1), (25957279, .ofNat 1), (68356373, .ofNat 1)] 0)) .nil) (.node (.leaf (.adef 42793 [(9232133, .ofNat 1), (14666711, .negSucc 0), (18787501, .ofNat 1), (132017519, .ofNat 1), (214401440063, .negSucc 0), (6917564200643, .negSucc 0), (6931449847219, .ofNat 1)] 0)) .nil))))

def jac229 : JTree := .node (.node (.node (.node (.node (.leaf (.atom 2111)) (.leaf (.adef 27259 [(3212107, .ofNat 1), (27890647, .ofNat 1), (31872611, .negSucc 0), (35759671, .negSucc 0), (1096095851, .ofNat 1), (1172743709, .ofNat 1)] 0))) (.node (.leaf (.adef 8609 [(968203, .ofNat 1), (1535267, .ofNat 1), (1559071, .ofNat 1), (142064987, .ofNat 1), (371204923, .ofNat 1)] 0)) .nil)) (.node (.node (.leaf (.adef 2281 [(10029, .ofNat 2), (17119539, .negSucc 0)] 0)) (.leaf (.trans [] 0))) (.node (.leaf (.adef 32359 [(2522321, .negSucc 0), (3014329, .ofNat 1)] 0)) .nil))) (.node (.node (.node (.leaf (.adef 8147 [(3259, .ofNat 1), (916567, .ofNat 1), (1125853, .ofNat 1)] 0)) (.leaf (.adef 45779 [(2948339, .ofNat 1), (492258941, .ofNat 1), (714835477, .negSucc 0)] 0))) (.node (.leaf (.adef 8779 [(3199873, .ofNat 1), (788268577, .negSucc 0), (943909399, .negSucc 0), (968242217, .negSucc 0), (1165363013, .negSucc 0), (1198669049, .negSucc 0), (1211149021, .negSucc 0), (1285278277, .negSucc 0), (1400632301, .negSucc 0), (1888831471, .negSucc 0), (2033189891, .negSucc 0), (2378408441, .negSucc 0), (2865419171, .negSucc 0), (3073024921, .negSucc 0), (3103812637, .negSucc 0), (3898451657, .negSucc 0), (115676909587, .negSucc 0), (119269127179, .negSucc 0), (132997524643, .negSucc 0)] 0)) .nil)) (.node (.node (.leaf (.adef 23629 [(12608423, .negSucc 0), (17071469, .negSucc 0), (17082979, .ofNat 1), (17557079, .ofNat 1), (19246483, .negSucc 0), (68254861, .negSucc 0)] 0)) .nil) (.node (.leaf (.adef 20543 [(1309981, .ofNat 1), (2264159, .ofNat 1)] 0)) .nil)))) (.node (.node (.node (.node (.leaf (.atom 48437)) (.leaf (.adef 14591 [(45007, .ofNat 1), (45013, .negSucc 0), (1441017499, .negSucc 0), (1589556637, .negSucc 0), (369120460223, .negSucc 0), (390591575581, .negSucc 0), (547178995331, .negSucc 0), (568425180811, .negSucc 0), (642956997689, .negSucc 0), (648832679471, .negSucc 0), (928832911103, .negSucc 0), (1077737285927, .negSucc 0)] 0))) (.node (.leaf (.adef 31069 [(900793, .ofNat 1), (1822001, .ofNat 1), (2787413, .ofNat 1), (329508503, .negSucc 0), (452172011, .ofNat 1), (24883226611, .ofNat 1), (26403503993, .ofNat 1)] 0)) .nil)) (.node (.node (.leaf (.adef 3769 [(288692719, .ofNat 1), (370476239, .ofNat 1), (503301407, .negSucc 0), (21442486194619, .ofNat 1), (3096085186723669, .ofNat 1), (4495990518299693, .negSucc 0), (317530832680008241, .negSucc 0), (442793308830343681, .negSucc 0), (582033162851496797, .ofNat 1), (88570557085146413207, .ofNat 1), (106564452387441728939, .negSucc 0)] 0)) .nil) (.node (.leaf (.adef 41597 [(21449509463, .ofNat 1), (22487240687, .ofNat 1)] 0)) .nil))) (.node (.node (.node (.leaf (.atom 2539)) (.leaf (.atom 49157))) (.node (.leaf (.adef 8837 [(40039, .ofNat 1), (8436139, .negSucc 0), (10407823, .ofNat 1), (11819407, .negSucc 0), (14935733, .negSucc 0), (17551229, .ofNat 1), (20010997, .ofNat 1), (22411121, .ofNat 1), (24326773, .negSucc 0), (28863209, .ofNat 1), (44545819, .ofNat 1)] 0)) .nil)) (.node (.node (.leaf (.adef 36739 [(2789431, .ofNat 1), (3159493, .ofNat 1)] 0)) .nil) (.node (.leaf (.adef 43451 [(2836957, .negSucc 0), (5077663, .negSucc 0), (7139081, .ofNat 1), (340273823, .ofNat 1), (466944851, .negSucc 0)] 0)) .nil))))

def jac230 : JTree := .node (.node (.node (.node (.node (.leaf (.atom 47807)) (.leaf (.adef 7933 [(44389, .ofNat 1), (948919, .ofNat 1), (1540417, .ofNat 1), (223408931, .ofNat 1), (227213309, .ofNat 1), (261259423, .ofNat 1), (343802489, .ofNat 1), (347453317, .ofNat 1), (484811669, .ofNat 1), (505859957, .ofNat 1), (2485478701, .ofNat 1), (2665556951, .ofNat 1), (3381536167, .ofNat 1), (76235817283, .ofNat 1), (77534019037, .ofNat 1), (81566840197, .ofNat 1), (82955822683, .ofNat 1), (89151877439, .ofNat 1), (95386095401, .ofNat 1)] 0))) (.node (.leaf (.adef 37493 [(5748833, .ofNat 1), (6142723, .negSucc 0), (8866073, .negSucc 0), (9634673, .negSucc 0), (49732387, .ofNat 1), (1494907577, .ofNat 1), (6711433529, .negSucc 0), (7036133921, .negSucc 0)] 0)) .nil)) (.node (.node (.leaf (.adef 4079 [(4589685851, .negSucc 0), (4811735699, .negSucc 0), (6745080581, .ofNat 1), (7414998181, .negSucc 0)] 0)) (.leaf (.trans [(47339, .negSucc 0)] 0))) (.node (.leaf (.adef 41203 [(12575051, .ofNat 1), (12584713, .negSucc 0), (12693419, .negSucc 0)] 0)) .nil))) (.node (.node (.node (.leaf (.atom 4463)) (.leaf (.adef 34819 [(20641219, .negSucc 0), (20933881, .ofNat 1), (20967157, .ofNat 1), (21436777, .negSucc 0)] 0))) (.node (.leaf (.adef 25339 [(3496141643, .ofNat 4), (3551611603, .negSucc 3), (3713840191, .negSucc 3), (3787271879, .negSucc 3), (451325851897, .negSucc 3), (471941269309, .negSucc 3), (477043269779, .negSucc 3), (516767552687, .ofNat 4), (576334791763, .negSucc 3), (602660299711, .negSucc 3), (688885800613, .ofNat 1), (795053669723, .negSucc 0), (1080101783773, .negSucc 1), (1135179703921, .negSucc 1), (1204603952777, .ofNat 2), (1434099973589, .negSucc 1), (1941165337157, .ofNat 2), (2065208837213, .negSucc 1), (2320977670499, .negSucc 1), (2471181958451, .negSucc 1), (71561873689939, .ofNat 4), (77520964397167, .negSucc 3), (78045839178247, .negSucc 3), (84544861786291, .ofNat 4), (118324911809443, .ofNat 1), (120556378493333, .ofNat 1), (129045908969239, .negSucc 0), (131479560870209, .negSucc 0), (162287322931373, .negSucc 1), (182386035708179, .negSucc 1), (24608114738720483, .ofNat 2), (26837768022947159, .negSucc 1), (31327125005684069, .negSucc 1), (34165563784758737, .ofNat 2)] 1)) .nil)) (.node (.node (.leaf (.adef 23743 [(2171713, .negSucc 0), (280881827, .negSucc 0), (13831075637, .ofNat 1), (54530243809, .negSucc 0), (75827114809, .ofNat 1)] 0)) .nil) (.node (.leaf (.adef 33247 [(5810879, .ofNat 1), (7625767, .ofNat 1)] 0)) .nil)))) (.node (.node (.node (.node .nil (.leaf (.adef 21799 [(45307, .ofNat 1), (51049597, .ofNat 1), (51150707, .negSucc 0), (85021229, .ofNat 1)] 0))) (.node (.leaf (.adef 13729 [(307739741, .ofNat 1), (319095451, .ofNat 1), (441737119, .ofNat 1), (534756983, .ofNat 1), (554489713, .ofNat 1), (767603197, .ofNat 1), (5497041889, .ofNat 1), (6882305327, .ofNat 1), (6904194151, .ofNat 1), (7197308663, .ofNat 1), (7220976173, .ofNat 1), (48890790491, .ofNat 1), (50694878701, .ofNat 1), (61656055249, .ofNat 1), (63931186439, .ofNat 1), (67090975967, .negSucc 0), (69566657737, .negSucc 0), (70179031369, .ofNat 1), (76093889731, .ofNat 1), (78901782341, .ofNat 1), (88502603291, .ofNat 1), (96304020853, .negSucc 0), (109227022529, .ofNat 1), (105355179744799, .ofNat 1), (130025921991181, .ofNat 1), (137056530806407, .ofNat 1), (188077474757659, .negSucc 0)] 0)) .nil)) (.node (.node (.leaf (.adef 29567 [(21650621, .negSucc 0), (3056879741, .negSucc 0), (3163773803, .negSucc 0), (98092419079, .ofNat 1), (98102305687, .negSucc 0)] 0)) .nil) (.node (.leaf (.adef 32801 [(125313, .ofNat 8), (507562389, .negSucc 3), (684662031, .negSucc 3), (743005521, .negSucc 3), (1358061304221, .ofNat 6)] 1)) .nil))) (.node (.node (.node (.leaf (.atom 3467)) .nil) (.node (.leaf (.adef 25541 [(6082849, .ofNat 1), (6481973, .negSucc 0), (487196117, .negSucc 0), (589993267, .negSucc 0)] 0)) .nil)) (.node (.node (.leaf (.adef 8447 [(8536039, .ofNat 1), (11447497, .ofNat 1), (11620993, .negSucc 0), (13730921, .negSucc 0), (15066209, .negSucc 0), (17229853, .ofNat 1)] 0)) .nil) (.node (.leaf (.adef 10357 [(606973, .ofNat 1), (21050596439, .ofNat 1), (26235836447, .negSucc 0), (28886934443, .negSucc 0), (32379412493, .negSucc 0)] 0)) .nil))))

def jac231 : JTree := .node (.node (.node (.node (.node (.node (.node (.node (.leaf (.atom 701)) (.leaf (.trans [(260501, .ofNat 1)] 0))) (.node (.leaf (.adef 7673 [(19262623, .ofNat 1), (53953183, .ofNat 1), (56810771, .negSucc 0)] 0)) .nil)) (.node (.node (.leaf (.adef 8263 [(2032033, .ofNat 1), (92606996929, .ofNat 1), (97087340521, .ofNat 1)] 0)) .nil) (.node (.leaf (.adef 25609 [(4545829, .negSucc 0), (4757063, .negSucc 0)] 0)) .nil))) jac224) (.node (.node (.node (.node (.leaf (.atom 11987)) (.leaf (.adef 27529 [(7226977, .ofNat 1), (9137123, .negSucc 0)] 0))) (.node (.leaf (.adef 24547 [(8066473, .negSucc 0), (247069301, .negSucc 0), (282597143, .ofNat 1), (1099289413, .negSucc 0), (127850080321, .ofNat 1)] 0)) .nil)) (.node (.node (.leaf (.adef 22921 [(1342255883, .negSucc 0), (2933542657, .ofNat 2)] 0)) .nil) (.node (.leaf (.adef 16141 [(33203088833, .negSucc 0), (33269737489, .ofNat 1), (37598716963, .negSucc 0), (38653264381, .negSucc 0), (39412771451, .negSucc 0), (40518198437, .negSucc 0), (42428937179, .negSucc 0), (42514104907, .ofNat 1), (81015159737, .negSucc 0), (105540570329, .negSucc 0), (175886456731, .negSucc 0), (176239514123, .ofNat 1), (177589326799, .negSucc 0), (177945802367, .ofNat 1), (12708968233979, .ofNat 1), (13177933851469, .ofNat 1), (13322147691283, .ofNat 1), (13813739857013, .ofNat 1), (16171902357679, .ofNat 1), (16952160686183, .ofNat 1)] 0)) .nil))) (.node (.node (.node (.leaf (.atom 10691)) (.leaf (.adef 34963 [(21445363, .negSucc 0), (21943003, .ofNat 1), (22943549, .ofNat 1), (23291713, .negSucc 0)] 0))) (.node (.leaf (.adef 31547 [(117939, .ofNat 8), (504447129, .negSucc 3), (684450513, .negSucc 3), (740674719, .negSucc 3), (1357085604789, .ofNat 6)] 1)) .nil)) (.node (.node (.leaf (.adef 23813 [(23801, .ofNat 1), (17232239, .ofNat 1), (1142943937, .negSucc 0), (1536542443, .negSucc 0), (2162398009, .ofNat 1), (3035449897, .negSucc 0), (4338207157, .negSucc 0), (4486238833, .negSucc 0), (6357803747, .negSucc 0), (604686905401, .negSucc 0), (610557068263, .ofNat 1), (1035165515281, .negSucc 0)] 0)) .nil) (.node (.leaf (.adef 7879 [(42701, .ofNat 1), (408139691, .ofNat 1), (732674927, .ofNat 1), (743537737, .ofNat 1), (1230834587, .ofNat 1), (1789194917, .ofNat 1), (1813161451, .ofNat 1), (2245116719, .ofNat 1), (2660641981, .ofNat 1), (2847170269, .ofNat 1), (3639042091, .ofNat 1)] 0)) .nil))))) jac225) (.node jac226 jac227)) (.node (.node jac228 jac229) (.node (.node (.node (.node (.node (.node (.leaf (.atom 6367)) (.leaf (.adef 16561 [(36341057, .negSucc 0), (36360383, .ofNat 1), (36881129, .ofNat 1), (36906971, .negSucc 0)] 0))) (.node (.leaf (.adef 24223 [(5658427, .ofNat 1), (789231581, .ofNat 1)] 0)) .nil)) (.node (.node (.leaf (.adef 29017 [(4758358133657, .negSucc 0), (147220402678409, .negSucc 0), (164225594688307, .ofNat 1)] 0)) (.leaf (.trans [] 0))) (.node (.leaf (.adef 32191 [(56685067, .negSucc 3), (4808070937, .negSucc 1), (423590396893, .ofNat 4), (696525828881, .negSucc 1), (968555067881, .ofNat 2)] 1)) .nil))) (.node (.node (.node (.leaf (.atom 8089)) (.leaf (.adef 28219 [(153599, .ofNat 1), (9283997, .negSucc 0), (23593993, .negSucc 0), (32377141, .ofNat 1), (9061010393, .ofNat 1)] 0))) (.node (.leaf (.adef 25031 [(5931703, .ofNat 1), (6301247, .ofNat 1), (517230199, .negSucc 0), (552957689, .ofNat 1), (785244211, .ofNat 1), (834512897, .negSucc 0)] 0)) .nil)) (.node (.node (.leaf (.adef 35863 [(10624429, .ofNat 1), (37209259, .ofNat 1)] 0)) .nil) (.node (.leaf (.adef 42397 [(10516133, .negSucc 0), (18126071, .negSucc 0), (22727723, .negSucc 0), (22983053, .ofNat 1), (25161817, .negSucc 0), (30289423, .ofNat 1), (69152323, .negSucc 0), (1684952082461, .negSucc 0)] 0)) .nil)))) (.node (.node (.node (.node (.leaf (.atom 48121)) (.leaf (.adef 44963 [(863094401, .ofNat 1), (927617353, .ofNat 1), (969161713, .negSucc 0), (1304339023, .negSucc 0)] 0))) (.node (.leaf (.adef 30871 [(1005167, .negSucc 0), (1881233, .ofNat 1), (2796421, .ofNat 1), (329329081, .negSucc 0), (451925797, .ofNat 1), (24750986257, .negSucc 0), (26275435259, .negSucc 0)] 0)) .nil)) (.node (.node (.leaf (.adef 15359 [(169109, .ofNat 1), (347549, .ofNat 1)] 0)) .nil) (.node (.leaf (.adef 26113 [(6256387, .ofNat 1), (6653431, .ofNat 1), (521120773, .negSucc 0), (557117003, .ofNat 1), (794484643, .ofNat 1), (842298679, .negSucc 0)] 0)) .nil))) (.node (.node (.node (.leaf (.atom 6043)) (.leaf (.adef 47087 [(24323833, .negSucc 0), (24506717, .ofNat 1), (24674113, .negSucc 0), (31464283, .negSucc 0), (31494739, .ofNat 1), (31963693, .negSucc 0)] 0))) (.node (.leaf (.adef 31751 [(809483, .ofNat 1), (1542329, .negSucc 0), (2113271, .ofNat 1), (2867113, .ofNat 1)] 0)) .nil)) (.node (.node (.leaf (.adef 30091 [(132560613, .ofNat 2), (146503341, .ofNat 1), (270010497249, .negSucc 1)] 0)) .nil) (.node (.leaf (.adef 33533 [(33920829, .ofNat 2), (130916571, .ofNat 4), (148290327, .ofNat 2), (163252701, .ofNat 1), (278074788237, .negSucc 1)] 0)) .nil))))) jac230))

end BP.EL
