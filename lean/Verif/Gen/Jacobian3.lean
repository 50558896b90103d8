import Verif.Lemmas.JTree
import Verif.Gen.Jacobian2

/-!
# Generated by tools/gen_jacobian.py
-/

namespace BP.EL

def jac59 : JTree := .node (.node (.node (.node (.node (.leaf (.adef 7109 [(135557, .negSucc 0), (144871, .negSucc 0)] 0)) (.leaf (.adef 11939 [(1358086937, .ofNat 1), (3491912503, .ofNat 1)] 0))) (.node (.leaf (.adef 13691 [(24407, .ofNat 1), (11756999, .negSucc 0), (936651997, .ofNat 1), (1145938273, .negSucc 0), (1614590093, .ofNat 1), (2122157777, .negSucc 0), (2573006339, .negSucc 0), (2609991383, .ofNat 1), (2646738629, .ofNat 1), (2853189821, .ofNat 1), (3414844003, .negSucc 0), (3682601977, .negSucc 0), (4449700531, .negSucc 0), (7406812507, .ofNat 1), (325374120779, .ofNat 1), (686538451019, .negSucc 0), (687301171519, .negSucc 1), (40274597179217, .negSucc 0)] 0)) .nil)) (.node (.node (.leaf (.adef 13291 [(693392771, .negSucc 1), (3458332931, .negSucc 0), (150182017481, .negSucc 1), (494680697569, .ofNat 1), (687879008569, .negSucc 0)] 1)) (.leaf (.trans [(46457, .negSucc 0)] 0))) (.node (.leaf (.adef 32413 [(21447779, .negSucc 0), (21597371, .ofNat 1), (22366447, .ofNat 1), (22421909, .negSucc 0)] 0)) .nil))) (.node (.node (.node (.leaf (.atom 28751)) (.leaf (.adef 46021 [(256777, .negSucc 0), (592283, .ofNat 1)] 0))) (.node (.leaf (.adef 31327 [(39103, .negSucc 0), (39107, .negSucc 0), (1321127917, .ofNat 1)] 0)) .nil)) (.node (.node (.leaf (.adef 6983 [(11227689079, .ofNat 1)] 0)) .nil) (.node (.leaf (.adef 26633 [(27342529, .ofNat 1), (31171703, .ofNat 1), (31251551, .negSucc 0), (38018303, .negSucc 0)] 0)) .nil)))) (.node (.node (.node (.node (.leaf (.atom 967)) (.leaf (.adef 45197 [(9517997, .negSucc 0), (15257471, .negSucc 0), (19545983, .ofNat 1)] 0))) (.node (.leaf (.adef 10247 [(4739927, .negSucc 0), (5801249, .ofNat 1)] 0)) .nil)) (.node (.node (.leaf (.adef 29473 [(21589049, .negSucc 0), (84146941, .negSucc 0), (127722437, .ofNat 1), (141811063, .negSucc 0), (9120054179, .ofNat 1), (109052831527, .negSucc 0)] 0)) .nil) (.node (.leaf (.adef 26347 [(3646393207, .ofNat 4), (3707098541, .negSucc 3), (3876429377, .negSucc 3), (3950035171, .negSucc 3), (466371416117, .negSucc 3), (477216142861, .negSucc 3), (487674076649, .negSucc 3), (516954821233, .ofNat 4), (578094324023, .negSucc 3), (604500202931, .negSucc 3), (708920936873, .ofNat 1), (819654409279, .negSucc 0), (1080493195907, .negSucc 1), (1135591075439, .negSucc 1), (1208281571317, .ofNat 2), (1438478236369, .negSucc 1), (1947645265981, .ofNat 2), (2067742759387, .negSucc 1), (2322630359953, .negSucc 1), (2478156097999, .negSucc 1), (72768783620947, .ofNat 4), (77795261181917, .negSucc 3), (78828375969391, .negSucc 3), (84273417692801, .ofNat 4), (119825281338379, .ofNat 1), (122305566788837, .ofNat 1), (128102169557669, .negSucc 0), (130753779833707, .negSucc 0), (166969088213401, .negSucc 1), (187551121481419, .negSucc 1), (24914462411199203, .ofNat 2), (26635419943014733, .negSucc 1), (31700807139323537, .negSucc 1), (33890528992865407, .ofNat 2)] 1)) .nil))) (.node (.node (.node (.leaf (.atom 1987)) (.leaf (.atom 49193))) (.node (.leaf (.adef 40093 [(11623953487, .ofNat 1)] 0)) .nil)) (.node (.node (.leaf (.adef 36899 [(43126861, .negSucc 0), (43438529, .negSucc 0), (43591627, .ofNat 1), (59867167, .ofNat 1), (60210341, .negSucc 0)] 0)) .nil) (.node (.leaf (.adef 43649 [(10723367, .negSucc 0), (17064497, .ofNat 1), (22836497, .negSucc 0), (30374081, .ofNat 1), (69239081, .ofNat 1)] 0)) .nil))))

def jac60 : JTree := .node (.node (.node (.node (.node (.leaf (.trans [(330989, .negSucc 0), (370807, .ofNat 1)] 0)) (.leaf (.adef 14449 [(43913, .ofNat 1), (13094359, .negSucc 0), (8964382939, .negSucc 0), (9046304221, .negSucc 0), (12950187853, .negSucc 0), (15026276677, .negSucc 0), (1066775683999, .negSucc 0), (1087411961003, .negSucc 0), (1346671100701, .ofNat 1), (1412898107437, .ofNat 1), (1569461429663, .ofNat 2), (1640313221167, .ofNat 2), (2028713197391, .negSucc 1), (2125936737317, .negSucc 1), (2583861269413, .ofNat 2), (353710288164119, .negSucc 0), (538667683654651, .ofNat 1)] 0))) (.node (.leaf (.adef 37139 [(18766991, .ofNat 1), (26226829, .negSucc 0), (5645051129, .ofNat 2), (340445476229, .negSucc 0)] 0)) .nil)) (.node (.node (.leaf (.adef 14929 [(6067717, .negSucc 0), (6068423, .ofNat 1), (329641307, .negSucc 0), (336055513, .negSucc 0), (384501629, .negSucc 0), (456599371, .negSucc 0), (467302513, .ofNat 1), (983395661, .ofNat 1), (985111999, .ofNat 1), (1005155353, .ofNat 1), (1005425429, .ofNat 1), (1428041317, .negSucc 0), (1430533703, .negSucc 0), (1465342297, .ofNat 1), (1465736021, .ofNat 1)] 0)) .nil) (.node (.leaf (.adef 40289 [(22028362651, .ofNat 1), (23094098899, .ofNat 1)] 0)) .nil))) (.node (.node (.node (.leaf (.atom 12671)) (.leaf (.adef 45337 [(6666733, .ofNat 1), (8486557, .negSucc 0), (14760661, .ofNat 1)] 0))) (.node (.leaf (.adef 8713 [(5509319, .ofNat 1), (5542469, .ofNat 1), (6030319, .ofNat 1), (7424177, .ofNat 1)] 0)) .nil)) (.node (.node (.leaf (.adef 23357 [(99710251, .ofNat 1), (101362661, .negSucc 0), (125047301, .ofNat 1), (112368211069, .negSucc 0), (112489273667, .ofNat 1)] 0)) .nil) (.node (.leaf (.adef 42073 [(27457369, .ofNat 1), (27580699, .ofNat 1), (31072183, .ofNat 1), (31195993, .ofNat 1), (34412327, .ofNat 1), (37437901, .ofNat 1), (1040873737, .ofNat 1), (1274550527, .ofNat 1), (1277442239, .ofNat 1), (1298789993, .ofNat 1), (1825114757, .ofNat 1), (2069661421, .ofNat 1), (3808198703, .ofNat 1), (3860355371, .ofNat 1), (4070010601, .ofNat 1), (50952099959, .negSucc 0), (51957384163, .negSucc 0), (161044022681, .ofNat 1), (196925232083, .ofNat 1), (515254868123, .negSucc 0), (550845912853, .ofNat 1)] 0)) .nil)))) (.node (.node (.node (.node (.leaf (.atom 16829)) (.leaf (.adef 44657 [(15146977, .ofNat 1), (15150259, .ofNat 1), (152077232837, .negSucc 0)] 0))) (.node (.leaf (.adef 30763 [(135862443, .negSucc 1), (149755833, .negSucc 0), (244805157, .negSucc 0), (246462309, .ofNat 1), (270469828971, .ofNat 2), (304862822307, .ofNat 2), (358572653199, .ofNat 2), (368222122449, .negSucc 0), (430182387189, .ofNat 1), (535718357702739, .negSucc 3)] 0)) .nil)) (.node (.node (.leaf (.adef 811 [(69133, .negSucc 0), (18285601, .ofNat 1)] 0)) (.leaf (.trans [(47353, .ofNat 1)] 0))) (.node (.leaf (.adef 9011 [(3994867, .ofNat 1), (5616889, .ofNat 1), (5649961, .negSucc 1), (6022979, .ofNat 1)] 0)) .nil))) (.node (.node (.node (.leaf (.atom 6737)) (.leaf (.adef 35111 [(20741737, .negSucc 0), (21009913, .ofNat 1), (21760813, .ofNat 1), (22058497, .negSucc 0)] 0))) (.node (.leaf (.adef 39503 [(4513, .negSucc 0), (3254087, .negSucc 0), (4096637, .negSucc 0), (459358661, .negSucc 0)] 0)) .nil)) (.node (.node (.leaf (.adef 36251 [(26738779, .negSucc 0), (29247371, .negSucc 0), (93179719, .negSucc 0)] 0)) .nil) (.node (.leaf (.adef 42797 [(1357799797, .ofNat 4), (1837520023, .ofNat 2)] 1)) .nil))))

def jac61 : JTree := .node (.node (.node (.node (.node (.leaf (.atom 47843)) (.leaf (.adef 33931 [(12143029, .ofNat 1), (14087893, .ofNat 1), (22267537, .ofNat 1), (26274791, .ofNat 1), (27348857, .ofNat 1), (27783869, .ofNat 1), (28584047, .ofNat 1), (35518477, .ofNat 1), (49654951, .negSucc 0), (57477617, .ofNat 1), (58239661, .ofNat 1), (606891221, .ofNat 1), (629285731, .ofNat 1), (1354948781, .negSucc 0), (1404946891, .negSucc 0), (1877586173, .ofNat 1), (2012879329, .ofNat 1), (2064066973, .negSucc 0), (2065450619, .ofNat 1), (2070901717, .ofNat 1), (2219223607, .negSucc 0), (2290402619, .negSucc 0), (2361959399, .negSucc 0), (2445647359, .negSucc 0), (2536777237, .negSucc 0), (2578065911, .ofNat 1), (2642160667, .ofNat 1), (3786098119, .ofNat 1), (4005640973, .negSucc 0), (4135559333, .negSucc 0), (4622467523, .ofNat 1), (6712130573, .negSucc 0), (7601594531, .ofNat 1), (7919732867, .ofNat 1), (8330682911, .ofNat 1), (8620069933, .ofNat 1), (8758070917, .ofNat 1), (8828107207, .ofNat 1), (9175409519, .negSucc 0), (9801122987, .ofNat 1), (10410611333, .ofNat 1), (11323375523, .ofNat 1), (14543253383, .ofNat 1), (15989643893, .ofNat 1), (17974565911, .ofNat 1), (18004398281, .ofNat 1), (19934181343, .ofNat 1), (36663868807, .negSucc 0), (43020158563, .ofNat 1), (49177697021, .ofNat 1), (268986302251, .ofNat 1), (277405705861, .ofNat 1), (287859797009, .ofNat 1), (297928481119, .ofNat 1), (304596355361, .ofNat 1), (313139500607, .ofNat 1), (337209706189, .ofNat 1), (343727144713, .ofNat 1), (350024010769, .ofNat 1), (352938977621, .negSucc 0), (362838009227, .negSucc 0), (380711230597, .ofNat 1), (619217925437, .ofNat 1), (680718300637, .negSucc 0), (1017842152751, .negSucc 0), (1110969205439, .ofNat 1), (1395990502901, .ofNat 1), (1534639492501, .negSucc 0), (1903060510133, .ofNat 1), (2092071406933, .negSucc 0), (3177444081277, .negSucc 0), (4167070084967, .negSucc 0), (293130521047213, .ofNat 1), (322244079112013, .negSucc 0), (384427040728823, .ofNat 1), (422608117649623, .negSucc 0)] 0))) (.node (.leaf (.adef 24499 [(100441031, .negSucc 0), (112042813, .ofNat 1)] 0)) .nil)) (.node (.node (.leaf (.adef 15227 [(4241, .ofNat 1), (35509, .ofNat 1), (552037, .ofNat 1)] 0)) .nil) (.node (.leaf (.adef 8963 [(8728493, .ofNat 1), (11564827, .negSucc 0), (11762053, .negSucc 0), (17490829, .ofNat 1)] 0)) .nil))) (.node (.node (.node (.leaf (.atom 12911)) (.leaf (.adef 34843 [(20763059, .negSucc 0), (21174589, .ofNat 1), (21765911, .ofNat 1), (22110379, .negSucc 0)] 0))) (.node (.leaf (.adef 31391 [(117573, .ofNat 8), (504031761, .negSucc 3), (687701151, .negSucc 3), (738703179, .negSucc 3), (1363530766203, .ofNat 6)] 1)) .nil)) (.node (.node (.leaf (.adef 23753 [(5533001, .ofNat 1), (5878891, .ofNat 1), (448811837, .negSucc 0), (489875693, .ofNat 1)] 0)) .nil) (.node (.leaf (.adef 33287 [(5818451, .ofNat 1), (13749037, .ofNat 1)] 0)) .nil)))) (.node (.node (.node (.node (.leaf (.atom 3457)) (.leaf (.adef 11497 [(1260947, .ofNat 1), (4153243, .ofNat 1), (215296693, .negSucc 0), (2991154648541, .negSucc 0)] 0))) (.node (.leaf (.adef 24847 [(6890365019, .ofNat 2), (7207136257, .ofNat 2), (49036660577, .ofNat 2), (50846131447, .ofNat 2), (61703647727, .ofNat 2), (63980535097, .ofNat 2), (67291147949, .negSucc 1), (69774216139, .negSucc 1), (70388416843, .ofNat 2), (76152626813, .ofNat 2), (78962686843, .ofNat 2), (88570918693, .ofNat 2), (96591352591, .negSucc 1), (109311335167, .ofNat 2), (105409746716051, .ofNat 2), (130093266764969, .ofNat 2), (137127516967643, .ofNat 2), (188174886372191, .negSucc 1)] 0)) .nil)) (.node (.node (.leaf (.adef 2789 [(374997763, .ofNat 1), (753759937189, .negSucc 0)] 0)) .nil) (.node (.leaf (.adef 32831 [(1598101, .ofNat 1), (216257501, .negSucc 0), (12489065483, .negSucc 0), (18136038451, .ofNat 1)] 0)) .nil))) (.node (.node (.node (.leaf (.atom 3491)) .nil) (.node (.leaf (.adef 19699 [(790921, .ofNat 1), (1203373, .ofNat 1), (2444581, .ofNat 1)] 0)) .nil)) (.node (.node (.leaf (.adef 37057 [(11884993, .negSucc 0), (12149477, .ofNat 1), (12630239, .ofNat 1), (13033721, .negSucc 0)] 0)) .nil) (.node (.leaf (.adef 7901 [(43777, .ofNat 1), (1009056547, .ofNat 1)] 0)) .nil))))

def jac62 : JTree := .node (.node jac60 (.node (.node (.node (.node (.node (.leaf (.atom 1997)) (.leaf (.adef 27271 [(6599731, .ofNat 1), (7040039, .negSucc 0), (296298097, .negSucc 0), (358816247, .negSucc 0)] 0))) (.node (.leaf (.adef 37313 [(16717801, .ofNat 1), (26435873, .ofNat 1), (32170693, .negSucc 0), (547283417, .negSucc 0), (715255397, .ofNat 1), (74112953983, .negSucc 0), (81473810783, .ofNat 1)] 0)) .nil)) (.node (.node (.leaf (.adef 1907 [(10533, .ofNat 2), (17776719, .negSucc 0)] 0)) (.leaf (.trans [] 0))) (.node (.leaf (.adef 40903 [(18129367, .negSucc 0), (26440523, .ofNat 1)] 0)) .nil))) (.node (.node (.node (.leaf (.trans [(459413, .negSucc 0), (523111, .ofNat 1)] 0)) (.leaf (.adef 45821 [(3352441, .ofNat 2), (4142471, .negSucc 1), (503489183, .ofNat 2), (733999967, .ofNat 2), (15751918841, .negSucc 1)] 0))) (.node (.leaf (.adef 25127 [(19504679, .ofNat 1), (10546092607, .ofNat 1)] 0)) .nil)) (.node (.node (.leaf (.adef 36007 [(42338519, .negSucc 0), (42644647, .negSucc 0), (42797299, .ofNat 1), (59767651, .ofNat 1), (60060419, .negSucc 0)] 0)) .nil) (.node (.leaf (.adef 26591 [(20415004429, .negSucc 0), (22773108767, .ofNat 1)] 0)) .nil)))) (.node (.node (.node (.node (.leaf (.atom 8059)) (.leaf (.adef 14627 [(27803, .ofNat 1), (562797919, .ofNat 1), (1045826231, .ofNat 1), (3387244097, .negSucc 0), (104020839119, .ofNat 1), (112134683831, .ofNat 1), (291098956177, .ofNat 1), (336667025087, .ofNat 1), (463181162063, .ofNat 1), (579610683601, .ofNat 1)] 0))) (.node (.leaf (.adef 31081 [(1593161, .negSucc 0), (2477567, .ofNat 1)] 0)) .nil)) (.node (.node (.leaf (.adef 15467 [(6079397, .negSucc 0), (7324283, .ofNat 1), (17349389, .negSucc 0)] 0)) .nil) (.node (.leaf (.adef 41611 [(21532158881, .negSucc 0), (26538017101, .ofNat 1), (15994939215097, .negSucc 0), (504786150757001, .ofNat 1), (563093187427123, .negSucc 0)] 0)) .nil))) (.node (.node (.node (.leaf (.atom 48869)) (.leaf (.atom 49169))) (.node (.leaf (.adef 8839 [(8747269, .ofNat 1), (10915601, .negSucc 0), (11738543, .negSucc 0)] 0)) .nil)) (.node (.node (.leaf (.adef 13537 [(8536039, .ofNat 1), (11620993, .negSucc 0), (13730921, .negSucc 0), (15066209, .negSucc 0), (18003977, .ofNat 1), (26090377, .ofNat 1)] 0)) .nil) (.node (.leaf (.adef 43481 [(3525881, .negSucc 0), (4198273, .ofNat 1)] 0)) .nil)))))) (.node (.node (.node (.node (.node (.node (.leaf (.atom 577)) (.leaf (.adef 9391 [(44123, .ofNat 1), (9295469, .ofNat 1), (11320123, .ofNat 1), (14040869, .ofNat 1), (15401041, .negSucc 0)] 0))) (.node (.leaf (.adef 30517 [(2015119, .ofNat 1), (4666897, .negSucc 0), (59538396641, .ofNat 1), (63629226523, .ofNat 1)] 0)) .nil)) (.node (.node (.leaf (.adef 29023 [(38041999, .ofNat 4), (47941417, .negSucc 1)] 1)) (.leaf (.trans [] 0))) (.node (.leaf (.adef 16069 [(56727301, .ofNat 4), (4811392493, .negSucc 1), (422324310223, .negSucc 3), (697045155977, .negSucc 1), (969277218977, .ofNat 2)] 1)) .nil))) (.node (.node (.node (.leaf (.atom 8093)) (.leaf (.adef 28277 [(148069, .negSucc 0), (155213, .negSucc 0), (9290453, .negSucc 0), (8775174103, .ofNat 1)] 0))) (.node (.leaf (.adef 19183 [(115188793, .negSucc 0), (115389031, .ofNat 1), (48412846921, .negSucc 0), (133453604027, .ofNat 1)] 0)) .nil)) (.node (.node (.leaf (.adef 35879 [(58564537, .ofNat 1), (59968543, .negSucc 0), (64743163, .negSucc 0), (64856261, .ofNat 1)] 0)) .nil) (.node (.leaf (.adef 42407 [(12898433, .negSucc 0), (12949561, .ofNat 1), (13731539, .ofNat 1), (13897801, .negSucc 0)] 0)) .nil)))) (.node (.node (.node (.node (.leaf (.atom 4639)) (.leaf (.adef 34297 [(263791811, .negSucc 0), (718878469, .ofNat 1)] 0))) (.node (.leaf (.mult 2237 1342 (.negSucc 0) 0)) .nil)) (.node (.node (.leaf (.adef 4127 [(286283, .ofNat 1), (847823, .ofNat 1)] 0)) .nil) (.node (.leaf (.adef 20201 [(121283947, .negSucc 0), (121478321, .ofNat 1), (50967681311, .negSucc 0), (140515230833, .ofNat 1)] 0)) .nil))) (.node (.node (.node (.leaf (.atom 48733)) (.leaf (.adef 47129 [(24515731, .negSucc 0), (24708809, .ofNat 1), (24859273, .negSucc 0), (31963429, .negSucc 0), (31994713, .ofNat 1), (32501081, .negSucc 0)] 0))) (.node (.leaf (.adef 31793 [(1695587, .ofNat 1), (2701451, .ofNat 1)] 0)) .nil)) (.node (.node (.leaf (.adef 30103 [(510249, .negSucc 3), (26378433, .ofNat 2), (134836983, .negSucc 1), (146542293, .negSucc 0), (274647197259, .ofNat 2)] 0)) .nil) (.node (.leaf (.adef 16427 [(7165357, .ofNat 1), (69283189, .ofNat 1), (83127619, .ofNat 1), (104278651, .ofNat 1)] 0)) .nil))))) jac61)

def jac63 : JTree := .node (.node jac39 (.node (.node jac40 (.node (.node (.node (.node (.node (.node .nil (.leaf (.adef 14479 [(43973, .ofNat 1), (11988023, .ofNat 1), (14040869, .ofNat 1), (14121557, .ofNat 1), (15401041, .negSucc 0)] 0))) jac41) (.node (.node (.leaf (.adef 28949 [(930997, .negSucc 1), (2199037, .ofNat 2)] 0)) (.leaf (.trans [(15277, .ofNat 1)] 0))) (.node (.leaf (.adef 5347 [(26823, .ofNat 2), (51811029, .negSucc 0)] 0)) .nil))) (.node (.node (.node (.leaf (.atom 22453)) (.leaf (.adef 45427 [(15664511, .ofNat 1), (17559991, .negSucc 0), (28361981, .negSucc 0)] 0))) (.node (.leaf (.adef 7027 [(3105623, .ofNat 1), (6637503791, .negSucc 0)] 0)) .nil)) (.node (.node (.leaf (.adef 35747 [(57043709, .ofNat 1), (58999607, .negSucc 0), (64038209, .negSucc 0), (64395827, .ofNat 1)] 0)) .nil) (.node (.leaf (.adef 42221 [(3487837, .negSucc 0), (4171033, .ofNat 1), (154952513, .negSucc 0), (45169043201, .ofNat 1)] 0)) .nil)))) (.node (.node (.node (.node (.leaf (.atom 35267)) (.leaf (.adef 44773 [(38572273, .ofNat 4), (56672173, .negSucc 3), (5311049417, .ofNat 2), (739673255107, .negSucc 1), (1028553788107, .ofNat 2)] 1))) (.node (.leaf (.adef 30859 [(38425969, .ofNat 2), (56281039, .negSucc 1), (4491336847, .ofNat 1), (15368081213, .negSucc 0), (19565476943, .negSucc 0), (358486661461, .negSucc 0), (522611421589, .negSucc 0), (652052252329, .ofNat 1), (667616620537, .ofNat 1), (928355323537, .negSucc 0)] 1)) .nil)) (.node (.node (.leaf (.adef 6553 [(10533113, .negSucc 3), (3469009361, .negSucc 1), (497536996597, .negSucc 1), (691850839597, .ofNat 2)] 1)) .nil) (.node (.leaf (.adef 7043 [(3121687, .ofNat 1), (22906511, .negSucc 0), (32008579, .ofNat 1), (6644994827, .ofNat 1)] 0)) .nil))) (.node (.node (.node (.leaf (.atom 4373)) (.leaf (.adef 35171 [(21585479, .negSucc 0), (21750917, .ofNat 1), (22686479, .ofNat 1), (23054879, .negSucc 0)] 0))) (.node (.leaf (.adef 19403 [(39623, .ofNat 1), (76879997, .negSucc 0), (77351333, .negSucc 0), (77582143, .ofNat 1), (82430083, .ofNat 1), (82517419, .negSucc 0), (84333097, .ofNat 1), (101573443, .negSucc 0), (105105761, .ofNat 1), (111010499, .ofNat 1), (112597501, .ofNat 1)] 0)) .nil)) (.node (.node (.leaf (.adef 29983 [(5154394782631, .ofNat 1)] 0)) .nil) (.node (.leaf (.adef 42859 [(938000953, .negSucc 3), (214937332019, .negSucc 3), (475402304539, .negSucc 1), (1302811422469, .ofNat 2)] 1)) .nil))))) jac42)) (.node (.node jac43 jac44) (.node jac45 jac46)))) (.node (.node jac50 jac55) (.node (.node (.node (.node (.node (.node (.node (.node (.leaf (.trans [(69133, .ofNat 1), (96133, .negSucc 0)] 0)) (.leaf (.adef 9337 [(9102959, .negSucc 0), (11072857, .ofNat 1), (24190567, .ofNat 1), (26252731, .negSucc 0)] 0))) (.node (.leaf (.adef 6829 [(37097, .ofNat 1), (1201071167, .ofNat 1)] 0)) .nil)) (.node (.node (.leaf (.adef 14869 [(597449, .negSucc 0), (20926121, .negSucc 0)] 0)) .nil) (.node (.leaf (.adef 11317 [(40169, .ofNat 1), (10760933, .ofNat 1), (2406880649, .negSucc 0), (2436939289, .negSucc 0), (4068143059, .negSucc 0), (4068251153, .negSucc 0), (7787846953, .negSucc 0), (7934715289, .negSucc 0), (8240852891, .negSucc 0), (8292920201, .negSucc 0), (10748083651, .ofNat 1), (11544595141, .negSucc 0), (11992855421, .negSucc 0), (13063209539, .negSucc 0)] 0)) .nil))) (.node (.node (.node (.leaf (.atom 1249)) (.leaf (.mult 7951 4631 (.negSucc 0) 0))) (.node (.leaf (.adef 38711 [(27337147, .ofNat 2), (27459937, .ofNat 2), (30861371, .ofNat 1), (30984341, .ofNat 1), (34307587, .ofNat 1), (37424339, .ofNat 1), (1013212097, .ofNat 2), (1258727521, .ofNat 2), (1784831669, .ofNat 1), (2068696339, .ofNat 2), (3731272939, .ofNat 2), (3746759287, .ofNat 1), (4060342331, .ofNat 1), (509412900173, .negSucc 0), (555568981529, .ofNat 1)] 0)) .nil)) (.node (.node (.leaf (.adef 2971 [(376452433, .ofNat 1), (764370526451, .negSucc 0)] 0)) .nil) (.node (.leaf (.adef 26423 [(298758859, .ofNat 1), (359406439, .ofNat 1), (363272497, .negSucc 0), (377247997, .ofNat 1), (385764253, .ofNat 1), (393132593, .negSucc 0), (401954539, .ofNat 1), (511518721, .negSucc 0), (513078517, .ofNat 1), (630704669, .negSucc 0), (550647591011, .negSucc 0), (559445150677, .ofNat 1), (566549241139, .negSucc 0), (775589714039, .negSucc 0), (1003597372421, .ofNat 1)] 0)) .nil)))) jac56) jac57) (.node jac58 jac59)) jac62))

def jac64 : JTree := .node (.node (.node (.node (.node (.leaf (.atom 1451)) (.leaf (.adef 6947 [(127789567, .ofNat 1), (128228413, .negSucc 0), (128377079, .ofNat 1), (159513317, .ofNat 1), (159988057, .negSucc 0), (160232399, .ofNat 1), (199844369, .ofNat 1), (200028571, .negSucc 0), (200116603, .ofNat 1), (200404661, .ofNat 1), (200410999, .negSucc 0), (200433811, .ofNat 1)] 0))) (.node (.leaf (.adef 37217 [(471629, .ofNat 1), (48780913, .negSucc 0), (14496429637, .negSucc 0)] 0)) .nil)) (.node (.node (.leaf (.adef 17231 [(389393, .negSucc 0), (543511, .negSucc 1)] 0)) (.leaf (.trans [] 0))) (.node (.leaf (.adef 40591 [(1086390143, .negSucc 3), (1110898177, .negSucc 3), (1504802479, .negSucc 3), (1544761177, .ofNat 4), (2286623303, .ofNat 4), (18586188857, .ofNat 4), (113000541109, .ofNat 2), (132058622203, .negSucc 1), (144882517937, .negSucc 3), (146530952693, .ofNat 4), (164735204341, .ofNat 2), (18109627307341, .ofNat 4), (18333531472609, .ofNat 4), (18360395959637, .negSucc 3)] 1)) .nil))) (.node (.node (.node (.leaf (.atom 28621)) (.leaf (.adef 45587 [(1368061243, .negSucc 3), (1841617819, .ofNat 2)] 1))) (.node (.leaf (.adef 38821 [(5453587, .ofNat 1), (8083429, .negSucc 0), (809847613, .ofNat 2)] 0)) .nil)) (.node (.node (.leaf (.adef 11131 [(295129541, .ofNat 1), (339945319, .negSucc 0), (346824359, .ofNat 1), (353138681, .ofNat 1), (355027547, .negSucc 0), (356608007, .ofNat 1), (378837319, .ofNat 1), (509022493, .negSucc 0), (543958332589, .negSucc 0), (546747802727, .ofNat 1), (556669079981, .negSucc 0), (761662921397, .negSucc 0), (998699784593, .ofNat 1)] 0)) .nil) (.node (.leaf (.adef 42443 [(12859571, .negSucc 0), (13053197, .ofNat 1), (13717661, .ofNat 1), (13973437, .negSucc 0)] 0)) .nil)))) (.node (.node (.node (.node (.leaf (.atom 4643)) (.leaf (.adef 21559 [(2514709, .ofNat 1), (762921311, .ofNat 1), (1107492241, .negSucc 0), (16172439781, .negSucc 0), (17778677381, .ofNat 1)] 0))) (.node (.leaf (.adef 38149 [(13866227, .ofNat 1), (18693419, .negSucc 0), (26193953, .negSucc 0), (5783071939, .ofNat 2), (348307958359, .ofNat 1)] 0)) .nil)) (.node (.node (.leaf (.adef 17489 [(4842791, .negSucc 0), (8409031, .negSucc 0), (10766659, .ofNat 1), (10768061, .ofNat 1), (115158041, .negSucc 0), (364925387, .negSucc 0), (367769537, .negSucc 0)] 0)) .nil) (.node (.leaf (.adef 9041 [(7913921, .ofNat 1), (14369617, .ofNat 1), (2875830149, .ofNat 2), (3102173539, .ofNat 1), (4356109231, .ofNat 1)] 0)) .nil))) (.node (.node (.node (.leaf (.atom 48781)) (.leaf (.adef 47189 [(827242897, .negSucc 0), (827405189, .ofNat 1), (883337897, .negSucc 0), (883684321, .ofNat 1), (928435157, .ofNat 1), (929344897, .negSucc 0), (1195687909, .negSucc 0), (1209324701, .ofNat 1), (1212950869, .negSucc 0), (1218215791, .ofNat 1), (1246553503, .ofNat 1), (7107669064093, .ofNat 1), (7694786732867, .ofNat 1), (8058369707141, .negSucc 0), (10880264686811, .negSucc 0)] 0))) (.node (.leaf (.adef 19423 [(226780607, .negSucc 0), (5867045033, .ofNat 1), (5932325089, .ofNat 1), (8657084269, .ofNat 1), (8753407877, .ofNat 1), (9362908301, .negSucc 0), (9569608493, .negSucc 0), (10856167339, .ofNat 1), (10979163451, .ofNat 1), (15464947273, .negSucc 0), (15637019009, .negSucc 0), (17080540993, .ofNat 1), (20208917537, .negSucc 0), (20597337979, .ofNat 1), (25192608677, .ofNat 1), (41348068703, .negSucc 0), (45003304877, .negSucc 0), (52523514973, .ofNat 1), (81267791323, .negSucc 0), (82205022643, .negSucc 0), (85790907907, .ofNat 1), (92829466997, .negSucc 0), (109782238667, .ofNat 1), (173779268977, .ofNat 1), (188099179589, .ofNat 1), (852477986389, .negSucc 0), (861963137837, .negSucc 0), (870636777169, .negSucc 0), (880323973577, .negSucc 0), (1435860271099, .negSucc 0), (1453656123911, .negSucc 0), (1545073956697, .negSucc 0), (1562560153943, .negSucc 0), (3028006867987, .negSucc 0), (3326070657269, .negSucc 0), (3397878400897, .negSucc 0), (4162951479871, .negSucc 0), (4210065205649, .negSucc 0), (4886527591697, .ofNat 1), (15811962843707, .ofNat 1), (229380436211477, .ofNat 1), (232557405178859, .ofNat 1), (310038163926221, .negSucc 0), (314126829230927, .negSucc 0)] 0)) .nil)) (.node (.node (.leaf (.adef 30113 [(109479, .ofNat 2), (684410823, .negSucc 0)] 0)) .nil) (.node (.leaf (.adef 43117 [(14241343, .ofNat 1), (27535763, .negSucc 0), (1777135973, .ofNat 1), (1777532051, .ofNat 1), (2580673981, .negSucc 0), (2581249147, .negSucc 0)] 0)) .nil))))

def jac65 : JTree := .node (.node (.node (.node (.leaf (.trans [(69133, .negSucc 0), (96133, .ofNat 1)] 0)) (.leaf (.adef 43943 [(43933, .ofNat 1), (12006629, .ofNat 1), (14149211, .ofNat 1), (30441161, .negSucc 0), (33349021, .ofNat 1)] 0))) (.node (.leaf (.adef 15683 [(4917083761, .ofNat 1), (5305882009, .negSucc 0), (5682754501, .ofNat 1), (5943588457, .ofNat 1), (6138418267, .ofNat 1), (6878772893, .negSucc 0), (10498379839, .ofNat 1), (10885773929, .ofNat 1), (49382962999, .ofNat 1), (57523883563, .negSucc 0), (59646536093, .negSucc 0), (170862184037, .negSucc 0), (173409418463, .negSucc 0), (269287968721, .negSucc 0), (1661118201473, .negSucc 0), (4650959478287, .negSucc 0), (4653091484609, .ofNat 1), (4822581599257, .negSucc 0), (5269096216099, .ofNat 1), (5416880828413, .ofNat 1), (5946004821467, .ofNat 1), (7617645193789, .negSucc 0), (7861972289513, .negSucc 0), (9608010992297, .negSucc 0), (11857893373643, .negSucc 0), (12516607547849, .negSucc 0), (12933517655129, .negSucc 1), (12944568633839, .negSucc 0), (13410769229119, .negSucc 1), (13550251724041, .negSucc 0), (13750900787539, .negSucc 0), (14050261012751, .negSucc 0), (15447588249131, .negSucc 0), (15962125087451, .negSucc 1), (16551133393261, .negSucc 1), (17242418406341, .negSucc 0), (27456936190171, .negSucc 0), (27866267567329, .negSucc 0), (37678111308127, .ofNat 1), (38239821219373, .ofNat 1), (60545993803643, .negSucc 1), (70777908722219, .ofNat 2), (74723888149217, .negSucc 1), (95369424005683, .ofNat 2), (97125837512303, .negSucc 1), (117701828387977, .ofNat 2), (124066063300219, .ofNat 2), (170251149298303, .negSucc 1), (1230737481435173, .negSucc 0), (1457984905592407, .ofNat 1), (1498877636564809, .ofNat 1), (1572711609642599, .negSucc 0), (2081423344717487, .ofNat 1), (2158228634190457, .ofNat 1), (2648568670253587, .ofNat 1), (2856258248131619, .negSucc 0), (2961655231457509, .negSucc 0), (3634530250347319, .negSucc 0), (27512080310317441, .ofNat 1), (33954510987591379, .ofNat 1), (35790459393957913, .ofNat 1), (49113888872178181, .negSucc 0)] 0)) .nil)) (.node (.node (.leaf (.adef 13109 [(5147817, .negSucc 1), (234202401, .ofNat 1)] 0)) .nil) (.node (.leaf (.adef 40361 [(23074644727, .negSucc 0), (27383135477, .ofNat 1), (35222045239, .negSucc 0), (53641540423, .ofNat 1), (203583899274419, .negSucc 0), (223803737356819, .ofNat 1), (244344387999277, .negSucc 0), (268612534838477, .ofNat 1)] 0)) .nil))) (.node (.node (.node (.leaf (.atom 10601)) (.leaf (.adef 45361 [(63669419777, .negSucc 0), (68476735429, .ofNat 1)] 0))) (.node (.leaf (.adef 19009 [(22125407, .negSucc 0), (22765763, .ofNat 1), (30313649, .negSucc 0), (6660365137, .ofNat 1)] 0)) .nil)) (.node (.node (.leaf (.adef 35591 [(37745527, .negSucc 0), (64242349, .ofNat 1)] 0)) .nil) (.node (.leaf (.adef 42101 [(13051931, .ofNat 1), (15127393, .ofNat 1), (26806727, .ofNat 1), (27694049, .ofNat 1), (27867887, .ofNat 1), (27884443, .ofNat 1), (31317773, .ofNat 1), (31450669, .ofNat 1), (31467281, .ofNat 1), (34701613, .ofNat 1), (34741099, .ofNat 1), (37561021, .ofNat 1), (37572083, .ofNat 1), (2317437259, .ofNat 1), (2364962597, .ofNat 1), (2570281991, .ofNat 1), (2667753749, .negSucc 0), (2909469377, .ofNat 1), (3152266309, .ofNat 1), (4284205609, .ofNat 1), (5212427399, .ofNat 1), (9401567999, .ofNat 1), (9746208391, .ofNat 1), (11543404471, .ofNat 1), (106991250131, .negSucc 0), (109102185967, .negSucc 0), (110858456987, .negSucc 0), (113045692759, .negSucc 0), (350389716533, .ofNat 1), (350413775773, .ofNat 1), (353772318101, .negSucc 0), (357327434561, .ofNat 1), (405635769347, .negSucc 0), (413638957279, .negSucc 0), (428457853319, .ofNat 1), (432594111143, .negSucc 0), (1149248055817, .negSucc 0), (1253377312741, .ofNat 1)] 0)) .nil)))

def jac66 : JTree := .node (.node (.node (.node (.node (.leaf (.atom 47629)) (.leaf (.adef 12541 [(128520193, .negSucc 0), (128871839, .ofNat 1), (53922182863, .ofNat 1), (148967328431, .negSucc 0)] 0))) (.node (.leaf (.adef 12323 [(38576929, .ofNat 1), (45411319, .negSucc 0), (46174649, .negSucc 0), (16098471667, .ofNat 1)] 0)) .nil)) (.node (.node (.leaf (.adef 15173 [(6118549, .negSucc 0), (6121373, .ofNat 1), (385346057, .ofNat 1), (1000030937, .ofNat 1), (1000823093, .ofNat 1), (1022035103, .ofNat 1), (1022170141, .ofNat 1), (1452198289, .negSucc 0), (1453348621, .negSucc 0), (1489950047, .ofNat 1), (1490146909, .ofNat 1), (92982437833, .ofNat 1), (95416744403, .negSucc 0)] 0)) (.leaf (.trans [] 0))) (.node (.leaf (.adef 16097 [(35198617, .ofNat 1), (35294639, .negSucc 0), (35736959, .negSucc 0), (35790329, .ofNat 1)] 0)) .nil))) (.node (.node (.node (.leaf (.atom 28661)) (.leaf (.adef 45833 [(104498579, .negSucc 3), (107827843, .negSucc 3), (109161007, .negSucc 3), (254026177, .negSucc 3), (259364689, .negSucc 3), (1105519711, .ofNat 4), (1131550921, .negSucc 3), (2586928753, .ofNat 4), (2643814583, .negSucc 3), (28872963979, .ofNat 4), (29900163079, .negSucc 3), (30314198303, .ofNat 4), (101515173013, .negSucc 3), (104013963421, .ofNat 4), (114094216319, .ofNat 2), (313773846613, .negSucc 3), (320702387227, .negSucc 3), (12340077153247, .ofNat 4), (12384530020091, .negSucc 3), (12779093949547, .negSucc 3), (31570432268867, .ofNat 2)] 1))) (.node (.leaf (.adef 38993 [(26439566669, .ofNat 1), (27718717781, .ofNat 1)] 0)) .nil)) (.node (.node (.leaf (.adef 5737 [(594043, .ofNat 1), (53250403, .ofNat 1), (58539203, .negSucc 0)] 0)) .nil) (.node (.leaf (.adef 26627 [(27349979, .negSucc 0), (123026863, .ofNat 1), (45365090741, .ofNat 1), (88942709327, .negSucc 0)] 0)) .nil)))) (.node (.node (.node (.node (.leaf (.atom 48473)) (.leaf (.adef 5171 [(27803, .ofNat 1), (188892203, .ofNat 1), (1048139153, .ofNat 1), (34218850069, .ofNat 1), (34912576603, .ofNat 1), (163452775289, .ofNat 1), (209185250633, .ofNat 1), (291791883947, .ofNat 1), (580892535463, .ofNat 1)] 0))) (.node (.leaf (.adef 18743 [(38461, .ofNat 1), (43694099, .negSucc 0), (43895521, .ofNat 1), (53490889, .ofNat 1), (53529647, .ofNat 1), (72513851, .negSucc 0), (80683277, .ofNat 1), (100872661, .ofNat 1), (107373587, .ofNat 1)] 0)) .nil)) (.node (.node (.leaf (.adef 23063 [(82952257, .ofNat 1), (138829529, .ofNat 1), (160513699, .negSucc 0)] 0)) .nil) (.node (.leaf (.adef 41617 [(9039341, .ofNat 1), (14359297, .negSucc 0), (18400549, .ofNat 1), (28961027, .negSucc 0), (35565389, .ofNat 1), (347049803, .negSucc 0), (848627623, .ofNat 1), (943089859, .negSucc 0), (963691693, .negSucc 0), (16972513801, .ofNat 1), (20946922219, .ofNat 1), (55769650549, .negSucc 0), (76530574513, .ofNat 1), (136371395609, .ofNat 1), (187137289733, .negSucc 0)] 0)) .nil))) (.node (.node (.node (.leaf (.atom 48883)) (.leaf (.atom 739))) (.node (.leaf (.adef 11311 [(1871381, .ofNat 1), (4108133, .ofNat 1), (548434763, .ofNat 1), (4439195285243, .negSucc 0)] 0)) .nil)) (.node (.node (.leaf (.adef 36767 [(22265681, .negSucc 0), (22425017, .negSucc 0), (22510277, .ofNat 1), (24074579, .ofNat 1), (24229061, .negSucc 0)] 0)) .nil) (.node (.leaf (.adef 20947 [(124031657, .negSucc 0), (199505203, .ofNat 1), (247226873, .ofNat 1), (6208524017, .ofNat 1), (6277603561, .ofNat 1), (9156306101, .ofNat 1), (9258184333, .ofNat 1), (11848615981, .ofNat 1), (11985409967, .ofNat 1), (16349882407, .negSucc 0), (16531800431, .negSucc 0), (17137278941, .ofNat 1), (18627273391, .ofNat 1), (27478647991, .ofNat 1), (35063401379, .ofNat 1), (49095849763, .negSucc 0), (88704913061, .ofNat 1), (89753768983, .ofNat 1), (189550788853, .ofNat 1), (205173750137, .ofNat 1), (1170383170291, .negSucc 0), (1633522187477, .ofNat 1), (1651894232369, .ofNat 1), (2984494308517, .negSucc 0), (3216058142641, .negSucc 0), (4401260909411, .ofNat 1), (4450761408167, .ofNat 1), (5190000398171, .ofNat 1), (16793948650601, .ofNat 1)] 0)) .nil))))

def jac67 : JTree := .node (.node (.node (.node (.node (.node (.node (.leaf (.atom 307)) (.leaf (.adef 14401 [(6940066453, .ofNat 1), (6960725227, .ofNat 1), (7256274227, .ofNat 1), (7284274883, .ofNat 1)] 0))) (.node (.leaf (.adef 12269 [(4297047571, .negSucc 0), (4983279997, .negSucc 0), (5376372299, .ofNat 1)] 0)) .nil)) (.node (.node (.leaf (.atom 4663)) .nil) (.node (.leaf (.adef 19709 [(4010449, .ofNat 1), (8877301, .ofNat 1), (8930561, .ofNat 1), (11853263, .ofNat 1), (2061558841, .ofNat 1), (2693102761, .ofNat 1)] 0)) .nil))) (.node (.node (.node .nil (.leaf (.adef 34429 [(287712479, .negSucc 0), (784066441, .ofNat 1), (47871226267, .ofNat 1), (52625769467, .negSucc 0)] 0))) (.node (.leaf (.adef 18839 [(13709959603, .ofNat 1)] 0)) .nil)) (.node (.node (.leaf (.adef 23209 [(21687271, .negSucc 0), (80935639, .negSucc 0), (100325597, .negSucc 0), (101438539, .ofNat 1), (127489357, .ofNat 1), (127909939, .negSucc 0)] 0)) .nil) (.node (.leaf (.adef 41849 [(2942087, .ofNat 1), (4480711, .ofNat 1), (6523303, .ofNat 1), (489618421, .ofNat 1), (711001037, .negSucc 0)] 0)) .nil)))) (.node (.node (.node (.node (.leaf (.atom 4871)) (.leaf (.adef 44483 [(146747, .ofNat 1), (4207513, .negSucc 0), (6891707, .negSucc 0), (11424421, .negSucc 0)] 0))) (.node (.leaf (.adef 37549 [(9082123, .negSucc 0), (9424297, .ofNat 1), (1939911481, .negSucc 0), (2587707043, .negSucc 0)] 0)) .nil)) (.node (.node (.leaf (.adef 29207 [(69963989, .ofNat 1), (72405241, .ofNat 1), (3541783943, .ofNat 1)] 0)) .nil) (.node (.leaf (.adef 6883 [(119394061, .ofNat 1), (119728429, .negSucc 0), (119940979, .ofNat 1), (149031251, .ofNat 1), (149387159, .negSucc 0), (149695237, .ofNat 1), (194508103, .ofNat 1), (194845919, .negSucc 0), (194886379, .ofNat 1), (195055639, .ofNat 1), (195152827, .ofNat 1), (195233483, .negSucc 0)] 0)) .nil))) (.node (.node (.node (.leaf (.atom 12919)) (.leaf (.adef 46147 [(22570859, .negSucc 0), (24058831, .negSucc 0), (24393287, .ofNat 1), (24737483, .ofNat 1), (25154123, .negSucc 0), (30893321, .negSucc 0)] 0))) (.node (.leaf (.adef 31477 [(138095109, .ofNat 2), (153222561, .ofNat 1), (248530419, .ofNat 1), (255730707, .ofNat 1), (271082271267, .negSucc 1), (318468720357, .negSucc 1), (359755085691, .negSucc 1), (371311941159, .negSucc 0), (431600960601, .negSucc 0), (537484947505551, .ofNat 4)] 0)) .nil)) (.node (.node (.leaf (.adef 36061 [(19263220147, .ofNat 1), (25059518971, .ofNat 1)] 0)) .nil) (.node (.leaf (.adef 26711 [(26701, .ofNat 1), (20244811, .ofNat 1), (1481082173, .ofNat 1), (1624363567, .ofNat 1), (2598406729, .negSucc 0), (2962061717, .ofNat 1), (4561144169, .ofNat 1), (4695274481, .ofNat 1), (4975668559, .negSucc 0), (5023971217, .ofNat 1), (7649187149, .ofNat 1), (8517863479, .negSucc 0)] 0)) .nil))))) jac64) (.node (.node jac65 (.node (.node (.node (.node (.leaf (.atom 5869)) (.leaf (.adef 44687 [(117956781, .ofNat 2), (159712029, .ofNat 1), (265080897189, .negSucc 1)] 0))) (.node (.leaf (.adef 37781 [(66869091, .ofNat 2), (75687561, .ofNat 2), (117276669, .ofNat 2), (144294597, .ofNat 1), (165444621, .ofNat 4), (228715533, .ofNat 1), (237433617, .ofNat 1), (132447303819, .negSucc 2), (264943828341, .negSucc 1), (289430966529, .negSucc 1), (349714948743, .negSucc 1), (356286626811, .negSucc 0), (414688675113, .negSucc 0), (524773033437069, .ofNat 4)] 0)) .nil)) (.node (.node (.leaf (.adef 2287 [(10041, .ofNat 2), (17203941, .negSucc 0)] 0)) (.leaf (.trans [(47417, .negSucc 0)] 0))) (.node (.leaf (.adef 20063 [(22293059, .negSucc 0), (31616731, .negSucc 0), (2964730733, .negSucc 0), (6710833069, .ofNat 1)] 0)) .nil))) (.node (.node (.node (.leaf (.atom 6763)) (.leaf (.adef 46589 [(757377413, .negSucc 0), (757863977, .ofNat 1), (809323177, .negSucc 0), (809842501, .ofNat 1), (849524377, .ofNat 1), (850068973, .negSucc 0), (1140080461, .ofNat 1), (1140445423, .ofNat 1), (1180622287, .negSucc 0), (1194396983, .ofNat 1), (1197823393, .negSucc 0), (1203027163, .ofNat 1), (7035240350801, .ofNat 1), (7616683059739, .ofNat 1), (7963119426847, .negSucc 0), (10748731323317, .negSucc 0)] 0))) (.node (.leaf (.adef 31643 [(4397, .ofNat 1), (1794577, .ofNat 1), (1892053, .ofNat 1), (2616151, .negSucc 0), (3001211, .negSucc 0)] 0)) .nil)) (.node (.node (.leaf (.adef 36293 [(19058762587, .negSucc 0), (24146894929, .ofNat 1), (14651264134729, .negSucc 0), (459159271444889, .ofNat 1), (512196020645347, .negSucc 0)] 0)) .nil) (.node (.leaf (.adef 42821 [(758846267, .ofNat 1), (5482089299977, .negSucc 0)] 0)) .nil))))) jac66)

def jac68 : JTree := .node (.node (.node (.leaf (.atom 433)) (.leaf (.adef 21893 [(3190357, .negSucc 0), (30367189, .ofNat 1), (40000613, .ofNat 1), (1073966869, .ofNat 1), (1147547251, .negSucc 0), (8916540839, .negSucc 0)] 0))) (.node (.leaf (.adef 24889 [(8642399, .ofNat 1), (8669887, .ofNat 1), (35352451, .negSucc 0), (35502947, .negSucc 0), (271311379, .negSucc 0), (281322869, .negSucc 0), (794743589, .ofNat 1), (990071129, .ofNat 1), (1059075793, .ofNat 1), (1084522217, .ofNat 1), (1109829569, .ofNat 1), (1384881229, .ofNat 1), (1521223849, .ofNat 1), (2230303639, .negSucc 1), (2511330163, .negSucc 1), (2726472769, .ofNat 1), (3030981209, .ofNat 1), (3366356101, .ofNat 1), (4020765143, .ofNat 1), (4226975161, .ofNat 1), (4327350611, .ofNat 1), (4661777279, .ofNat 1), (4744090877, .ofNat 1), (4855114057, .negSucc 0), (4963548647, .ofNat 1), (5067550217, .ofNat 1), (5222909239, .ofNat 1), (8380033037, .ofNat 1), (9937116389, .negSucc 0), (10900556059, .ofNat 1), (13079094271, .ofNat 1), (13205827319, .ofNat 1), (13514269591, .negSucc 0), (13530860423, .negSucc 0), (16826945171, .ofNat 1), (23762651893, .ofNat 1), (27425828137, .negSucc 0), (49553418011, .ofNat 1), (51381957421, .ofNat 1), (67932015253, .ofNat 1), (69115752467, .ofNat 1), (81161824417, .ofNat 1), (83394754847, .ofNat 1), (83764995389, .ofNat 1), (84225986567, .ofNat 1), (86442101153, .ofNat 1), (87948382567, .ofNat 1), (88320334721, .ofNat 1), (108309666757, .ofNat 2), (108640531199, .ofNat 1), (109207378879, .negSucc 0), (112306333427, .ofNat 2), (120250618349, .negSucc 0), (121324855331, .ofNat 1), (122778915559, .negSucc 1), (122950805069, .ofNat 1), (126439753897, .negSucc 1), (135693968671, .negSucc 0), (135953583823, .ofNat 1), (136170131239, .negSucc 0), (136549567933, .negSucc 0), (137917267067, .ofNat 1), (139989353593, .negSucc 0), (142267312543, .negSucc 0), (146508293167, .ofNat 1), (147213815261, .ofNat 1), (148662720133, .ofNat 1), (149463828653, .ofNat 1), (153663593087, .negSucc 0), (157218090223, .ofNat 1), (161273013541, .ofNat 1), (177938557453, .ofNat 1), (192643699289, .ofNat 1), (263993115149, .negSucc 0), (268878870811, .negSucc 0), (313168474561, .ofNat 2), (654931322581, .ofNat 2), (1166715134911, .ofNat 2), (1331597133931, .negSucc 1), (2544690665287, .negSucc 1), (11165994722947, .ofNat 1), (11283979567477, .ofNat 1), (11578024048517, .ofNat 1), (11700362577347, .ofNat 1), (13112831699369, .ofNat 1), (13831111727879, .negSucc 0), (14208500097047, .ofNat 1), (14341484854369, .negSucc 0), (14358633400577, .ofNat 1), (15534028154371, .negSucc 0), (15969717736477, .negSucc 0), (16756378155347, .ofNat 1), (17599807021579, .negSucc 0)] 0)) .nil)) (.node (.node (.leaf (.adef 1117 [(4840613, .ofNat 1), (5814241, .ofNat 1), (12841027, .ofNat 1)] 0)) .nil) (.node (.leaf (.adef 20369 [(293764121, .ofNat 1), (375881569, .ofNat 1), (379313291, .ofNat 1), (508248251, .negSucc 0), (510238337, .ofNat 1), (627300821, .negSucc 0), (108056248321, .negSucc 0), (110570568059, .negSucc 0), (129462811037, .ofNat 1), (176134452067, .ofNat 1), (548653093247, .negSucc 0), (771296385979, .negSucc 0), (998181060989, .ofNat 1), (152303754645721, .ofNat 1), (184231333441393, .negSucc 0)] 0)) .nil))

def jac69 : JTree := .node (.node (.node (.node (.node (.leaf (.atom 521)) (.leaf (.adef 43783 [(48024827, .negSucc 0), (48365183, .negSucc 0), (48524519, .ofNat 1), (66974651, .ofNat 1), (67357951, .negSucc 0), (109069777, .negSucc 1)] 0))) (.node (.leaf (.adef 8513 [(2269, .negSucc 0), (115536053, .ofNat 1)] 0)) .nil)) (.node (.node (.leaf (.adef 3643 [(366560677, .ofNat 1), (748744622941, .negSucc 0)] 0)) .nil) (.node (.leaf (.adef 40213 [(14280923, .ofNat 1), (16320067, .negSucc 0), (25851589, .negSucc 0)] 0)) .nil))) jac68) (.node (.node (.node (.node (.leaf (.trans [(1612409, .ofNat 1), (72531390433, .negSucc 0), (79735167233, .ofNat 1)] 0)) (.leaf (.adef 27539 [(8946997, .negSucc 0), (1114988939, .negSucc 0), (128646447289, .ofNat 1)] 0))) (.node (.leaf (.adef 37607 [(6720871, .negSucc 0), (8056967, .ofNat 1)] 0)) .nil)) (.node (.node (.leaf (.adef 3701 [(369760951, .ofNat 1), (756852307001, .negSucc 0)] 0)) (.leaf (.trans [] 0))) (.node (.leaf (.adef 41281 [(27644381, .ofNat 1), (27768551, .ofNat 1), (31267937, .ofNat 1), (31392527, .ofNat 1), (34464697, .ofNat 1), (37505711, .ofNat 1), (1018018321, .ofNat 2), (1265797369, .ofNat 2), (1808344943, .ofNat 1), (2091945797, .ofNat 1), (3763917397, .ofNat 1), (3773207597, .ofNat 1), (4113833057, .ofNat 1), (510520520177, .negSucc 0), (556776959021, .ofNat 1)] 0)) .nil))) (.node (.node (.node (.leaf (.atom 4931)) (.leaf (.adef 46337 [(23452463, .negSucc 0), (23508479, .negSucc 0), (23710403, .ofNat 1), (26458301, .ofNat 1), (26986793, .negSucc 0)] 0))) (.node (.leaf (.adef 39373 [(6570079, .ofNat 1), (11076787, .negSucc 0), (11079611, .ofNat 1), (27490847, .ofNat 1), (27631481, .negSucc 0), (29739791, .ofNat 1), (33609071, .negSucc 0), (33612937, .ofNat 1), (33728333, .ofNat 1), (37375103, .negSucc 0), (696030547, .ofNat 1), (1596982837, .ofNat 1), (1597552349, .negSucc 0), (1670590991, .ofNat 1), (1670723017, .ofNat 1), (1708298219, .ofNat 1), (1708433257, .ofNat 1), (2425954327, .negSucc 0), (2426146049, .negSucc 0), (2490402731, .ofNat 1), (2490599593, .ofNat 1), (243177480389, .ofNat 1), (243330506413, .ofNat 1), (249233936221, .negSucc 0), (249312194777, .negSucc 0)] 0)) .nil)) (.node (.node (.leaf (.adef 13513 [(23773, .ofNat 1), (13122563, .ofNat 1), (944767793, .negSucc 0), (945968591, .negSucc 0), (1674217487, .negSucc 0), (2670806609, .negSucc 0), (2988454933, .negSucc 0), (3111135463, .negSucc 0), (3221560717, .negSucc 0), (3674453441, .negSucc 0), (4598098207, .negSucc 0), (8363094539, .negSucc 0)] 0)) .nil) (.node (.leaf (.adef 26737 [(711000749, .ofNat 1), (737236939, .ofNat 1), (785293231, .ofNat 1), (814270841, .ofNat 1), (1308123233, .ofNat 1), (1356393463, .ofNat 1), (2353301941, .ofNat 1), (2442705743, .ofNat 1), (3137713289, .ofNat 1), (3683498183, .ofNat 1), (4240023367, .ofNat 1), (6051125191, .negSucc 0), (8051376167, .negSucc 0), (8109328393, .ofNat 1), (9625761667, .ofNat 1), (10072231399, .ofNat 1), (323370997423, .negSucc 0), (324020100959, .ofNat 1), (335473732981, .negSucc 0), (336147130373, .ofNat 1), (370249051673, .ofNat 1), (384410666971, .ofNat 1), (388112745121, .ofNat 1), (402957626867, .ofNat 1)] 0)) .nil))))

def jac70 : JTree := .node (.node (.node (.node (.node (.leaf (.atom 1097)) (.leaf (.adef 44201 [(140579, .negSucc 0), (7836457697, .negSucc 0)] 0))) (.node (.leaf (.adef 24317 [(5704051, .ofNat 1), (6080801, .negSucc 0), (480707413, .negSucc 0), (593860009, .negSucc 0), (830005339, .negSucc 0), (20421911263519, .negSucc 1), (29655747135143, .ofNat 2), (858952958439647, .ofNat 2), (1189770129573391, .ofNat 2), (1247331427885159, .negSucc 1), (1727728695727127, .negSucc 1)] 0)) .nil)) (.node (.node (.leaf (.adef 1861 [(11023839647, .negSucc 0), (17374501909, .ofNat 1), (17570127943, .negSucc 0), (44400467021, .negSucc 0), (47415946657, .negSucc 0), (47464132267, .ofNat 1), (55809100517, .negSucc 0), (59564536963, .ofNat 1), (60178437217, .negSucc 0)] 0)) (.leaf (.trans [] 0))) (.node (.leaf (.adef 19819 [(18164851, .negSucc 0), (26479127, .ofNat 1), (68933939, .ofNat 1)] 0)) .nil))) (.node (.node (.node (.leaf (.atom 16981)) (.leaf (.adef 34607 [(137019, .ofNat 2), (695469591, .negSucc 0)] 0))) (.node (.leaf (.adef 38903 [(6749063, .negSucc 0), (7924459, .ofNat 1)] 0)) .nil)) (.node (.node (.leaf (.adef 17597 [(5328137, .negSucc 0), (7951439, .negSucc 0), (14024519, .ofNat 1), (15141019, .ofNat 1), (22123939, .negSucc 0), (29221651, .negSucc 0)] 0)) .nil) (.node (.leaf (.adef 9157 [(42487, .ofNat 1), (8885593, .negSucc 0), (10854451, .ofNat 1), (12010879, .ofNat 1), (15175793, .ofNat 1), (17747393, .negSucc 0), (20171117, .negSucc 0), (23603557, .ofNat 1), (25615741, .negSucc 0), (30409373, .ofNat 1), (44762197, .negSucc 0)] 0)) .nil)))) (.node (.node (.node (.node (.leaf (.atom 1747)) (.leaf (.adef 34319 [(265787927, .ofNat 1), (555844067, .ofNat 1)] 0))) (.node (.leaf (.adef 30983 [(3041, .ofNat 1), (1656041, .ofNat 1), (1737629, .ofNat 1), (2568179, .ofNat 1), (2964439, .negSucc 0)] 0)) .nil)) (.node (.node (.leaf (.mult 2917 1339 (.negSucc 0) 0)) .nil) (.node (.leaf (.adef 4409 [(1514609, .negSucc 0), (1927309, .negSucc 0), (2437823, .ofNat 1)] 0)) .nil))) (.node (.node (.node (.leaf (.atom 8221)) (.leaf (.adef 47491 [(101155301, .ofNat 1), (902049109, .negSucc 0), (963302743, .negSucc 0), (1010724793, .ofNat 1)] 0))) (.node (.leaf (.adef 8819 [(8761351, .negSucc 0), (11588293, .negSucc 0), (11752649, .ofNat 1), (17512577, .ofNat 1)] 0)) .nil)) (.node (.node (.leaf (.adef 18013 [(287729869, .ofNat 1), (361197613, .ofNat 1), (371323267, .ofNat 1), (450379517, .ofNat 1), (496027021, .negSucc 0), (554848763, .negSucc 0), (92160441107, .negSucc 0), (96555214441, .negSucc 0), (111480120731, .ofNat 1), (115652565749, .ofNat 1), (540709177967, .negSucc 0), (758472790411, .negSucc 0), (983879743217, .ofNat 1), (151635074351929, .ofNat 1), (183422477071057, .negSucc 0)] 0)) .nil) (.node (.leaf (.adef 20929 [(123902941, .negSucc 0), (198401923, .ofNat 1), (245975293, .ofNat 1), (6202980527, .ofNat 1), (6271998391, .ofNat 1), (9149766077, .ofNat 1), (9251571541, .ofNat 1), (11788665761, .ofNat 1), (11925894839, .ofNat 1), (16337226569, .negSucc 0), (16519003777, .negSucc 0), (17119494433, .ofNat 1), (18530334533, .ofNat 1), (27330631057, .ofNat 1), (35027013727, .ofNat 1), (48838229599, .negSucc 0), (88264315613, .ofNat 1), (89287644209, .ofNat 1), (188581442947, .ofNat 1), (204105407683, .ofNat 1), (1166496145481, .negSucc 0), (1631967053749, .ofNat 1), (1650420072659, .ofNat 1), (2974582338047, .negSucc 0), (3212721364637, .negSucc 0), (4397070853507, .ofNat 1), (4446789523637, .ofNat 1), (5184615582847, .ofNat 1), (16776524314357, .ofNat 1)] 0)) .nil))))

def jac71 : JTree := .node (.node (.node (.node (.node (.leaf (.atom 47659)) (.leaf (.adef 11447 [(44281, .ofNat 1), (5876279, .negSucc 0), (6282091, .negSucc 0), (11237101, .ofNat 1), (1633896079, .negSucc 0), (1633939493, .negSucc 0), (1661421733, .negSucc 0), (1682170613, .negSucc 0), (7139370893, .negSucc 0), (7257112123, .negSucc 0), (7554656071, .negSucc 0), (7584727307, .negSucc 0), (9830226457, .ofNat 1), (10583303321, .negSucc 0), (10994238001, .negSucc 0), (11947646873, .negSucc 0)] 0))) (.node (.leaf (.adef 11257 [(5083789, .negSucc 0), (539535853, .negSucc 0), (667459769, .ofNat 1), (1016021179, .negSucc 0), (1161467831, .ofNat 1), (1399350749, .ofNat 1), (1433780057, .ofNat 1), (1436744207, .negSucc 0), (1855573897, .ofNat 1), (1913000069, .ofNat 1), (1929236053, .negSucc 0), (1955078459, .negSucc 0), (2042850211, .ofNat 1), (2377976773, .ofNat 1), (2420843071, .negSucc 0), (3143996407, .ofNat 1), (100090076101, .negSucc 0), (110287163027, .negSucc 0), (127362576401, .negSucc 0), (140338161127, .negSucc 0), (2245088739196937, .negSucc 0), (2856829540068037, .negSucc 0), (3260213164500289, .ofNat 1), (4148554626216989, .ofNat 1)] 0)) .nil)) (.node (.node (.leaf (.adef 9719 [(35507, .ofNat 4), (29270867, .ofNat 4), (240872903, .negSucc 3), (249685523, .negSucc 3), (254026177, .negSucc 3), (259364689, .negSucc 3), (942613549, .negSucc 3), (965931409, .negSucc 3), (990352283, .negSucc 3), (28872963979, .ofNat 4), (29900163079, .negSucc 3), (30314198303, .ofNat 4), (49639010231, .negSucc 1), (124161490223, .ofNat 4), (127581010919, .negSucc 3), (11150926059989, .negSucc 1)] 1)) (.leaf (.trans [(46589, .negSucc 0)] 0))) (.node (.leaf (.adef 41131 [(5110321, .negSucc 0), (10540223, .negSucc 0), (150868769923, .ofNat 1), (186197308537, .ofNat 1), (196265150539, .ofNat 1), (269327216143, .negSucc 0)] 0)) .nil))) (.node (.node (.node (.leaf (.atom 17123)) (.leaf (.adef 46027 [(4125943, .ofNat 1), (17275777, .negSucc 0), (1364299393, .negSucc 1)] 0))) (.node (.leaf (.adef 25229 [(39113, .negSucc 0), (8428577, .ofNat 1), (253951333, .ofNat 1), (27692340673, .negSucc 0), (125322824057, .ofNat 1)] 0)) .nil)) (.node (.node (.leaf (.adef 36017 [(10989646201, .ofNat 1)] 0)) .nil) (.node (.leaf (.adef 26647 [(3091651, .negSucc 0), (3287161, .negSucc 0), (6414997, .ofNat 1), (6839453, .negSucc 0), (116581841, .ofNat 1), (127248449, .negSucc 0), (427709903, .negSucc 0), (528817847, .negSucc 0)] 0)) .nil)))) (.node (.node (.node (.node (.leaf (.atom 1039)) (.leaf (.adef 27919 [(249419098681, .ofNat 1), (260811928957, .ofNat 1), (262307253413, .ofNat 1), (284150067689, .negSucc 0), (1137374596373, .negSucc 0), (1156556899103, .negSucc 0), (1209385477691, .negSucc 0), (1232085900569, .ofNat 1)] 0))) (.node (.leaf (.adef 8677 [(38669, .negSucc 1), (886045579, .ofNat 2)] 0)) .nil)) (.node (.node (.leaf (.adef 4999 [(291965513, .ofNat 1), (545040914579, .ofNat 1), (149627548589939, .ofNat 1), (180526006627757, .ofNat 1), (2767300753313593, .negSucc 0), (3338755188075559, .negSucc 0)] 0)) .nil) (.node (.leaf (.adef 41669 [(7379269, .negSucc 0), (8833997, .ofNat 1)] 0)) .nil))) (.node (.node (.node (.leaf (.atom 12101)) (.leaf (.atom 359))) (.node (.leaf (.adef 9833 [(6028117, .ofNat 1), (6786973, .ofNat 1), (6830279, .ofNat 1), (9064151, .ofNat 1), (740411293, .negSucc 0), (888419071, .ofNat 1)] 0)) .nil)) (.node (.node (.leaf (.adef 24083 [(4833337, .negSucc 0), (7588369, .negSucc 0), (10295171, .ofNat 1), (11449189, .ofNat 1), (12566683, .negSucc 0)] 0)) .nil) (.node (.leaf (.adef 43669 [(37779367, .ofNat 1), (1126679977, .negSucc 0), (1228764421, .ofNat 1), (123620178991, .negSucc 0), (132159198401, .ofNat 1), (513474173521, .negSucc 0), (559998232333, .ofNat 1)] 0)) .nil))))

def jac72 : JTree := .node (.node (.node (.node (.node (.node (.leaf (.atom 1009)) (.leaf (.adef 21019 [(6239963, .negSucc 0), (6745637, .ofNat 1), (16575551, .ofNat 1), (33776707, .negSucc 1)] 0))) (.node (.leaf (.adef 4157 [(127759, .negSucc 0), (40511167, .negSucc 0), (71829701, .negSucc 0)] 0)) .nil)) (.node (.node (.leaf (.adef 28843 [(71928673, .ofNat 1), (75566486449, .negSucc 0), (79222407001, .negSucc 0)] 0)) .nil) (.node (.leaf (.adef 32059 [(5630413, .ofNat 1), (13277249, .ofNat 1)] 0)) .nil))) (.node (.node (.node (.leaf (.atom 16883)) (.leaf (.adef 5669 [(74429, .ofNat 1), (30475817, .negSucc 0)] 0))) (.node (.leaf (.adef 18913 [(18911, .ofNat 1), (5954183, .negSucc 0), (6471607, .ofNat 1), (8796703, .ofNat 1), (10544687, .ofNat 1), (11112767, .negSucc 0), (17147521, .negSucc 0), (28591991, .ofNat 1), (30280597, .negSucc 0)] 0)) .nil)) (.node (.node (.leaf (.adef 2957 [(291522917, .ofNat 1), (103847957633, .ofNat 1), (542393408417, .ofNat 1), (759586093441, .ofNat 1), (996287336233, .negSucc 0), (94814754319733, .negSucc 0), (114077213747441, .ofNat 1)] 0)) .nil) (.node (.leaf (.adef 41927 [(11547689, .negSucc 0), (11549101, .ofNat 1), (27687241, .ofNat 1), (28591097, .ofNat 1), (28613467, .ofNat 1), (29961977, .ofNat 1), (33794639, .ofNat 1), (33989467, .ofNat 1), (33993893, .ofNat 1), (37212169, .ofNat 1), (37229671, .ofNat 1), (37937843, .negSucc 0), (803611889, .ofNat 1), (1738716407, .ofNat 1), (1739244511, .ofNat 1), (1776897523, .ofNat 1), (1777167599, .ofNat 1), (2524882879, .negSucc 0), (2525649767, .negSucc 0), (2590408627, .ofNat 1), (2590802351, .ofNat 1), (263385845279, .ofNat 1)] 0)) .nil)))) (.node (.node (.node (.node (.leaf (.atom 16811)) (.leaf (.adef 27509 [(7221191, .negSucc 0), (9130129, .negSucc 0)] 0))) (.node (.leaf (.adef 3533 [(3820493, .ofNat 2), (4674781, .ofNat 2), (6283411, .ofNat 2), (7021129, .ofNat 2)] 0)) .nil)) (.node (.node (.leaf (.adef 22901 [(47342077, .negSucc 0), (50236687, .negSucc 0), (99018349, .ofNat 1), (100796119, .ofNat 1)] 0)) .nil) (.node (.leaf (.adef 14071 [(8827067, .negSucc 0), (11776159, .ofNat 1), (18274621, .negSucc 0)] 0)) .nil))) (.node (.node (.node (.leaf (.atom 10667)) (.leaf (.adef 34949 [(21335707, .negSucc 0), (21618973, .ofNat 1), (22278077, .ofNat 1), (22726589, .negSucc 0)] 0))) (.node (.leaf (.adef 31531 [(117879, .ofNat 8), (504170217, .negSucc 3), (686171439, .negSucc 3), (740346129, .negSucc 3), (1360497749067, .ofNat 6)] 1)) .nil)) (.node (.node (.leaf (.adef 15601 [(11322247, .ofNat 1), (829545256933, .ofNat 1)] 0)) .nil) (.node (.leaf (.adef 6343 [(26713, .ofNat 1), (3861833, .negSucc 0), (231455927, .ofNat 1), (418319851, .ofNat 1), (114653393797, .negSucc 0), (116977788139, .negSucc 0), (977675454011, .negSucc 0)] 0)) .nil))))) (.node (.node (.node (.node (.node (.leaf (.atom 1033)) (.leaf (.adef 33829 [(912811, .ofNat 1), (2143307, .ofNat 1), (294357109, .ofNat 1), (802174211, .negSucc 0), (49041671897, .ofNat 1), (53912463097, .negSucc 0)] 0))) (.node (.leaf (.adef 6833 [(309563, .ofNat 1), (341101, .ofNat 1), (986371, .ofNat 1), (1578677, .ofNat 1), (6943709431, .ofNat 1), (10083331007, .negSucc 0)] 0)) .nil)) (.node (.node (.leaf (.adef 29033 [(774056999069, .ofNat 1), (28003482611869, .ofNat 1), (31238119863887, .negSucc 0)] 0)) (.leaf (.trans [] 0))) (.node (.leaf (.adef 32323 [(56586521, .negSucc 1), (4827763019, .negSucc 0), (420889411997, .negSucc 1), (699382127909, .negSucc 0), (972526898909, .ofNat 1)] 1)) .nil))) (.node (.node (.node (.leaf (.atom 8123)) (.leaf (.adef 28349 [(3919527091, .ofNat 4), (3983393429, .negSucc 3), (4165344713, .negSucc 3), (4245913423, .negSucc 3), (286477008407, .negSucc 3), (299562549779, .negSucc 3), (714485257439, .ofNat 2), (823884519769, .negSucc 1), (44699530710337, .ofNat 4), (47787134720207, .negSucc 3), (48421744011061, .negSucc 3), (51766458566171, .ofNat 4), (120765789993997, .ofNat 2), (122936767030307, .ofNat 2), (129107643510467, .negSucc 1), (131428580004877, .negSucc 1)] 1))) (.node (.leaf (.adef 12391 [(39195307, .ofNat 1), (46161221, .negSucc 0), (47232349, .negSucc 0), (16364314553, .ofNat 1)] 0)) .nil)) (.node (.node (.leaf (.adef 11173 [(381333659, .ofNat 1), (448833372203317927, .ofNat 1)] 0)) .nil) (.node (.leaf (.adef 20507 [(8602427, .ofNat 1), (10783499, .ofNat 1), (11278991, .negSucc 0), (30682471, .negSucc 0)] 0)) .nil)))) (.node (.node (.node (.node (.leaf (.atom 1669)) (.leaf (.adef 21601 [(30229753, .ofNat 1), (2130551713, .ofNat 1), (3040163671, .negSucc 0), (663120468889, .negSucc 0)] 0))) (.node (.leaf (.adef 24781 [(361147, .ofNat 1), (1539683, .ofNat 1), (282732173, .negSucc 0), (310812973, .ofNat 1), (9227309239, .ofNat 1)] 0)) .nil)) (.node (.node (.leaf (.adef 17509 [(6174323, .ofNat 1), (10936693, .ofNat 1), (14051189, .ofNat 1), (133736521, .ofNat 1), (1016666213, .ofNat 1), (1038644777, .ofNat 1), (1039184929, .ofNat 1), (1476355261, .negSucc 0), (1514164073, .ofNat 1), (1514951521, .ofNat 1)] 0)) .nil) (.node (.leaf (.adef 26177 [(4199641, .ofNat 1), (4495433, .negSucc 0)] 0)) .nil))) (.node (.node (.node (.leaf (.atom 6089)) (.leaf (.adef 22193 [(4175099, .ofNat 1), (60330323, .negSucc 0), (10038099679, .ofNat 1), (11035078079, .negSucc 0)] 0))) (.node (.leaf (.adef 15991 [(34686439, .ofNat 1), (35137873, .negSucc 0), (35326591, .negSucc 0), (35405329, .ofNat 1)] 0)) .nil)) (.node (.node (.leaf (.adef 15641 [(7025089, .ofNat 1), (58840627, .ofNat 1), (70603153, .ofNat 1), (88582457, .ofNat 1)] 0)) .nil) (.node (.leaf (.adef 43177 [(5494831, .ofNat 1), (6678409, .negSucc 0), (10662661, .ofNat 1), (152568927781, .negSucc 0), (188295587839, .negSucc 0), (198476885533, .negSucc 0), (272362296121, .ofNat 1)] 0)) .nil)))))

def jac73 : JTree := .node (.node (.node (.node (.node (.leaf (.atom 1091)) (.leaf (.adef 14461 [(8361217, .negSucc 0), (23829803, .ofNat 1), (26087093, .negSucc 0)] 0))) (.node (.leaf (.trans [(290891, .ofNat 1)] 0)) .nil)) (.node (.node (.leaf (.adef 28933 [(207399, .ofNat 4), (288399, .negSucc 3), (50339439, .ofNat 2), (61702551, .ofNat 1), (2211314769, .ofNat 2), (3223713681, .ofNat 2), (91271436579, .negSucc 1)] 0)) (.leaf (.trans [(14879, .ofNat 1)] 0))) (.node (.leaf (.adef 7393 [(3954341, .negSucc 0), (4279181, .ofNat 1), (2919131629241, .negSucc 0), (3053843250929, .negSucc 0), (4239026814577, .ofNat 1), (4451974185521, .negSucc 0)] 0)) .nil))) (.node (.node (.node (.leaf (.atom 11677)) (.leaf (.adef 45413 [(7317991, .negSucc 0), (8592011, .ofNat 1)] 0))) (.node (.leaf (.adef 19051 [(3268933, .ofNat 1), (4400699, .ofNat 1), (13677691, .ofNat 1), (14685871, .ofNat 1), (36059029, .negSucc 0), (38332549, .ofNat 1), (50515793, .ofNat 1), (108831329, .ofNat 1), (1982423351, .negSucc 0), (2028815311, .negSucc 0), (7518835409, .ofNat 1), (31738588811, .negSucc 0), (37016642653, .negSucc 0)] 0)) .nil)) (.node (.node (.leaf (.adef 35729 [(57150697, .ofNat 1), (57731123, .negSucc 0), (64049971, .negSucc 0), (64330373, .ofNat 1)] 0)) .nil) (.node (.leaf (.adef 32993 [(4297, .ofNat 1), (1769743, .ofNat 1), (1857137, .ofNat 1), (2558147, .ofNat 1), (3046187, .negSucc 0)] 0)) .nil)))) (.node (.node (.node (.node (.leaf (.atom 12037)) (.leaf (.adef 44771 [(116749719, .ofNat 2), (160227819, .ofNat 1), (262368301311, .negSucc 1)] 0))) (.node (.leaf (.adef 30853 [(15231, .ofNat 4), (33673023, .negSucc 1), (63307683, .negSucc 1), (138662127, .negSucc 1), (150213519, .negSucc 0), (245712627, .negSucc 0), (247402359, .negSucc 0), (1229368131, .negSucc 1), (66696003207, .ofNat 3), (276043334319, .ofNat 2), (311145055623, .ofNat 2), (365961671811, .ofNat 2), (369626585499, .ofNat 1), (431777033379, .ofNat 1), (546757774346871, .negSucc 3)] 0)) .nil)) (.node (.node (.leaf (.adef 29243 [(223287, .negSucc 1), (18062487, .ofNat 1), (52624881, .ofNat 2), (62490303, .ofNat 1), (90165854781, .negSucc 1)] 0)) .nil) (.node (.leaf (.adef 20107 [(4485461, .ofNat 1), (14599021, .ofNat 1), (15683399, .ofNat 1), (72096797, .ofNat 1), (7195274717, .ofNat 1), (31702809263, .ofNat 1), (36974913049, .ofNat 1), (471212915543, .negSucc 0), (481699015909, .negSucc 0)] 0)) .nil))) (.node (.node (.node (.leaf (.atom 6793)) (.leaf (.adef 46687 [(46429639, .negSucc 0), (50031257, .negSucc 0), (50099113, .ofNat 1), (64967491, .ofNat 1), (65778289, .negSucc 0)] 0))) (.node (.leaf (.adef 39619 [(12394579, .ofNat 1), (14334337, .ofNat 1), (25455841, .ofNat 1), (27386263, .ofNat 2), (27558169, .ofNat 2), (27574541, .ofNat 2), (30910559, .ofNat 1), (31041727, .ofNat 1), (31058123, .ofNat 1), (34543423, .ofNat 1), (34582729, .ofNat 1), (37479529, .ofNat 1), (37490567, .ofNat 1), (2295638561, .ofNat 1), (2348140813, .ofNat 1), (2558147287, .ofNat 1), (2651049503, .negSucc 0), (2891251619, .ofNat 1), (3134659981, .ofNat 1), (4268530093, .ofNat 1), (5192210479, .ofNat 1), (9365103079, .ofNat 1), (9710547907, .ofNat 1), (10970323597, .ofNat 1), (348735471781, .ofNat 1), (349948933267, .ofNat 1), (352102103557, .negSucc 0), (356853420719, .ofNat 1), (404684874791, .negSucc 0), (412669301587, .negSucc 0), (426064791071, .ofNat 1), (430177946687, .negSucc 0), (1142417732459, .negSucc 0), (1245928118207, .ofNat 1)] 0)) .nil)) (.node (.node (.leaf (.adef 36313 [(1337013791, .ofNat 4), (1808835451, .ofNat 2)] 1)) .nil) (.node (.leaf (.adef 26903 [(921477761, .negSucc 3), (939033089, .negSucc 3), (981925733, .negSucc 3), (998210933, .ofNat 4), (3726545993, .ofNat 4), (3787258169, .negSucc 3), (3960250493, .negSucc 3), (4036862429, .negSucc 3), (106230508889, .negSucc 3), (115076521517, .ofNat 4), (240522756343, .negSucc 1), (252787797811, .negSucc 1), (422187258611, .negSucc 3), (441471699167, .negSucc 3), (481365096829, .negSucc 3), (521449266337, .ofNat 4), (643753497407, .ofNat 2), (741940762949, .negSucc 1), (1089887087123, .negSucc 1), (1145463991871, .negSucc 1), (63565818073957, .ofNat 4), (68859062314921, .negSucc 3), (69381746676373, .negSucc 3), (75159294140569, .ofNat 4), (104996684028877, .ofNat 2), (106829207055079, .ofNat 2), (114603312816253, .negSucc 1), (116603501789431, .negSucc 1)] 1)) .nil))))

def jac74 : JTree := .node (.node (.node (.node (.leaf (.atom 3907)) (.leaf (.adef 34351 [(12284141, .negSucc 0), (12289831, .negSucc 0), (12290969, .ofNat 1), (14257109, .negSucc 0), (14262397, .negSucc 0), (14269007, .ofNat 1), (18972983, .negSucc 0), (18975589, .negSucc 0), (22618571, .negSucc 0), (26567293, .ofNat 1), (27686513, .negSucc 0), (27689071, .negSucc 0), (27704419, .ofNat 1), (29147383, .ofNat 1), (36149129, .negSucc 0), (36156947, .ofNat 1), (50478983, .negSucc 0), (58235351, .negSucc 0), (58262221, .ofNat 1), (59278243, .ofNat 1), (607689587, .ofNat 1), (630113557, .ofNat 1), (1356228443, .negSucc 0), (1406273773, .negSucc 0), (1907002369, .ofNat 1), (1907533987, .negSucc 0), (1910014871, .ofNat 1), (2015418599, .ofNat 1), (2068958443, .ofNat 1), (2075078501, .ofNat 1), (2096404769, .negSucc 0), (2096989187, .ofNat 1), (2099716471, .negSucc 0), (2221319521, .negSucc 0), (2292565757, .negSucc 0), (2367232891, .negSucc 0), (2450339453, .negSucc 0), (2541200177, .negSucc 0), (2583821899, .ofNat 1), (2644401923, .ofNat 1), (4013325991, .negSucc 0), (4142769793, .negSucc 0), (6728179343, .ofNat 1), (6731389097, .ofNat 1), (6734598851, .negSucc 0), (7944639863, .ofNat 1), (8786977429, .ofNat 1), (8870558777, .ofNat 1), (9219549349, .negSucc 0), (9830764159, .ofNat 1), (10428136561, .ofNat 1), (11448384487, .ofNat 1), (37297048441, .negSucc 0), (43803463091, .ofNat 1), (269340153997, .ofNat 1), (277755656291, .ofNat 1), (288440378977, .ofNat 1), (298159120547, .ofNat 1), (304997052167, .ofNat 1), (313551435929, .ofNat 1), (337782400733, .ofNat 1), (344179318111, .ofNat 1), (350320924361, .ofNat 1), (353212203073, .negSucc 0), (363118897951, .negSucc 0), (381005955761, .ofNat 1), (620698481567, .negSucc 0), (620994592793, .negSucc 0), (621290704019, .ofNat 1), (682345904767, .ofNat 1), (682671425593, .ofNat 1), (682996946419, .negSucc 0), (1018978590277, .negSucc 0), (1112209620853, .ofNat 1), (3668764831883, .negSucc 0), (4131042797111, .negSucc 0)] 0))) (.node (.leaf (.adef 38603 [(3769900039, .negSucc 0), (4118401849, .ofNat 1), (4782518987, .negSucc 0), (4966587749, .ofNat 1), (5158803751, .negSucc 0), (8195116793, .ofNat 1), (11155485487, .ofNat 1), (1159895551057, .ofNat 1), (1279322601163, .ofNat 1)] 0)) .nil)) (.node (.node (.leaf (.adef 4967 [(289118501, .ofNat 1), (347321317, .ofNat 1), (370958609, .ofNat 1), (504226373, .negSucc 0), (532002863, .negSucc 0), (16277802653, .ofNat 1), (91036598177, .negSucc 0), (91743054781, .negSucc 0), (108486591731, .negSucc 0), (109531491629, .ofNat 1), (110455116457, .ofNat 1), (170727558407, .ofNat 1), (538515636421, .negSucc 0), (752593850869, .negSucc 0), (986945933309, .ofNat 1), (148688932214963, .ofNat 1), (178896409360151, .negSucc 0)] 0)) .nil) (.node (.leaf (.adef 41641 [(757340833, .negSucc 0), (6108102760007, .ofNat 1)] 0)) .nil))) (.node (.node (.node (.leaf (.atom 1531)) (.leaf (.atom 467))) (.node (.leaf (.adef 19543 [(6026903, .negSucc 0), (8835661, .ofNat 1), (562730741, .negSucc 0), (2679007703, .ofNat 1), (3076987259, .ofNat 1), (25313455261117, .ofNat 1), (27827573364317, .negSucc 0)] 0)) .nil)) (.node (.node (.leaf (.adef 36857 [(3441569, .ofNat 1), (4100309, .negSucc 0)] 0)) .nil) (.node (.leaf (.adef 33647 [(1725749, .negSucc 0), (2827949, .ofNat 1), (339017869, .negSucc 0), (465221353, .ofNat 1)] 0)) .nil)))

def jac75 : JTree := .node (.node (.node (.node (.leaf (.atom 28537)) (.leaf (.adef 27653 [(7594883, .ofNat 4), (2381371921, .ofNat 2)] 1))) (.node (.leaf (.adef 18521 [(8839489, .ofNat 1), (15357011, .ofNat 1), (25340123, .ofNat 1), (60679447, .ofNat 1), (72715667, .negSucc 0), (91208989, .ofNat 1), (105208361, .ofNat 1), (105300301, .ofNat 1), (142958573, .ofNat 1), (160237237, .ofNat 1), (164241293, .ofNat 1), (261622901, .ofNat 1)] 0)) .nil)) (.node (.node (.leaf (.adef 22943 [(2224749849467, .ofNat 1), (7905200540119, .negSucc 0)] 0)) (.leaf (.trans [] 0))) (.node (.leaf (.adef 14083 [(11919222191, .ofNat 1), (12495876359, .ofNat 1)] 0)) .nil))) (.node (.node (.node (.leaf (.atom 7549)) (.leaf (.adef 46457 [(879756839, .ofNat 1), (940571827, .ofNat 1), (982528339, .negSucc 0), (1324267451, .negSucc 0)] 0))) (.node (.leaf (.adef 19387 [(38959, .ofNat 1), (75492341, .negSucc 0), (75843359, .negSucc 0), (76147949, .ofNat 1), (84172883, .ofNat 1), (84550577, .negSucc 0), (85543769, .ofNat 1), (99342731, .negSucc 0), (104951449, .ofNat 1), (112953751, .ofNat 1), (114628639, .ofNat 1)] 0)) .nil)) (.node (.node (.leaf (.adef 23827 [(8917687, .ofNat 1), (8985089, .ofNat 1), (15647081, .ofNat 1), (17843611, .negSucc 0), (19001449, .ofNat 1), (19475441, .ofNat 1), (20761259, .ofNat 1), (21358279, .ofNat 1), (25842517, .ofNat 1), (26551787, .ofNat 1), (27685331, .ofNat 1), (35425867, .ofNat 1), (37057859, .ofNat 1), (37818857, .ofNat 1), (47993279, .ofNat 1), (591652891, .ofNat 1), (613485101, .ofNat 1), (845900213, .negSucc 0), (877114243, .negSucc 0), (1743764947, .ofNat 1), (1765854157, .ofNat 1), (1801906037, .ofNat 1), (1808110517, .ofNat 1), (1819258501, .ofNat 1), (1976717089, .negSucc 0), (2035655887, .negSucc 0), (2257227197, .ofNat 1), (3139000859, .ofNat 1), (3262378247, .ofNat 1), (3296836541, .ofNat 1), (3558344633, .negSucc 0), (3672938917, .negSucc 0), (5608326107, .ofNat 1), (6742791137, .ofNat 1), (6909075259, .ofNat 1), (7207044863, .ofNat 1), (7716431551, .ofNat 1), (7826709677, .ofNat 1), (7876691227, .ofNat 1), (8809199473, .ofNat 1), (8844125383, .negSucc 0), (8940460427, .ofNat 1), (9199248053, .ofNat 1), (10552552187, .ofNat 1), (10628323561, .ofNat 1), (10830227171, .ofNat 1), (11728729847, .ofNat 1), (12463296647, .ofNat 1), (12481890847, .ofNat 1), (13257106937, .ofNat 1), (14844801691, .ofNat 1), (19949435773, .ofNat 1), (20271736993, .ofNat 1), (20506282021, .ofNat 1), (21329142283, .negSucc 0), (22826050981, .ofNat 1), (27932387233, .ofNat 1), (35085007499, .ofNat 1), (35458045463, .ofNat 1), (260464554949, .ofNat 1), (265149315689, .ofNat 1), (272547880727, .ofNat 1), (275077386323, .ofNat 1), (277966698011, .ofNat 1), (287374375279, .ofNat 1), (299031770899, .ofNat 1), (310287024647, .ofNat 1), (314583022973, .negSucc 0), (320837586089, .negSucc 0), (322938809111, .ofNat 1), (343592159437, .ofNat 1), (356303138981, .ofNat 1), (356457390559, .ofNat 1), (370405139543, .negSucc 0), (384346814779, .negSucc 0)] 0)) .nil) (.node (.leaf (.adef 42787 [(9227147, .ofNat 1), (14650301, .negSucc 0), (18770677, .ofNat 1), (15233017511, .ofNat 1), (18800092709, .ofNat 1), (214312124737, .negSucc 0), (6859372379137, .negSucc 0), (1102276380113471, .negSucc 0), (1512612035610227, .ofNat 1)] 0)) .nil)))

def jac76 : JTree := .node (.node (.node (.node (.node (.leaf (.atom 2647)) (.leaf (.adef 21313 [(3219943, .negSucc 0), (29840351, .ofNat 1), (39964571, .ofNat 1), (1098769799, .negSucc 0), (1175604641, .negSucc 0), (8908506713, .negSucc 0)] 0))) (.node (.leaf (.adef 37307 [(6579841, .ofNat 1), (8007079, .negSucc 0), (10628671, .negSucc 0), (1137664057, .negSucc 1)] 0)) .nil)) (.node (.node (.leaf (.adef 2039 [(8576364031, .ofNat 1)] 0)) (.leaf (.trans [(2417, .ofNat 1)] 0))) (.node (.leaf (.adef 32327 [(1824469, .ofNat 1), (2816689, .negSucc 0), (333635209, .ofNat 1), (457834933, .negSucc 0)] 0)) .nil))) (.node (.node (.node .nil (.leaf (.adef 45757 [(18761339, .ofNat 1), (41302453, .ofNat 1)] 0))) (.node (.leaf (.adef 7793 [(38923, .ofNat 1), (686447017, .ofNat 1), (896657677, .ofNat 1), (1250550419, .ofNat 1), (1506312337, .ofNat 1), (1770560411, .ofNat 1), (1794277333, .ofNat 1), (2221733777, .ofNat 1), (2635418641, .ofNat 1), (2820178609, .ofNat 1), (3604543351, .ofNat 1), (90338348813, .ofNat 1), (93143705621, .ofNat 1), (103864952957, .ofNat 1), (114953702713, .ofNat 1), (118523461921, .ofNat 1), (132166030057, .ofNat 1), (166897782209, .ofNat 1), (172080606953, .ofNat 1), (191887836401, .ofNat 1)] 0)) .nil)) (.node (.node (.leaf (.adef 29741 [(19180307, .ofNat 1), (20593481, .negSucc 0), (21134873, .negSucc 0), (21165647, .ofNat 1)] 0)) .nil) (.node (.leaf (.adef 16361 [(15370759837, .ofNat 1), (16897375037, .negSucc 0), (17090640451, .ofNat 1), (29543506189, .negSucc 0)] 0)) .nil)))) (.node (.node (.node (.node (.leaf (.atom 10037)) (.leaf (.adef 11483 [(44971, .ofNat 1), (44983, .negSucc 0), (1464236441, .ofNat 1), (1464275347, .ofNat 1), (597678894403, .ofNat 1), (624660519827, .ofNat 1), (719802292367, .ofNat 1), (761671979149, .ofNat 1), (809594612977, .negSucc 0), (983980439153, .ofNat 1), (1067024826899, .ofNat 1), (1108455889819, .ofNat 1)] 0))) (.node (.leaf (.adef 38371 [(3382837, .negSucc 0), (3767711, .ofNat 1), (7019281, .negSucc 0), (322522457, .negSucc 0), (398046683, .negSucc 0), (25422213469, .negSucc 0), (26975421047, .negSucc 0)] 0)) .nil)) (.node (.node (.leaf (.adef 5569 [(176959, .negSucc 0), (218791, .negSucc 0)] 0)) .nil) (.node (.leaf (.adef 26227 [(707247941, .ofNat 1), (733345651, .ofNat 1), (781021187, .ofNat 1), (809841157, .ofNat 1), (1303998613, .ofNat 1), (1352116643, .ofNat 1), (2344640239, .ofNat 1), (2434152103, .ofNat 1), (3099606071, .ofNat 1), (3643096643, .ofNat 1), (4188514321, .ofNat 1), (6037929749, .negSucc 0), (7976667103, .negSucc 0), (8076603671, .ofNat 1), (9493855823, .ofNat 1), (9947040617, .ofNat 1), (93042524579, .negSucc 0), (93229289107, .ofNat 1), (108622974193, .negSucc 0), (112298342911, .negSucc 0), (113863791161, .negSucc 0), (117158339071, .negSucc 0), (117393511343, .ofNat 1), (117716488247, .negSucc 0), (322878491779, .negSucc 0), (323526606707, .ofNat 1), (335048166911, .negSucc 0), (335720710063, .ofNat 1), (363828779833, .ofNat 1), (378252773399, .ofNat 1), (381382709441, .ofNat 1), (396502628623, .ofNat 1)] 0)) .nil))) (.node (.node (.node (.leaf (.atom 3923)) (.leaf (.atom 1931))) (.node (.leaf (.adef 31883 [(19836727, .ofNat 1), (21285493, .negSucc 0), (22457233, .negSucc 0), (22502371, .ofNat 1)] 0)) .nil)) (.node (.node (.leaf (.adef 30203 [(2494003, .negSucc 0), (3023591, .ofNat 1), (3174749, .ofNat 1), (3761623, .negSucc 0), (98609507, .negSucc 0), (121700633, .negSucc 0), (319361333, .ofNat 1), (394145327, .ofNat 1)] 0)) .nil) (.node (.leaf (.adef 43403 [(5513141, .ofNat 1), (6686621, .negSucc 0), (10637329, .negSucc 0), (153540446557, .ofNat 1), (189494604583, .ofNat 1), (199740734101, .ofNat 1), (274096627537, .negSucc 0)] 0)) .nil))))

def jac77 : JTree := .node (.node (.node (.node (.node (.leaf (.atom 2687)) (.leaf (.adef 14503 [(44087, .ofNat 1), (9330023, .ofNat 1), (11358671, .ofNat 1), (23703161, .negSucc 0), (25960559, .ofNat 1)] 0))) (.node (.leaf (.adef 18287 [(1772137, .negSucc 0), (2631301, .ofNat 1), (3083557, .ofNat 1), (147611993, .negSucc 0), (798264143, .ofNat 1)] 0)) .nil)) (.node (.node (.leaf (.adef 5477 [(1250531, .ofNat 1), (1330289, .negSucc 0)] 0)) (.leaf (.trans [] 0))) (.node (.leaf (.adef 19777 [(11613487, .ofNat 1), (948477421, .negSucc 0), (980071753, .ofNat 1), (1684826131, .negSucc 0), (1765198333, .ofNat 1), (1771621157, .ofNat 1), (12904753271, .ofNat 1), (19414149389, .negSucc 1)] 0)) .nil))) (.node (.node (.node (.leaf (.atom 10651)) (.leaf (.adef 45553 [(23407941797, .negSucc 0), (28524550073, .ofNat 1), (16922153598041, .negSucc 0), (542847348550523, .ofNat 1), (605550772982329, .negSucc 0)] 0))) (.node (.leaf (.adef 24989 [(5930459, .ofNat 1), (6315811, .negSucc 0), (481512281, .negSucc 0), (594854333, .negSucc 0), (787939337, .negSucc 1), (839840011, .negSucc 0)] 0)) .nil)) (.node (.node (.leaf (.adef 11119 [(380428531, .ofNat 1), (764824448143, .negSucc 0)] 0)) .nil) (.node (.leaf (.adef 42379 [(9533449, .ofNat 1), (9563753, .ofNat 1), (27432703, .ofNat 1), (27621809, .ofNat 1), (31047421, .ofNat 1), (31204247, .ofNat 1), (34570031, .ofNat 1), (37426859, .ofNat 1), (1303165319, .ofNat 2), (1310738383, .ofNat 2), (1667023987, .ofNat 1), (1813688563, .ofNat 1), (2055660329, .ofNat 1), (2284960427, .ofNat 1), (3782436547, .ofNat 1), (3854489461, .ofNat 1), (4044530159, .ofNat 1), (46790938319, .ofNat 2), (51420840529, .negSucc 1), (53123873611, .negSucc 1), (54790132237, .ofNat 2), (96163680359, .ofNat 2), (112603443157, .ofNat 2), (118339645649, .ofNat 2), (122366318059, .ofNat 2), (154164155633, .ofNat 2), (191235932801, .ofNat 2), (201625785847, .ofNat 2), (202058028451, .ofNat 2), (252171772837, .ofNat 2), (514323291793, .negSucc 0), (549849988223, .ofNat 1), (16291031636293, .ofNat 2), (16892176715123, .ofNat 2), (20730004834193, .ofNat 2)] 0)) .nil)))) (.node (.node (.node (.node (.leaf (.atom 48109)) (.leaf (.adef 44939 [(88498099, .ofNat 1), (63547804511, .ofNat 1)] 0))) (.node (.leaf (.adef 24767 [(9769, .ofNat 1), (2422597, .negSucc 0), (3402683, .ofNat 1), (3547673, .ofNat 1), (5283917, .negSucc 0), (6370813, .negSucc 0), (7646693, .negSucc 0), (10366129, .ofNat 1), (11433263, .negSucc 0), (12569741, .negSucc 0), (991506097, .negSucc 0)] 0)) .nil)) (.node (.node (.leaf (.adef 15349 [(14004517, .ofNat 1), (338786939, .negSucc 0), (339466987, .ofNat 1), (1012045303, .ofNat 1), (1469644991, .negSucc 0), (10225549993, .negSucc 0), (10246075769, .ofNat 1), (14907079657, .negSucc 0), (14937002681, .ofNat 1)] 0)) .nil) (.node (.leaf (.adef 26107 [(6255143, .ofNat 1), (6662699, .negSucc 0), (485134187, .negSucc 0), (599328791, .negSucc 0), (796794751, .negSucc 0), (850904017, .negSucc 0)] 0)) .nil))) (.node (.node (.node (.leaf (.atom 48623)) (.leaf (.adef 47017 [(24049693, .negSucc 0), (24215827, .ofNat 1), (24384029, .negSucc 0), (30885563, .negSucc 0), (30929551, .ofNat 1), (31397257, .negSucc 0)] 0))) (.node (.leaf (.adef 39799 [(2786543, .negSucc 0), (3073177, .negSucc 0), (5380733, .negSucc 0), (7376093, .negSucc 0), (9923093, .ofNat 1), (11568863, .ofNat 1), (12690383, .negSucc 0)] 0)) .nil)) (.node (.node (.leaf (.adef 30059 [(52090263, .ofNat 1), (133471161, .ofNat 2), (134346939, .ofNat 2), (146298843, .ofNat 1), (271865177253, .negSucc 1)] 0)) .nil) (.node (.leaf (.adef 33503 [(145795257, .ofNat 2), (163077417, .ofNat 1), (273396020067, .negSucc 1)] 0)) .nil))))

def jac78 : JTree := .node (.node (.node (.node (.node (.node (.node (.leaf (.atom 599)) (.leaf (.adef 33767 [(2870419, .ofNat 1), (2635056913, .ofNat 2)] 0))) (.node (.leaf (.adef 18181 [(27553916017, .ofNat 1)] 0)) .nil)) (.node (.node (.leaf (.adef 4013 [(7260385589, .ofNat 1), (9355170337, .ofNat 1), (10584383861, .ofNat 1)] 0)) .nil) (.node (.leaf (.adef 8933 [(3251987, .ofNat 1), (464092169, .negSucc 0), (686106061, .negSucc 0), (761618191, .negSucc 0), (1130137109, .negSucc 0), (1897265099, .negSucc 0), (2042268079, .negSucc 0), (2389028029, .negSucc 0), (2868759307, .negSucc 0), (3076607057, .negSucc 0), (3117671153, .negSucc 0), (3902995969, .negSucc 0)] 0)) .nil))) (.node (.node (.node (.leaf (.atom 35339)) (.leaf (.adef 12613 [(132101419, .negSucc 0), (132578557, .ofNat 1), (55424729029, .ofNat 1), (153252049453, .negSucc 0)] 0))) (.node (.leaf (.adef 11827 [(2456537, .ofNat 1), (3173179, .ofNat 1)] 0)) .nil)) (.node (.node (.leaf (.adef 607 [(5189021, .ofNat 1), (6219751, .ofNat 1)] 0)) .nil) (.node (.leaf (.adef 32957 [(4409, .ofNat 1), (1813013, .ofNat 1), (1900027, .negSucc 0), (2532557, .negSucc 0), (3025573, .negSucc 0)] 0)) .nil)))) jac75) jac76) (.node jac77 (.node (.node (.node (.node (.node (.leaf (.atom 47743)) (.leaf (.adef 44383 [(3628529, .negSucc 0), (4617229, .negSucc 0), (6161863, .ofNat 1)] 0))) (.node (.leaf (.adef 37463 [(37447, .ofNat 1), (10826477, .ofNat 1), (12818467, .ofNat 1), (18790987, .negSucc 0), (22316009, .negSucc 0), (26251319, .negSucc 0), (27478687, .negSucc 0), (30062251, .ofNat 1), (30253997, .ofNat 1), (35662337, .ofNat 1), (68687449, .negSucc 0)] 0)) .nil)) (.node (.node (.leaf (.adef 17377 [(444959, .ofNat 4), (885189353, .ofNat 2)] 1)) (.leaf (.trans [(47189, .ofNat 1)] 0))) (.node (.leaf (.adef 41189 [(41183, .ofNat 1), (11490977, .ofNat 1), (13603673, .ofNat 1), (18040657, .negSucc 0), (22473917, .ofNat 1), (26311843, .ofNat 1), (30253141, .negSucc 0), (68867261, .ofNat 1)] 0)) .nil))) (.node (.node (.node (.leaf (.atom 48571)) (.leaf (.adef 34763 [(19374379, .ofNat 1), (20485873, .negSucc 0), (21149053, .ofNat 1), (21470549, .negSucc 0)] 0))) (.node (.leaf (.adef 25307 [(39157, .ofNat 1), (1084088893, .ofNat 1)] 0)) .nil)) (.node (.node (.leaf (.adef 17851 [(107218207, .ofNat 1), (107694043, .negSucc 0), (45104011649, .negSucc 0), (45201332311, .ofNat 1)] 0)) .nil) (.node (.leaf (.adef 42611 [(23739368407, .negSucc 0), (43935118061, .ofNat 1)] 0)) .nil)))) (.node (.node (.node (.node (.leaf (.atom 10487)) (.leaf (.adef 21773 [(45281, .ofNat 1), (86716871, .ofNat 1), (87025751, .ofNat 1), (87093271, .negSucc 0), (112007671, .negSucc 0)] 0))) (.node (.leaf (.adef 38693 [(107110123, .negSucc 0), (133493779, .ofNat 1)] 0)) .nil)) (.node (.node (.leaf (.adef 5039 [(292444579, .negSucc 0), (21308064164261, .negSucc 0), (3076675960891211, .negSucc 0), (4467805345719667, .ofNat 1), (319854513376557131, .ofNat 1), (87808172674393328171, .ofNat 1), (105940777026501597173, .ofNat 1)] 0)) .nil) (.node (.leaf (.adef 32789 [(125277, .ofNat 8), (505900917, .negSucc 3), (686774889, .negSucc 3), (742411143, .negSucc 3), (1362252263499, .ofNat 6)] 1)) .nil))) (.node (.node (.node (.leaf (.atom 3119)) .nil) (.node (.leaf (.adef 25537 [(26377973, .ofNat 1), (30139289, .negSucc 0), (30984781, .ofNat 1), (37766009, .negSucc 0)] 0)) .nil)) (.node (.node (.leaf (.adef 37003 [(11834111, .negSucc 0), (11835091, .ofNat 1), (11939383, .negSucc 0)] 0)) .nil) (.node (.leaf (.adef 2617 [(534959, .negSucc 0), (55286588543, .ofNat 1), (60777621343, .negSucc 0)] 0)) .nil))))))

def jac79 : JTree := .node (.node jac67 (.node (.node jac69 jac70) (.node (.node (.node (.node (.node (.node (.leaf (.atom 1663)) (.leaf (.adef 33797 [(20675803, .ofNat 1), (22341097, .negSucc 0), (23370511, .negSucc 0), (23640629, .ofNat 1)] 0))) (.node (.leaf (.adef 11801 [(4736203, .ofNat 1), (1024836941, .negSucc 0), (1838762227, .negSucc 0)] 0)) .nil)) (.node (.node (.leaf (.adef 28979 [(3342923, .ofNat 1), (50501567, .negSucc 0)] 0)) (.leaf (.trans [(15511, .ofNat 1)] 0))) (.node (.leaf (.adef 32143 [(7211389, .ofNat 4), (2481965113, .ofNat 2)] 1)) .nil))) (.node (.node (.node (.leaf (.atom 28603)) (.leaf (.adef 45481 [(3633667, .negSucc 0), (4577453, .ofNat 1)] 0))) (.node (.leaf (.adef 6863 [(299093, .ofNat 1), (308381, .ofNat 1), (343877, .ofNat 1), (1343393, .ofNat 1), (1491397, .ofNat 1)] 0)) .nil)) (.node (.node (.leaf (.adef 35801 [(58006379, .ofNat 1), (59359051, .negSucc 0), (64495489, .negSucc 0), (64572917, .ofNat 1)] 0)) .nil) (.node (.leaf (.adef 42293 [(2147531, .ofNat 1), (2890193, .ofNat 1), (4310921, .negSucc 0)] 0)) .nil)))) (.node (.node (.node (.node (.leaf (.atom 9587)) (.leaf (.adef 44843 [(11979761, .negSucc 0), (38003281, .negSucc 0), (452479777, .negSucc 0), (558435763, .negSucc 0), (849528661, .negSucc 0), (1815951617, .ofNat 1), (1855894753, .ofNat 1), (2637040249, .negSucc 0), (2705572897, .ofNat 1), (136516189163, .negSucc 0), (187335984431, .ofNat 1)] 0))) (.node (.leaf (.adef 24733 [(37987, .ofNat 1), (10698893, .ofNat 1), (12705331, .negSucc 0), (12750589, .ofNat 1), (17200721, .ofNat 1), (17607517, .negSucc 0), (18662929, .negSucc 0), (19305773, .ofNat 1), (26162083, .negSucc 0), (68267207, .negSucc 0), (1565322452549, .ofNat 1)] 0)) .nil)) (.node (.node (.leaf (.adef 29311 [(8751, .negSucc 3), (53709309, .ofNat 2), (62743509, .ofNat 1), (2229544899, .ofNat 2), (3250290051, .ofNat 2), (92023880409, .negSucc 1)] 0)) .nil) (.node (.leaf (.adef 6899 [(301187, .ofNat 1), (328609, .ofNat 1), (889949, .ofNat 1), (1209919, .ofNat 1), (85306657, .ofNat 1)] 0)) .nil))) (.node (.node (.node (.leaf (.atom 10781)) (.leaf (.adef 35251 [(22024103, .negSucc 0), (22204093, .ofNat 1), (23493199, .ofNat 1), (23733187, .negSucc 0)] 0))) (.node (.leaf (.adef 39719 [(3605509, .negSucc 0), (4136401, .ofNat 1), (207854209, .negSucc 0), (220564571, .ofNat 1)] 0)) .nil)) (.node (.node (.leaf (.adef 23981 [(3316007333, .ofNat 4), (3366846503, .negSucc 3), (3520635491, .negSucc 3), (3592137449, .negSucc 3), (460955240401, .negSucc 3), (482010503797, .negSucc 3), (701766810431, .ofNat 2), (809502144103, .negSucc 1), (71923687834391, .ofNat 4), (76891790707801, .negSucc 3), (77912907480323, .negSucc 3), (83294713547053, .ofNat 4), (118616055924013, .ofNat 2), (120790686209309, .ofNat 2), (126809417332643, .negSucc 1), (129134259422899, .negSucc 1)] 1)) .nil) (.node (.leaf (.adef 42929 [(52562871, .ofNat 1), (116869059, .ofNat 2), (137029407, .ofNat 2), (156673557, .ofNat 1), (262387798173, .negSucc 1)] 0)) .nil))))) jac71))) (.node (.node jac72 (.node jac73 (.node (.node (.node (.node (.node (.leaf (.atom 2053)) (.leaf (.adef 44267 [(17617099, .ofNat 1), (26717987, .ofNat 1), (34254281, .negSucc 0)] 0))) (.node (.leaf (.adef 37363 [(23194309, .negSucc 0), (26044807, .negSucc 0)] 0)) .nil)) (.node (.node (.leaf (.adef 13241 [(697842499, .ofNat 4), (3455485883, .negSucc 1), (150443560987, .negSucc 3), (494507588537, .ofNat 2), (687638291537, .negSucc 1)] 1)) (.leaf (.trans [] 0))) (.node (.leaf (.adef 32371 [(1442981, .negSucc 0), (1581511, .ofNat 1), (2131543, .ofNat 1), (2884423, .ofNat 1)] 0)) .nil))) (.node (.node (.node (.leaf (.atom 28711)) (.leaf (.adef 45953 [(45949, .ofNat 1), (12194579, .negSucc 0), (14110909, .ofNat 1), (32438633, .ofNat 1), (35160599, .negSucc 0), (41736061, .ofNat 1)] 0))) (.node (.leaf (.adef 31321 [(3913999, .ofNat 1), (30321469, .negSucc 0), (31523431, .negSucc 0), (87675209, .negSucc 0), (122634937, .ofNat 1), (168287269, .negSucc 0), (8015901703, .negSucc 0)] 0)) .nil)) (.node (.node (.leaf (.adef 29819 [(6162509, .ofNat 1), (6448777, .negSucc 0)] 0)) .nil) (.node (.leaf (.adef 10331 [(6093833, .ofNat 1), (7162427, .ofNat 1), (7211387, .ofNat 1), (9575303, .ofNat 1), (555395857, .ofNat 1), (4483075304537, .negSucc 0)] 0)) .nil)))) jac74))) jac78)

def jac80 : JTree := .node (.node (.node (.node (.node (.leaf (.atom 269)) (.leaf (.adef 14419 [(8342161, .negSucc 0), (23710129, .ofNat 1), (25990607, .negSucc 0)] 0))) (.node (.leaf (.adef 6991 [(1227796513, .ofNat 1), (1672502119, .ofNat 1)] 0)) .nil)) (.node (.node (.leaf (.adef 14843 [(20728333, .negSucc 0), (23593993, .ofNat 1), (32377141, .negSucc 0)] 0)) .nil) (.node (.leaf (.adef 8887 [(1631009, .ofNat 1), (2282107, .ofNat 1)] 0)) .nil))) (.node (.node (.node (.leaf (.atom 10513)) (.leaf (.adef 34439 [(6259787, .ofNat 1), (7007291, .negSucc 0)] 0))) (.node (.leaf (.adef 24859 [(3436930559, .negSucc 0), (3790465801, .negSucc 0), (3852118603, .ofNat 1), (4094196487, .negSucc 0), (13052285357, .ofNat 1), (13483161781, .negSucc 0), (16770798167, .ofNat 1)] 0)) .nil)) (.node (.node (.leaf (.adef 29629 [(69889271, .ofNat 1), (70091929, .negSucc 0)] 0)) .nil) (.node (.leaf (.adef 41879 [(23559, .negSucc 3), (50484519, .negSucc 1), (73075473, .negSucc 1), (119020599, .negSucc 1), (154310301, .negSucc 0), (241219287, .negSucc 0), (244689129, .negSucc 0), (6484457241, .negSucc 1), (9453214809, .negSucc 1), (267644270331, .ofNat 2), (309849003621, .ofNat 2), (353788545987, .ofNat 2), (361967303421, .ofNat 1), (419242838229, .ofNat 1), (12862244522331, .ofNat 3), (18750923304219, .ofNat 3), (530885766079521, .negSucc 3)] 0)) .nil)))) (.node (.node (.node (.node (.leaf (.atom 971)) (.leaf (.adef 44519 [(24999770759, .ofNat 1), (29304721603, .ofNat 1), (8663652686069, .ofNat 1), (313429692698869, .ofNat 1), (349633452564887, .negSucc 0)] 0))) (.node (.leaf (.adef 30649 [(3893077, .ofNat 1), (64374523, .negSucc 0), (129811817, .ofNat 1), (178135829, .negSucc 0), (7662779251, .negSucc 0)] 0)) .nil)) (.node (.node (.leaf (.adef 3847 [(28538479, .negSucc 0), (40712663, .ofNat 1), (29384960807, .ofNat 1), (153073202647, .negSucc 0), (156693193751, .negSucc 0), (1235942057191, .negSucc 0), (1794777415727, .ofNat 1)] 0)) .nil) (.node (.leaf (.adef 12433 [(51331134991, .ofNat 1)] 0)) .nil))) (.node (.node (.node (.leaf (.atom 14783)) (.leaf (.adef 46183 [(45340741, .negSucc 0), (49658431, .negSucc 0), (50196637, .ofNat 1), (62824397, .ofNat 1), (63665803, .negSucc 0)] 0))) (.node (.leaf (.adef 39233 [(1076251493, .negSucc 3), (1100528227, .negSucc 3), (1175214881, .negSucc 3), (1490759029, .negSucc 3), (1530341227, .ofNat 4), (2230223101, .ofNat 4), (4959679931, .ofNat 4), (5021000519, .ofNat 4), (6312429371, .negSucc 3), (10376997871, .ofNat 4), (10459728581, .negSucc 3), (11601825161, .ofNat 4), (18906341821, .negSucc 3), (31568963281, .ofNat 4), (47082197741, .ofNat 2), (81810821779, .ofNat 4), (84803967439, .ofNat 4), (85105844861, .negSucc 3), (86074156529, .ofNat 4), (112704672851, .ofNat 1), (131648855749, .negSucc 0), (140093910821, .ofNat 4), (143442832639, .negSucc 3), (149373358231, .negSucc 3), (152078242663, .negSucc 3), (164303879699, .ofNat 1), (203133462803, .negSucc 3), (208727943659, .ofNat 4), (216913024607, .ofNat 4), (221703720487, .negSucc 3), (246085462921, .negSucc 3), (248885357869, .ofNat 4), (321291845443, .negSucc 3), (334171816337, .negSucc 3), (1092368428427, .ofNat 2), (10235934785927, .ofNat 4), (10600093554227, .negSucc 3), (10746875767339, .ofNat 4), (11309713484021, .ofNat 2), (14318908329541, .negSucc 1), (17597835536803, .negSucc 1), (17738134440833, .ofNat 2), (18243387864929, .ofNat 2), (19911180108541, .ofNat 2)] 1)) .nil)) (.node (.node (.leaf (.adef 29867 [(5293459, .ofNat 1), (6962513, .ofNat 1)] 0)) .nil) (.node (.leaf (.adef 42683 [(7101551, .negSucc 0), (8343493, .ofNat 1)] 0)) .nil))))

def jac81 : JTree := .node (.node (.node (.node (.node (.leaf (.atom 743)) (.leaf (.adef 21107 [(21101, .ofNat 1), (6382301, .ofNat 1), (6908053, .ofNat 1), (17727631, .ofNat 1), (30355813, .negSucc 1)] 0))) (.node (.leaf (.adef 30403 [(19434313, .ofNat 1), (20862937, .negSucc 0), (21709591, .negSucc 0), (21752377, .ofNat 1)] 0)) .nil)) (.node (.node (.leaf (.adef 28909 [(35214911, .negSucc 0), (48777583, .negSucc 0), (207082781, .ofNat 1), (300715957, .negSucc 0)] 0)) .nil) (.node (.leaf (.adef 25703 [(8630327, .negSucc 0), (23081511463, .negSucc 0)] 0)) .nil))) (.node (.node (.node (.leaf (.atom 10607)) (.leaf (.adef 28109 [(28099, .ofNat 1), (20880427, .ofNat 1), (988193489, .ofNat 1), (1007260621, .ofNat 1), (1083792331, .ofNat 1), (1148229833, .negSucc 0), (4429710071, .ofNat 1), (4559975279, .ofNat 1), (7428767891, .ofNat 1), (186170011421, .ofNat 1), (187977307523, .negSucc 0), (318705058901, .ofNat 1), (30976017348433, .negSucc 0), (31276725475279, .ofNat 1), (34052537925233, .ofNat 1), (34383112213679, .negSucc 0), (53027946650473, .negSucc 0), (58294652411273, .ofNat 1)] 0))) (.node (.leaf (.adef 24967 [(27132961, .negSucc 0), (113627273, .ofNat 1), (45005125519, .ofNat 1), (82147242217, .negSucc 0)] 0)) .nil)) (.node (.node (.leaf (.adef 35597 [(10549003, .ofNat 1), (36983459, .ofNat 1)] 0)) .nil) (.node (.leaf (.adef 42179 [(2150957, .negSucc 0), (2891347, .negSucc 0), (4351549, .ofNat 1), (5230859, .negSucc 0)] 0)) .nil)))) (.node (.node (.node (.node (.leaf (.atom 6607)) (.leaf (.adef 34147 [(134133, .ofNat 2), (687356793, .negSucc 0)] 0))) (.node (.leaf (.adef 37813 [(38333497, .ofNat 4), (56127017, .negSucc 3), (4485405497, .ofNat 2), (15335149231, .ofNat 2), (19539663833, .negSucc 1), (357810391157, .negSucc 1), (521625536693, .negSucc 1), (651688015481, .negSucc 1), (666837629893, .ofNat 1), (927272096893, .negSucc 0)] 1)) .nil)) (.node (.node (.leaf (.adef 15319 [(6169381, .negSucc 0), (10909849, .ofNat 1), (14179537, .ofNat 1), (1010460991, .ofNat 1), (1010857069, .ofNat 1), (1032297991, .ofNat 1), (1032973181, .ofNat 1), (1467344327, .negSucc 0), (1467919493, .negSucc 0), (1504911559, .ofNat 1), (1505895869, .ofNat 1)] 0)) (.leaf (.trans [(47507, .negSucc 0)] 0))) (.node (.leaf (.adef 26041 [(27338557, .negSucc 0), (120021389, .ofNat 1), (45346145203, .ofNat 1), (86769891181, .negSucc 0)] 0)) .nil))) (.node (.node (.node (.leaf (.atom 10111)) (.leaf (.adef 35149 [(21171223, .negSucc 0), (21478399, .ofNat 1), (22510219, .ofNat 1), (22834001, .negSucc 0)] 0))) (.node (.leaf (.adef 13873 [(39563, .ofNat 1), (8676859, .negSucc 0), (11012537, .ofNat 1), (11724437, .ofNat 1), (13050593, .ofNat 1), (13845467, .ofNat 1), (15194233, .negSucc 0), (18865117, .negSucc 0), (26370299, .negSucc 0)] 0)) .nil)) (.node (.node (.leaf (.adef 29947 [(2919877, .negSucc 0), (30645341, .negSucc 0), (31190279, .negSucc 0), (45635003, .negSucc 0), (51108439, .negSucc 0), (105948691, .ofNat 1), (145389367, .negSucc 0), (13856491927, .ofNat 1)] 0)) .nil) (.node (.leaf (.adef 42839 [(7564237, .negSucc 0), (9061399, .ofNat 1)] 0)) .nil))))

def jac82 : JTree := .node (.node jac80 (.node (.node (.node (.node (.node (.leaf (.atom 2377)) (.leaf (.adef 11933 [(100651, .ofNat 1), (173989, .negSucc 0), (2477621, .ofNat 1), (3219439, .ofNat 1)] 0))) (.node (.leaf (.mult 10223 2176 (.negSucc 0) 0)) .nil)) (.node (.node (.leaf (.adef 15073 [(4049, .ofNat 1), (97768409, .ofNat 1)] 0)) (.leaf (.trans [(683, .ofNat 1)] 0))) (.node (.leaf (.adef 32297 [(121911, .ofNat 2), (687334113, .negSucc 0)] 0)) .nil))) (.node (.node (.node (.leaf (.atom 28627)) (.leaf (.adef 28297 [(251114673791, .negSucc 3), (262584953627, .negSucc 3), (264090443443, .negSucc 3), (286081747279, .ofNat 4), (626290163207, .ofNat 2), (713499460183, .negSucc 1), (722185328497, .negSucc 1), (726325865273, .negSucc 1), (1149567036019, .ofNat 4), (1168383571027, .negSucc 3), (1221752361919, .negSucc 3), (1245293627407, .negSucc 3)] 1))) (.node (.leaf (.adef 31253 [(5519357, .ofNat 1), (7238731, .ofNat 1)] 0)) .nil)) (.node (.node (.leaf (.adef 35933 [(10570853221, .negSucc 0), (23561582477, .ofNat 1), (1216682236337, .negSucc 0), (1766809202089, .ofNat 1), (1881989635927, .ofNat 1), (2732937580319, .negSucc 0)] 0)) .nil) (.node (.leaf (.adef 20477 [(7974247, .ofNat 1), (14280389, .ofNat 1), (22949867, .negSucc 0)] 0)) .nil)))) (.node (.node (.node (.node (.leaf (.atom 48247)) (.leaf (.adef 21587 [(30220943, .negSucc 0), (984676321, .ofNat 1), (2601793889, .negSucc 0), (579966148667, .ofNat 1)] 0))) (.node (.leaf (.adef 15791 [(34505123, .ofNat 1), (34578641, .negSucc 0), (34976761, .negSucc 0), (35023229, .ofNat 1)] 0)) .nil)) (.node (.node (.leaf (.adef 3851 [(6496921, .negSucc 0), (17916133, .ofNat 1), (28506307, .ofNat 1), (40758611, .negSucc 0), (30706358339, .ofNat 1), (1291520514307, .negSucc 0), (1875485859179, .ofNat 1)] 0)) .nil) (.node (.leaf (.adef 14087 [(7908457, .ofNat 1), (14380721, .ofNat 1), (3099574043, .ofNat 1), (4360316711, .ofNat 1), (6005908543, .negSucc 1)] 0)) .nil))) (.node (.node (.node (.leaf (.atom 2347)) (.leaf (.adef 47293 [(48287339, .negSucc 0), (50282537, .ofNat 1), (50726189, .negSucc 0), (109127699, .negSucc 0), (109579271, .ofNat 1), (110053129, .negSucc 0)] 0))) (.node (.leaf (.adef 19441 [(33465564191, .ofNat 1), (35084634359, .ofNat 1)] 0)) .nil)) (.node (.node (.leaf (.adef 30139 [(56345827, .ofNat 4), (4333325683, .negSucc 1), (418233341543, .negSucc 3), (652123362173, .negSucc 1), (906811149173, .ofNat 2)] 1)) .nil) (.node (.leaf (.adef 26951 [(299215231, .ofNat 1), (359955547, .ofNat 1), (363642601, .ofNat 1), (380958557, .ofNat 1), (386288189, .negSucc 0), (403824281, .negSucc 0), (412623617, .ofNat 1), (511621999, .ofNat 1), (526280419, .ofNat 1), (647140781, .negSucc 0), (322799707372632133, .negSucc 0), (327956998046625731, .ofNat 1), (332121546043779317, .negSucc 0), (454664901508688017, .negSucc 0), (588327168639097363, .ofNat 1)] 0)) .nil)))))) (.node jac81 (.node (.node (.node (.node (.node (.leaf (.atom 2441)) (.leaf (.adef 44221 [(1787297, .ofNat 1), (5794277, .negSucc 0)] 0))) (.node (.leaf (.adef 18481 [(3195587, .negSucc 0), (195546821, .negSucc 0), (214968421, .ofNat 1)] 0)) .nil)) (.node (.node (.leaf (.adef 13219 [(87231, .ofNat 2), (234974709, .negSucc 0)] 0)) (.leaf (.trans [(41257, .negSucc 0)] 0))) (.node (.leaf (.adef 40973 [(5425253, .negSucc 0), (6612713, .ofNat 1), (10552889, .ofNat 1), (151111649617, .negSucc 0), (186497062723, .negSucc 0), (196581112681, .negSucc 0), (269760798997, .ofNat 1)] 0)) .nil))) (.node (.node (.node .nil (.leaf (.adef 45943 [(38268163, .negSucc 3), (157431839507, .negSucc 3), (607188653363, .ofNat 2), (125828902706599, .ofNat 2), (183436732213351, .ofNat 2)] 1))) (.node (.leaf (.adef 39079 [(9800797, .ofNat 1), (329159689, .negSucc 0)] 0)) .nil)) (.node (.node (.leaf (.adef 17683 [(1284337, .ofNat 1), (2393887, .ofNat 1)] 0)) .nil) (.node (.leaf (.adef 7877 [(11725619089, .ofNat 1)] 0)) .nil)))) (.node (.node (.node (.node (.leaf (.atom 6619)) (.leaf (.adef 11491 [(45131, .ofNat 1), (313431103, .negSucc 0), (333318421, .ofNat 1), (148184441129, .ofNat 1), (150707839031, .ofNat 1), (173290214557, .ofNat 1), (185702765741, .negSucc 0), (199895539561, .negSucc 0), (233836121611, .negSucc 0), (305155118327, .negSucc 0)] 0))) (.node (.leaf (.adef 13723 [(38557, .ofNat 1), (8058613, .ofNat 1), (10131001, .ofNat 1), (11985619, .negSucc 0), (14474753, .negSucc 0), (17346841, .negSucc 0), (19604749, .ofNat 1), (20361113, .negSucc 0), (22321723, .ofNat 1), (26552341, .ofNat 1), (43871053, .negSucc 0)] 0)) .nil)) (.node (.node (.leaf (.adef 29423 [(50349317, .ofNat 1), (51521609, .ofNat 1), (69569821, .ofNat 1), (72206671, .ofNat 1)] 0)) .nil) (.node (.leaf (.adef 3557 [(3864257, .ofNat 2), (4924723, .ofNat 2), (6704041, .ofNat 2), (7347013, .ofNat 2)] 0)) .nil))) (.node (.node (.node (.leaf (.atom 3989)) (.leaf (.atom 1493))) (.node (.leaf (.adef 31981 [(7649911, .ofNat 1), (1997287031, .negSucc 0)] 0)) .nil)) (.node (.node (.leaf (.adef 24077 [(5093287, .negSucc 0), (6358819, .ofNat 1), (7621697, .negSucc 0), (10303519, .ofNat 1), (11672291, .ofNat 1), (12688591, .negSucc 0)] 0)) .nil) (.node (.leaf (.adef 43577 [(5121307, .ofNat 1), (10603553, .ofNat 1), (152973727271, .negSucc 0), (188795178149, .negSucc 0), (199003489103, .negSucc 0), (273084934211, .ofNat 1)] 0)) .nil))))))

def jac83 : JTree := .node (.node (.node (.node (.leaf (.atom 677)) (.leaf (.adef 3019 [(1276663, .negSucc 0), (166366141, .ofNat 1), (206459053, .negSucc 0)] 0))) (.node (.leaf (.adef 13613 [(313969489, .ofNat 1), (325555079, .ofNat 1), (1707428753, .ofNat 1), (4699472077, .ofNat 1), (4732133443, .negSucc 0), (5153501393, .ofNat 1), (5391839251, .ofNat 1), (5836134659, .ofNat 1), (5963438431, .negSucc 0), (10412853323, .ofNat 1), (10797091453, .ofNat 1), (44533672661, .ofNat 1), (55163204189, .negSucc 0), (57198746779, .negSucc 0), (72269177843, .ofNat 1), (74935937173, .ofNat 1), (75698371193, .ofNat 1), (78491669023, .ofNat 1), (89192259017, .ofNat 1), (92483486287, .ofNat 1), (169343033969, .ofNat 1), (173083843399, .ofNat 1), (291057770221, .ofNat 1), (297083090027, .ofNat 1), (359213994199, .ofNat 1), (407675847599, .negSucc 0), (3568998134323, .ofNat 1), (3700695482453, .ofNat 1), (4584071586197, .ofNat 1), (4796733268231, .ofNat 1), (4892102276683, .ofNat 1), (5683593374983, .ofNat 1), (6104753673533, .ofNat 1), (6330021336763, .ofNat 1), (6920296758671, .negSucc 0), (7126635832193, .negSucc 0), (18624837042769, .negSucc 0), (19686704445691, .negSucc 0), (20164029100543, .ofNat 1), (27212814258127, .ofNat 1), (27813948829817, .ofNat 1), (37343112047299, .negSucc 0), (38168026201829, .negSucc 0), (93159461669977, .ofNat 1), (114974365049563, .ofNat 1), (121191123770161, .ofNat 1), (166305978909757, .negSucc 0), (1212481795678409, .negSucc 0), (1327279748634283, .ofNat 1), (1353668823549919, .ofNat 1), (1503304076218051, .negSucc 0), (209511063678589679, .negSucc 0), (258571712260843901, .negSucc 0), (272935549626216143, .negSucc 0), (295475062850419087, .negSucc 0), (304242195859804663, .ofNat 1), (306378201700988057, .negSucc 0), (336848141403986717, .negSucc 0), (375485781725368597, .ofNat 1), (375985979158435187, .negSucc 0), (396344276471584471, .ofNat 1), (429075106416978839, .ofNat 1), (444908136174062929, .ofNat 1), (489155161606464949, .ofNat 1), (545989304350760539, .ofNat 1), (45387252290492438009, .ofNat 1), (47062058648075184799, .ofNat 1), (57754351007247870709, .ofNat 1), (62283203483693778533, .negSucc 0), (64581476674973991763, .negSucc 0), (65909251084163658673, .negSucc 0), (68341326769926155303, .negSucc 0), (79254103615490448433, .negSucc 0), (83868175085298170573, .negSucc 0), (90444763442812314301, .ofNat 1), (93782208588303543611, .ofNat 1), (115089113154750274601, .ofNat 1)] 0)) .nil)) (.node (.node (.leaf (.adef 2029 [(8971587043, .ofNat 1)] 0)) .nil) (.node (.leaf (.adef 5113 [(25609, .ofNat 1), (291182149, .negSucc 0), (463855439, .negSucc 0), (524806297, .negSucc 0), (992339969, .negSucc 0), (1012457903, .negSucc 0), (1313713129, .negSucc 0), (1681277113, .negSucc 0), (2912084347, .negSucc 0), (4668786743, .negSucc 0), (8461907647, .negSucc 0)] 0)) .nil))) (.node (.node (.node (.leaf (.atom 22369)) (.leaf (.adef 21937 [(131707021, .ofNat 1), (132385373, .negSucc 0), (55405841747, .negSucc 0), (55564774721, .ofNat 1)] 0))) (.node (.leaf (.adef 31183 [(19665487, .ofNat 1), (21236309, .negSucc 0), (22121557, .negSucc 0), (22217773, .ofNat 1)] 0)) .nil)) (.node (.node (.leaf (.adef 757 [(5140631, .negSucc 0), (6161821, .negSucc 0)] 0)) .nil) (.node (.leaf (.adef 41999 [(3820981, .ofNat 1), (5234209, .ofNat 1), (7057313, .negSucc 0), (328317851, .negSucc 0), (405199169, .negSucc 0)] 0)) .nil)))

def jac84 : JTree := .node (.node (.node (.node (.node (.leaf (.atom 4217)) (.leaf (.mult 7919 4261 (.negSucc 0) 0))) (.node (.leaf (.adef 24373 [(1198283, .ofNat 1), (2317331, .negSucc 0), (299697661, .negSucc 0), (12998015171, .ofNat 1), (14901781859, .ofNat 1), (18948853379, .ofNat 1), (51364367207, .ofNat 1), (71424800207, .negSucc 0)] 0)) .nil)) (.node (.node (.leaf (.adef 11777 [(779282341, .negSucc 3), (814877977, .negSucc 3), (903883247, .ofNat 4), (979151291, .negSucc 3), (245560080061, .ofNat 2), (312494724413, .negSucc 1), (42178071882571, .ofNat 2), (45999676157983, .negSucc 1), (47384514666323, .ofNat 2), (51677856105479, .negSucc 1)] 1)) (.leaf (.trans [] 0))) (.node (.leaf (.adef 25903 [(1487371, .negSucc 0), (285035851, .ofNat 1), (313345451, .negSucc 0)] 0)) .nil))) (.node (.node (.node .nil (.leaf (.adef 16747 [(57049661, .ofNat 4), (5420898019, .negSucc 1), (284564485801, .negSucc 3), (749800133479, .negSucc 1), (1042635734479, .ofNat 2)] 1))) (.node (.leaf (.adef 38921 [(15477829, .ofNat 1), (18570791, .negSucc 0)] 0)) .nil)) (.node (.node (.leaf (.adef 15551 [(6105898441, .ofNat 1), (6831616483, .ofNat 1), (10253281477, .negSucc 0), (10631631347, .negSucc 0), (18727640093, .negSucc 0), (19418696923, .negSucc 0), (23113041767, .negSucc 0), (23965921537, .negSucc 0), (30673352071, .negSucc 0), (31657164107, .negSucc 0), (37856049349, .negSucc 0), (39070238033, .negSucc 0), (48230053357, .negSucc 0), (54405325661, .ofNat 1), (55369633321, .negSucc 0), (68335393099, .negSucc 0), (74658363257, .negSucc 0), (4544458998587, .negSucc 0), (5146082296657, .negSucc 0), (5172723431327, .ofNat 1), (5290416684559, .negSucc 0), (5807187588281, .negSucc 0), (6127832131093, .negSucc 0), (6299702079691, .negSucc 0), (6610022296901, .ofNat 1), (7098332015699, .negSucc 0), (8408991429841, .ofNat 1), (8644842036367, .ofNat 1), (9070682691137, .negSucc 0), (28006497995089, .ofNat 1), (34564705146691, .ofNat 1), (36433647254377, .ofNat 1), (49996511158549, .negSucc 0)] 0)) .nil) (.node (.leaf (.adef 14281 [(10697632801, .ofNat 1), (11215186249, .ofNat 1)] 0)) .nil)))) (.node (.node (.node (.node (.leaf (.atom 48353)) (.leaf (.adef 16657 [(3806039, .ofNat 1), (278856449621, .ofNat 1)] 0))) (.node (.leaf (.adef 18719 [(38327, .ofNat 1), (72884671, .negSucc 0), (73406831, .negSucc 0), (73694437, .ofNat 1), (79005481, .ofNat 1), (79105553, .negSucc 0), (80968141, .ofNat 1), (98179283, .negSucc 0), (100983979, .ofNat 1), (107765803, .ofNat 1), (108083861, .ofNat 1)] 0)) .nil)) (.node (.node (.leaf (.adef 3767 [(290452673, .negSucc 0), (356532827, .negSucc 0), (94585249087, .negSucc 0), (109790413873, .negSucc 0), (113205437569, .negSucc 0), (174439375439, .negSucc 0), (545292953723, .ofNat 1), (151229143075787, .ofNat 1), (182458334327381, .ofNat 1)] 0)) .nil) (.node (.leaf (.adef 41539 [(3610913, .negSucc 0), (4527407, .ofNat 1)] 0)) .nil))) (.node (.node (.node (.leaf (.atom 6211)) (.leaf (.atom 49069))) (.node (.leaf (.adef 13903 [(8747269, .ofNat 1), (11738543, .negSucc 0), (17167441, .negSucc 0)] 0)) .nil)) (.node (.node (.leaf (.adef 36671 [(4972973, .ofNat 1), (5663003, .ofNat 1), (7248541, .ofNat 1), (9871171, .negSucc 0), (11386097, .negSucc 0), (12495881, .ofNat 1)] 0)) .nil) (.node (.leaf (.adef 16447 [(36069281, .ofNat 1), (36162977, .negSucc 0), (36655319, .negSucc 0), (36669937, .ofNat 1)] 0)) .nil))))

def jac85 : JTree := .node (.node (.node (.node (.node (.leaf (.atom 4801)) (.leaf (.adef 14551 [(27407, .ofNat 1), (2020651, .negSucc 0), (3230569, .ofNat 1), (12902081, .negSucc 0), (369324481, .ofNat 1), (398132569, .ofNat 1), (494307817, .ofNat 1), (518437499, .ofNat 1), (634277591, .negSucc 0), (1033542623, .ofNat 1), (1127431013, .negSucc 0), (2529479059, .negSucc 0), (3357075443, .negSucc 0), (4374425411, .negSucc 0), (138226849513, .negSucc 0), (149008835137, .negSucc 0), (386823370679, .negSucc 0)] 0))) (.node (.leaf (.adef 7717 [(37441, .ofNat 1), (621141967, .ofNat 1), (913928371, .ofNat 1), (1134909593, .ofNat 1), (1583572201, .ofNat 1), (2140688639, .ofNat 1), (2177141921, .ofNat 1), (2503369387, .ofNat 1), (2608228699, .ofNat 1), (2797200449, .ofNat 1), (3548539633, .ofNat 1), (93500718083, .ofNat 1), (103026487141, .ofNat 1), (127880165737, .ofNat 1), (140908481999, .ofNat 1), (2097284940248671, .ofNat 1), (2868439422236669, .ofNat 1), (3045579380685287, .negSucc 0), (4165413955660693, .negSucc 0)] 0)) .nil)) (.node (.node (.leaf (.adef 10939 [(215363, .ofNat 1), (717707, .ofNat 1), (295904573, .ofNat 1), (349757651, .negSucc 0), (370753993, .ofNat 1), (11284770311, .negSucc 0), (11307422263, .ofNat 1)] 0)) (.leaf (.trans [(46861, .ofNat 1)] 0))) (.node (.leaf (.adef 32443 [(1722047, .ofNat 1), (2811059, .negSucc 0), (334352897, .ofNat 1), (458819789, .negSucc 0)] 0)) .nil))) (.node (.node (.node (.leaf (.atom 22637)) (.leaf (.adef 22129 [(46049, .ofNat 1), (12598477, .ofNat 1), (14564021, .ofNat 1), (31945981, .negSucc 0), (35001023, .ofNat 1)] 0))) (.node (.leaf (.adef 25253 [(39133, .ofNat 1), (261424153, .negSucc 0), (1309520921, .ofNat 1)] 0)) .nil)) (.node (.node (.leaf (.adef 17827 [(26298731, .ofNat 1), (30675751, .negSucc 0), (40985761, .ofNat 1), (9136140283, .negSucc 0)] 0)) .nil) (.node (.leaf (.adef 26693 [(6431791, .ofNat 1), (6831509, .ofNat 1), (6936233, .ofNat 1), (7383617, .negSucc 0), (124553323, .negSucc 0), (153871639, .negSucc 0), (517617469, .negSucc 0), (564516937, .ofNat 1)] 0)) .nil)))) (.node (.node (.node (.node (.leaf (.atom 7489)) (.leaf (.adef 21737 [(4228447, .negSucc 0), (12002399, .ofNat 1), (13145599, .negSucc 0), (15649969, .negSucc 0), (126736847, .ofNat 1), (126860977, .ofNat 1), (2975128872829, .ofNat 1), (3562434915541, .ofNat 1), (4320343400213, .negSucc 0), (4469468850557, .ofNat 1), (5173201845677, .negSucc 0), (6490354225429, .negSucc 0), (7008993449441, .ofNat 1), (10178133413977, .negSucc 0)] 0))) (.node (.leaf (.adef 3539 [(32051947, .ofNat 1), (41696371, .ofNat 1)] 0)) .nil)) (.node (.node (.leaf (.adef 5011 [(292142011, .negSucc 0), (356748973, .negSucc 0), (93683578457, .negSucc 0), (108743794103, .negSucc 0), (112126262759, .negSucc 0), (172776464329, .negSucc 0), (545623534477, .ofNat 1), (149787492522157, .ofNat 1), (180718979376691, .ofNat 1)] 0)) .nil) (.node (.leaf (.adef 20269 [(7975391, .ofNat 1), (11769817, .ofNat 1), (25573477, .ofNat 1), (67195967, .ofNat 1), (80559389, .negSucc 0), (100993063, .ofNat 1), (116569217, .ofNat 1), (116663663, .ofNat 1), (158383541, .ofNat 1), (163734247, .ofNat 1), (164601727, .ofNat 1), (289682963, .ofNat 1)] 0)) .nil))) (.node (.node (.node (.leaf (.atom 11699)) (.leaf (.atom 829))) (.node (.leaf (.adef 6287 [(401227, .ofNat 1), (1712959, .ofNat 1)] 0)) .nil)) (.node (.node (.leaf (.adef 36947 [(22328269, .negSucc 0), (23958619, .negSucc 0), (24137149, .ofNat 1), (24144251, .ofNat 1), (24176699, .negSucc 0), (30126407, .negSucc 0)] 0)) .nil) (.node (.leaf (.adef 43753 [(13085353, .negSucc 0), (13320823, .ofNat 1), (13909559, .ofNat 1), (14314411, .negSucc 0)] 0)) .nil))))

def jac86 : JTree := .node (.node (.node jac83 (.node (.node (.node (.node (.leaf (.atom 28513)) (.leaf (.adef 27611 [(7589399, .ofNat 4), (2710341181, .ofNat 2)] 1))) (.node (.leaf (.adef 37633 [(6726743, .negSucc 0), (8063113, .ofNat 1)] 0)) .nil)) (.node (.node (.leaf (.adef 17467 [(1845031, .ofNat 1), (8353237, .ofNat 1), (362952823, .negSucc 0)] 0)) (.leaf (.trans [] 0))) (.node (.leaf (.adef 9001 [(41299, .ofNat 1), (8669093, .negSucc 0), (10632773, .ofNat 1), (11963011, .ofNat 1), (15071767, .ofNat 1), (17714699, .negSucc 0), (20059033, .negSucc 0), (23011943, .ofNat 1), (24993739, .negSucc 0), (29654063, .ofNat 1), (44674043, .negSucc 0)] 0)) .nil))) (.node (.node (.node (.leaf (.atom 6679)) (.leaf (.adef 46399 [(48230179, .negSucc 0), (49920263, .negSucc 0), (50464291, .ofNat 1), (67030409, .ofNat 1), (67718501, .negSucc 0), (109088423, .negSucc 1)] 0))) (.node (.leaf (.adef 19301 [(5179957, .ofNat 1), (18840581, .negSucc 0), (26363893, .negSucc 0), (68747849, .negSucc 0), (1876926841, .ofNat 1), (1989066899, .ofNat 1)] 0)) .nil)) (.node (.node (.leaf (.adef 7639 [(36187, .ofNat 1), (400150007, .ofNat 1), (728982349, .ofNat 1), (774654511, .ofNat 1), (1301356891, .ofNat 1), (1756443361, .ofNat 1), (1779971183, .ofNat 1), (2204019427, .ofNat 1), (2613558413, .ofNat 1), (2796785837, .ofNat 1), (3574644443, .ofNat 1)] 0)) .nil) (.node (.leaf (.adef 42751 [(32941212047, .negSucc 0), (55632795931, .negSucc 0), (1759366894141, .ofNat 1), (1962588535343, .negSucc 0), (3430941614003, .negSucc 0), (3843684131689, .ofNat 1)] 0)) .nil))))) jac84) (.node (.node (.node (.node (.node (.node (.leaf (.atom 5189)) (.leaf (.adef 44053 [(23586883, .negSucc 0), (25333457, .negSucc 0), (25488817, .ofNat 1), (27105311, .ofNat 1), (27108971, .negSucc 0), (33808241, .negSucc 0)] 0))) (.node (.leaf (.adef 30469 [(6712001, .ofNat 1), (10779611, .ofNat 1)] 0)) .nil)) (.node (.node (.leaf (.adef 14969 [(360761, .ofNat 1), (175422701, .ofNat 1)] 0)) (.leaf (.trans [] 0))) (.node (.leaf (.adef 25841 [(7182557, .negSucc 0), (8603083, .ofNat 1)] 0)) .nil))) (.node (.node (.node (.leaf (.atom 12841)) (.leaf (.adef 28183 [(716629961, .ofNat 1), (743073871, .ofNat 1), (790175567, .ofNat 1), (819333337, .ofNat 1), (1311835391, .ofNat 1), (1360242601, .ofNat 1), (2375574889, .ofNat 1), (2464945207, .ofNat 1), (3212613683, .ofNat 1), (3757567673, .ofNat 1), (4338897053, .ofNat 1), (6075486007, .ofNat 1), (8183314721, .ofNat 1), (8222420603, .ofNat 1), (9851885971, .ofNat 1), (10305733307, .ofNat 1), (326818536931, .negSucc 0), (327474560723, .ofNat 1), (340154959751, .negSucc 0), (340837753783, .ofNat 1), (380360979821, .ofNat 1), (394895728999, .ofNat 1), (398712551317, .ofNat 1), (413948569823, .ofNat 1)] 0))) (.node (.leaf (.adef 31249 [(4220383, .ofNat 1), (8268811, .ofNat 1)] 0)) .nil)) (.node (.node (.leaf (.adef 11093 [(379394099, .ofNat 1), (763189334411, .negSucc 0)] 0)) .nil) (.node (.leaf (.adef 33071 [(1702733, .negSucc 0), (2534263, .ofNat 1)] 0)) .nil)))) (.node (.node (.node (.node (.leaf (.atom 48029)) (.leaf (.adef 21481 [(276422209, .negSucc 0), (541161817, .negSucc 0), (665479409, .ofNat 1), (72424685851, .ofNat 1), (86846916667, .negSucc 0)] 0))) (.node (.leaf (.adef 18661 [(18637, .ofNat 1), (6023471, .ofNat 1), (6569501, .ofNat 1), (8710993, .negSucc 0), (10436653, .negSucc 0), (11036581, .negSucc 0), (16730521, .ofNat 1), (27072161, .negSucc 0), (30244063, .ofNat 1)] 0)) .nil)) (.node (.node (.leaf (.adef 12161 [(14813473, .ofNat 1), (57453899, .ofNat 1)] 0)) .nil) (.node (.leaf (.adef 32587 [(4251341, .ofNat 1), (8324209, .ofNat 1)] 0)) .nil))) (.node (.node (.node (.leaf (.atom 10837)) (.leaf (.adef 46877 [(42517037, .negSucc 0), (49841173, .ofNat 1), (50507461, .negSucc 0), (97169081, .negSucc 0), (97457629, .ofNat 1), (98821453, .negSucc 0)] 0))) (.node (.leaf (.adef 31727 [(21245687, .negSucc 0), (21384437, .ofNat 1), (22017169, .ofNat 1), (22071527, .negSucc 0)] 0)) .nil)) (.node (.node (.leaf (.adef 36383 [(919638781, .negSucc 3), (210729749663, .negSucc 3), (467981045743, .negSucc 1), (1283583383627, .ofNat 2)] 1)) .nil) (.node (.leaf (.adef 33469 [(1599799, .negSucc 0), (11209073413, .negSucc 0), (16277293661, .ofNat 1)] 0)) .nil))))) jac85)

def jac87 : JTree := .node (.node (.node (.node (.node (.leaf (.atom 953)) (.leaf (.adef 33851 [(6240959, .ofNat 1), (6961307, .ofNat 1)] 0))) (.node (.leaf (.adef 30553 [(4210961, .ofNat 1), (8239793, .ofNat 1)] 0)) .nil)) (.node (.node (.leaf (.adef 13187 [(146747, .ofNat 1), (4207513, .negSucc 0)] 0)) (.leaf (.trans [] 0))) (.node (.leaf (.adef 40771 [(11352127, .negSucc 0), (11357069, .ofNat 1), (27578849, .negSucc 0), (37683391, .ofNat 1), (1705841933, .ofNat 1), (1706238011, .ofNat 1), (1743273061, .ofNat 1), (2477144101, .negSucc 0), (2477719267, .negSucc 0), (2541389989, .ofNat 1), (234164326937, .ofNat 1), (307290244673, .ofNat 1), (447975918977, .ofNat 1)] 0)) .nil))) (.node (.node (.node (.leaf (.atom 4363)) (.leaf (.adef 45641 [(9581707, .ofNat 1), (9585031, .negSucc 0), (15530971, .negSucc 0), (15536441, .negSucc 0), (19874051, .ofNat 1), (19899287, .ofNat 1), (27715741, .negSucc 0), (34215151, .ofNat 1), (72247213, .ofNat 1), (627232993, .ofNat 1)] 0))) (.node (.leaf (.adef 25111 [(25097, .ofNat 1), (17974919, .ofNat 1), (1960690847, .negSucc 0), (2502961963, .ofNat 1), (2635898933, .negSucc 0), (3513513979, .negSucc 0), (4360227679, .ofNat 1), (4365774667, .negSucc 0), (4402555777, .negSucc 0), (4514747023, .negSucc 0), (5126854559, .negSucc 0), (5178263747, .ofNat 1), (6398204957, .negSucc 0), (7464288199, .ofNat 1), (687325570807, .ofNat 2), (967449566659, .negSucc 0)] 0)) .nil)) (.node (.node (.leaf (.adef 12239 [(4273452853, .negSucc 0), (4970548811, .ofNat 1), (5364754561, .ofNat 1)] 0)) .nil) (.node (.leaf (.adef 42473 [(37790513, .ofNat 1), (1121540209, .negSucc 0), (1223158957, .ofNat 1), (122484312109, .negSucc 0), (133582177657, .ofNat 1), (514397190191, .negSucc 0), (561004880243, .ofNat 1)] 0)) .nil)))) (.node (.node (.node (.node (.leaf (.atom 4349)) (.leaf (.adef 27779 [(317946353, .negSucc 0), (339908383, .ofNat 1)] 0))) (.node (.leaf (.adef 30941 [(982477, .ofNat 1), (1888637, .negSucc 0), (2790791, .negSucc 0), (329867347, .ofNat 1), (452664439, .negSucc 0), (25368107909, .ofNat 1), (26659641461, .ofNat 1)] 0)) .nil)) (.node (.node (.leaf (.adef 11003 [(8430911, .negSucc 0), (105271273, .negSucc 0), (365333473, .negSucc 0), (11177226217, .ofNat 1), (16916713559, .negSucc 0), (23214163883, .ofNat 1), (1796139905111, .ofNat 1), (2464774612907, .negSucc 0)] 0)) .nil) (.node (.leaf (.adef 14107 [(41491, .ofNat 1), (41507, .ofNat 1), (2698504997, .ofNat 1), (2787561367, .ofNat 1), (4025411603, .ofNat 1), (4440348389, .ofNat 1), (7929810631, .ofNat 1), (8391074357, .ofNat 1), (8665920931, .ofNat 1), (8745114709, .ofNat 1), (11755040107, .ofNat 1), (12211471667, .ofNat 1), (12519021637, .ofNat 1), (14525988733, .ofNat 1)] 0)) .nil))) (.node (.node (.node (.leaf (.atom 6133)) (.leaf (.adef 47387 [(100809397, .ofNat 1), (893372779, .negSucc 0), (960409073, .negSucc 0), (1003776241, .ofNat 1)] 0))) (.node (.leaf (.adef 8807 [(39979, .ofNat 1), (8316439, .ofNat 1), (8676859, .negSucc 0), (10399999, .ofNat 1), (11724437, .ofNat 1), (11995037, .negSucc 0), (13845467, .ofNat 1), (15194233, .negSucc 0), (17414711, .negSucc 0)] 0)) .nil)) (.node (.node (.leaf (.adef 17959 [(7020281, .ofNat 1), (12578831, .ofNat 1), (25352737, .ofNat 1), (59034187, .ofNat 1), (70730599, .ofNat 1), (88698761, .ofNat 1), (102435371, .ofNat 1), (102542149, .ofNat 1), (139140361, .ofNat 1), (158119133, .ofNat 1), (164493463, .ofNat 1), (254590513, .ofNat 1)] 0)) .nil) (.node (.leaf (.adef 33569 [(1461487, .ofNat 1), (1597223, .negSucc 0), (2152099, .ofNat 1), (2914427, .ofNat 1)] 0)) .nil))))

end BP.EL
