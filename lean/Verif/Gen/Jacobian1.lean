import Verif.Lemmas.JTree

/-!
# Generated by tools/gen_jacobian.py
-/

namespace BP.EL

def jac1 : JTree := .node (.node (.node (.node (.node (.node .nil (.leaf (.adef 9293 [(9085639, .negSucc 0), (11049953, .ofNat 1), (14390953, .negSucc 0), (15626239, .ofNat 1)] 0))) (.node (.leaf (.adef 10177 [(86601547, .ofNat 1), (50416595179, .ofNat 1), (51948419063, .ofNat 1)] 0)) .nil)) (.node (.node (.leaf (.atom 3329)) .nil) (.node (.leaf (.adef 25601 [(6096533, .ofNat 1), (6479987, .ofNat 1), (513762643, .negSucc 0), (560312839, .ofNat 1)] 0)) .nil))) (.node (.node (.node (.leaf (.atom 3613)) (.leaf (.adef 16691 [(32061919, .ofNat 1), (11928538579, .negSucc 0), (19668540469, .negSucc 0)] 0))) (.node (.leaf (.adef 18797 [(38237138447, .ofNat 1)] 0)) .nil)) (.node (.node (.leaf (.adef 29581 [(21677009, .negSucc 3), (81047111, .negSucc 3), (127659359, .ofNat 4), (128080697, .negSucc 3), (7686988657, .ofNat 2), (7919010919, .negSucc 1)] 1)) .nil) (.node (.leaf (.adef 32839 [(98493, .negSucc 3), (142634907, .ofNat 4), (159863877, .ofNat 2), (250297713, .ofNat 2), (256737483, .ofNat 2), (417673611, .ofNat 2), (424418913, .ofNat 2), (10956559797, .ofNat 2), (271371928077, .negSucc 3), (317917319337, .negSucc 3), (360287078787, .negSucc 3), (373952331693, .negSucc 1), (434693496213, .negSucc 1), (828476450001, .negSucc 2), (538279761234807, .ofNat 8)] 0)) .nil)))) (.node (.node (.node (.node (.leaf (.atom 4831)) (.leaf (.adef 27457 [(78899, .negSucc 0), (35248181, .ofNat 1)] 0))) (.node (.leaf (.adef 37537 [(9085721, .negSucc 0), (9419779, .negSucc 0), (1940259869, .negSucc 0), (2589133907, .ofNat 1)] 0)) .nil)) (.node (.node (.leaf (.adef 3691 [(7559490221, .ofNat 1), (134205272059, .negSucc 0), (149707107257, .ofNat 1), (4774073631673, .negSucc 0), (147491991245743, .ofNat 1), (164528554014389, .negSucc 0)] 0)) .nil) (.node (.leaf (.adef 41233 [(12566513, .ofNat 1), (12613253, .negSucc 0), (12640493, .negSucc 0)] 0)) .nil))) (.node (.node (.node (.leaf (.atom 14771)) (.leaf (.adef 34849 [(20881853, .negSucc 0), (21171503, .ofNat 1), (21526819, .ofNat 1), (21954733, .negSucc 0)] 0))) (.node (.leaf (.adef 39209 [(2937919, .ofNat 1), (4030843, .ofNat 1), (6281497, .ofNat 1), (149249539, .negSucc 0)] 0)) .nil)) (.node (.node (.leaf (.adef 17903 [(107482691, .negSucc 0), (107551331, .ofNat 1), (45124446221, .negSucc 0), (124525590649, .ofNat 1)] 0)) .nil) (.node (.leaf (.adef 11923 [(3424341103, .ofNat 1), (8804664257, .ofNat 1)] 0)) .nil))))) (.node (.node (.node (.node (.node (.leaf (.atom 1609)) (.leaf (.adef 44159 [(13260937, .ofNat 1), (13329607, .negSucc 0), (13342663, .negSucc 0), (14273513, .ofNat 2)] 0))) (.node (.leaf (.adef 10223 [(2968607, .ofNat 1), (23454077, .ofNat 1), (31261297, .ofNat 1), (32487181, .ofNat 1), (14464662889, .negSucc 0)] 0)) .nil)) (.node (.node (.leaf (.adef 1291 [(27880327, .ofNat 1), (48194953, .negSucc 0)] 0)) (.leaf (.trans [(1, .ofNat 1)] 0))) (.node (.leaf (.adef 40583 [(67134069, .ofNat 2), (118236249, .ofNat 2), (132661671, .ofNat 4), (151140537, .ofNat 1), (265993704819, .negSucc 1)] 0)) .nil))) (.node (.node (.node (.leaf (.atom 22501)) (.leaf (.adef 3581 [(3885097, .ofNat 2), (5137877, .ofNat 2)] 0))) (.node (.leaf (.adef 8731 [(13457701, .ofNat 1), (1465322153, .ofNat 1), (1575264199, .ofNat 1), (3818262023, .ofNat 1), (4080308917, .ofNat 1)] 0)) .nil)) (.node (.node (.leaf (.adef 35923 [(58533899, .ofNat 1), (60273289, .negSucc 0), (64567499, .negSucc 0), (64950709, .ofNat 1)] 0)) .nil) (.node (.leaf (.adef 9127 [(8775433, .negSucc 0), (11611759, .negSucc 0), (11804371, .ofNat 1), (17556073, .negSucc 0)] 0)) .nil)))) (.node (.node (.node (.node (.leaf (.atom 2707)) (.leaf (.adef 21529 [(370513675349, .ofNat 1)] 0))) (.node (.leaf (.adef 30931 [(4231, .ofNat 1), (1696531, .ofNat 1), (1777759, .negSucc 0), (2558111, .negSucc 0), (2960723, .negSucc 0)] 0)) .nil)) (.node (.node (.leaf (.adef 35531 [(784683167, .negSucc 3), (820525499, .negSucc 3), (917567869, .ofNat 4), (993975457, .negSucc 3), (253441553399, .ofNat 2), (322475423021, .negSucc 1), (42837929957077, .ofNat 2), (45796944564347, .negSucc 1), (48118498408063, .ofNat 2), (51442266382193, .negSucc 1)] 1)) .nil) (.node (.leaf (.adef 41411 [(6621059, .ofNat 1), (8239183, .negSucc 0), (14209747, .ofNat 1)] 0)) .nil))) (.node (.node (.node (.leaf (.atom 48767)) (.leaf (.adef 47149 [(47189867, .negSucc 0), (50187959, .ofNat 1), (50611069, .negSucc 0), (105322967, .negSucc 0), (105661117, .ofNat 1), (106959313, .negSucc 0)] 0))) (.node (.leaf (.adef 31817 [(1593001, .ofNat 1), (8087450167, .negSucc 0)] 0)) .nil)) (.node (.node (.leaf (.adef 30109 [(1579423, .negSucc 0), (10989646201, .negSucc 0), (15958651697, .ofNat 1)] 0)) .nil) (.node (.leaf (.adef 43093 [(11772197, .negSucc 0), (11773609, .ofNat 1), (14194567, .ofNat 1), (27716659, .negSucc 0), (38053787, .ofNat 1), (1774363427, .ofNat 1), (1774495453, .ofNat 1), (1813627859, .ofNat 1), (1813762897, .ofNat 1), (2576647819, .negSucc 0), (2576839541, .negSucc 0), (2643955091, .ofNat 1), (2644151953, .ofNat 1), (236391688369, .ofNat 1)] 0)) .nil)))))

def jac2 : JTree := .node (.node (.node (.node (.leaf (.atom 2027)) (.leaf (.adef 33769 [(26898649, .ofNat 1), (28260983, .ofNat 1), (28418003, .ofNat 1), (30724279, .ofNat 1), (31050433, .ofNat 1), (31073321, .ofNat 1), (56585533, .ofNat 1), (6696081803, .negSucc 0), (7545101101, .ofNat 1), (7912814257, .ofNat 1), (8700257893, .ofNat 1), (9733756687, .ofNat 1), (13571077283, .ofNat 1), (15357173239, .ofNat 1), (48839403721, .ofNat 1), (617737369307, .ofNat 1), (679090696507, .negSucc 0), (3551137388453, .ofNat 1), (3794413841261, .ofNat 1), (3926756241127, .negSucc 0), (4136101308457, .negSucc 0), (14790104127809, .ofNat 1), (381570060916633, .ofNat 1), (419467384213433, .negSucc 0), (2614512587122763, .negSucc 0), (241198087942363547, .ofNat 1), (265153746033994747, .negSucc 0)] 0))) (.node (.leaf (.adef 15679 [(4926952469, .ofNat 1), (4973446337, .ofNat 2), (5292044789, .ofNat 1), (5694159929, .ofNat 1), (5955001973, .ofNat 1), (6128782763, .negSucc 0), (6858563003, .ofNat 1), (10840346609, .negSucc 0), (11240359399, .negSucc 0), (50991528569, .negSucc 0), (58128337681, .ofNat 1), (60273294791, .ofNat 1), (83268188513, .negSucc 0), (108475649921, .negSucc 0), (112088817041, .negSucc 1), (116224935751, .negSucc 1), (172311701743, .negSucc 0), (172657583519, .ofNat 1), (174880545757, .negSucc 0), (175231583981, .ofNat 1), (272117614627, .ofNat 1), (444181456127, .ofNat 2), (524724131747, .negSucc 1), (1434735047099, .ofNat 1), (1664308058797, .negSucc 0), (4802456529697, .ofNat 1), (4804657982479, .negSucc 0), (4979668947767, .ofNat 1), (5440728014669, .negSucc 0), (5593326458003, .negSucc 0), (6139685760277, .negSucc 0), (7865776959059, .ofNat 1), (8118062592103, .ofNat 1), (13062404198771, .ofNat 1), (13366215820609, .ofNat 1), (13544411733781, .ofNat 1), (13692636155467, .ofNat 1), (14197899482237, .ofNat 1), (14198812865309, .ofNat 1), (16621642400071, .ofNat 1), (17423599685567, .ofNat 1), (1270826650211563, .ofNat 1), (1505476270595417, .negSucc 0), (1547701012348679, .negSucc 0), (1623940000836169, .ofNat 1)] 0)) .nil)) (.node (.node (.leaf (.adef 28871 [(49153653, .ofNat 2), (61439967, .ofNat 1), (89121464433, .negSucc 1)] 0)) .nil) (.node (.leaf (.adef 40351 [(31611696407, .ofNat 1), (38212945451, .ofNat 1), (53621426731, .ofNat 1), (79046513653, .ofNat 1), (974792412691, .negSucc 0), (1087389116993, .ofNat 1), (1587716831243, .negSucc 0), (1685875107271, .negSucc 0), (1778719277809, .ofNat 1), (1880607830333, .ofNat 1), (3262474832783, .negSucc 0), (3654950784829, .ofNat 1)] 0)) .nil))) (.node (.node (.node (.leaf (.atom 12689)) (.leaf (.adef 21997 [(35714291, .ofNat 1), (36614251, .negSucc 0), (52103813, .ofNat 1), (15310274717, .negSucc 0)] 0))) (.node (.leaf (.adef 18979 [(2413571, .negSucc 0), (2634077, .negSucc 0), (2913077, .ofNat 1), (799736761, .negSucc 0)] 0)) .nil)) (.node (.node (.leaf (.adef 35569 [(36868829, .ofNat 1), (36934003, .negSucc 0), (63908827, .negSucc 0), (64177051, .ofNat 1)] 0)) .nil) (.node (.leaf (.adef 16319 [(35244743, .negSucc 0), (35726269, .ofNat 1), (36102971, .ofNat 1), (36250589, .negSucc 0)] 0)) .nil)))

def jac3 : JTree := .node (.node jac2 (.node (.node (.node (.node (.leaf (.atom 47947)) (.leaf (.adef 34061 [(134049, .ofNat 2), (693527481, .negSucc 0)] 0))) (.node (.leaf (.adef 30773 [(113241, .ofNat 8), (501020343, .negSucc 3), (680042439, .negSucc 3), (736930251, .negSucc 3), (1346956959951, .ofNat 6)] 1)) .nil)) (.node (.node (.leaf (.adef 3517 [(619649, .negSucc 0), (26273437, .ofNat 1)] 0)) (.leaf (.trans [(47389, .negSucc 0)] 0))) (.node (.leaf (.adef 20047 [(1598903, .negSucc 0), (2363279, .ofNat 1)] 0)) .nil))) (.node (.node (.node (.leaf (.atom 6037)) (.leaf (.adef 46567 [(44317577, .negSucc 0), (49935751, .ofNat 1), (49971491, .negSucc 0), (61825691, .ofNat 1), (62538197, .negSucc 0)] 0))) (.node (.leaf (.adef 39509 [(587663, .negSucc 0), (3591457, .ofNat 1), (4128667, .ofNat 1), (212936219, .negSucc 0), (225658441, .negSucc 0)] 0)) .nil)) (.node (.node (.leaf (.adef 36269 [(29388450809, .negSucc 0), (49980848479, .negSucc 0), (1566699236671, .ofNat 1), (1747666146533, .negSucc 0), (2960225607653, .negSucc 0), (3316340956639, .ofNat 1)] 0)) .nil) (.node (.leaf (.adef 5827 [(22299, .ofNat 2), (50064453, .negSucc 0)] 0)) .nil))))) (.node (.node (.node (.node (.node (.leaf (.atom 2083)) (.leaf (.adef 12539 [(10433, .ofNat 1), (2764981, .ofNat 1), (9463037, .ofNat 1), (9519673, .ofNat 1), (12631103, .ofNat 1), (827209027, .ofNat 1), (2869816921, .ofNat 1)] 0))) (.node (.leaf (.adef 30559 [(5441113, .ofNat 1), (12853237, .ofNat 1)] 0)) .nil)) (.node (.node (.leaf (.adef 17333 [(232343, .negSucc 0), (377101, .negSucc 0)] 0)) (.leaf (.trans [] 0))) (.node (.leaf (.adef 40927 [(18135281, .negSucc 0), (22511107, .negSucc 0), (26446957, .ofNat 1), (30353201, .negSucc 0)] 0)) .nil))) (.node (.node (.node (.leaf (.atom 35447)) (.leaf (.adef 34757 [(56908081, .negSucc 1), (5435845021, .negSucc 0), (283597643339, .negSucc 1), (751877441863, .negSucc 0), (1045524338863, .ofNat 1)] 1))) (.node (.leaf (.adef 19219 [(38971, .ofNat 1), (10540147, .negSucc 0), (11008993, .ofNat 1), (13052269, .ofNat 1), (14247859, .ofNat 1), (15442373, .negSucc 0), (16934867, .ofNat 1), (18748571, .negSucc 0), (26235773, .negSucc 0), (68703517, .negSucc 0), (1515909793393, .ofNat 1)] 0)) .nil)) (.node (.node (.leaf (.adef 11177 [(1852883, .ofNat 1), (4088701, .ofNat 1), (587218001, .ofNat 1), (4395315265949, .negSucc 0)] 0)) .nil) (.node (.leaf (.adef 33199 [(20857206691, .ofNat 1), (22290286673, .ofNat 1)] 0)) .nil)))) (.node (.node (.node (.node (.leaf (.atom 3391)) (.leaf (.adef 45083 [(225628192663, .ofNat 1)] 0))) (.node (.leaf (.adef 38459 [(22533757, .negSucc 0), (24185207, .negSucc 0), (24359341, .ofNat 1), (24788717, .ofNat 1), (24834133, .negSucc 0), (30961537, .negSucc 0)] 0)) .nil)) (.node (.node (.leaf (.adef 4933 [(372670291, .ofNat 1), (750834337211, .negSucc 0)] 0)) .nil) (.node (.leaf (.adef 26249 [(5883047, .negSucc 0), (7687751, .negSucc 0), (8586161, .ofNat 1), (71116337, .ofNat 1), (10924018759, .negSucc 0), (14990616283, .ofNat 1), (23736507007, .negSucc 0)] 0)) .nil))) (.node (.node (.node (.leaf (.atom 2543)) (.leaf (.atom 1321))) (.node (.leaf (.adef 11833 [(4827811, .negSucc 0), (1401627323, .negSucc 0), (4535351139797, .negSucc 0)] 0)) .nil)) (.node (.node (.leaf (.adef 15647 [(34059667, .ofNat 1), (34126699, .negSucc 0), (34573703, .negSucc 0), (34578311, .ofNat 1)] 0)) .nil) (.node (.leaf (.adef 43517 [(2869483, .ofNat 1), (3247229, .negSucc 0)] 0)) .nil)))))

def jac4 : JTree := .node (.node (.node (.leaf (.atom 4919)) (.leaf (.adef 35051 [(21704273, .negSucc 0), (22202227, .ofNat 1), (23341193, .ofNat 1), (23670149, .negSucc 0)] 0))) (.node (.leaf (.adef 39367 [(11058431, .negSucc 0), (27423371, .ofNat 1), (27600887, .negSucc 0), (29525401, .ofNat 1), (29548789, .ofNat 1), (33498181, .ofNat 1), (33502607, .ofNat 1), (33504689, .negSucc 0), (33520153, .ofNat 1), (37716499, .negSucc 0), (1599545641, .ofNat 1), (1665441977, .ofNat 1), (1665970081, .ofNat 1), (1700736091, .ofNat 1), (1702761661, .ofNat 1), (2418477169, .negSucc 0), (2419244057, .negSucc 0), (2479378459, .ofNat 1), (2482331389, .ofNat 1), (244822510147, .ofNat 1), (245013792677, .ofNat 1), (250838236619, .negSucc 0), (250877365897, .negSucc 0)] 0)) .nil)) (.node (.node (.leaf (.adef 13487 [(36151, .ofNat 1), (12216383, .negSucc 0), (2379888481, .ofNat 1), (2489132251, .negSucc 0), (4349976119, .ofNat 1), (4798496299, .negSucc 0), (7459859527, .ofNat 1), (7796627543, .ofNat 1), (8023079683, .negSucc 0), (8096398837, .negSucc 0), (10104860893, .negSucc 0), (11590355941, .negSucc 0), (12281437277, .ofNat 1), (13448445469, .negSucc 0)] 0)) .nil) (.node (.leaf (.adef 33301 [(11795939, .ofNat 1), (13678073, .ofNat 1), (21599101, .ofNat 1), (25500521, .ofNat 1), (26543087, .ofNat 1), (26996857, .ofNat 1), (27915611, .ofNat 1), (34702799, .ofNat 1), (37819079, .ofNat 1), (37830217, .ofNat 1), (48222259, .negSucc 0), (55779433, .ofNat 1), (56901899, .ofNat 1), (605028367, .ofNat 1), (627354137, .ofNat 1), (993111547, .negSucc 0), (994241581, .negSucc 0), (1083975883, .ofNat 1), (1085209309, .ofNat 1), (1352816011, .negSucc 0), (1402735421, .negSucc 0), (1821943489, .ofNat 1), (2000690833, .ofNat 1), (2002897889, .negSucc 0), (2022918253, .ofNat 1), (2057849267, .ofNat 1), (2215730417, .negSucc 0), (2286797389, .negSucc 0), (2352542449, .negSucc 0), (2433703847, .negSucc 0), (2526162181, .negSucc 0), (2567787361, .ofNat 1), (2588370523, .ofNat 1), (3772312387, .ofNat 1), (3986079109, .negSucc 0), (4118254229, .negSucc 0), (4595776343, .ofNat 1), (6685382623, .negSucc 0), (7424043751, .ofNat 1), (7886523539, .ofNat 1), (8282579651, .ofNat 1), (8588683009, .ofNat 1), (8613538357, .ofNat 1), (8688623477, .ofNat 1), (9031639787, .negSucc 0), (9647527823, .ofNat 1), (10271661311, .ofNat 1), (10989665153, .ofNat 1), (14199894641, .ofNat 1), (15608492437, .ofNat 1), (17543008289, .ofNat 1), (17575220329, .ofNat 1), (19463545561, .ofNat 1), (35625869407, .negSucc 0), (42003126071, .ofNat 1), (48352261369, .ofNat 1), (268160648177, .ofNat 1), (275725943797, .ofNat 1), (286045478359, .ofNat 1), (296775283979, .ofNat 1), (303661396147, .ofNat 1), (312178318189, .ofNat 1), (330265784843, .ofNat 1), (342672073451, .ofNat 1), (342898084561, .ofNat 1), (351572850361, .negSucc 0), (361433565607, .negSucc 0), (379237604777, .ofNat 1), (616750331887, .ofNat 1), (678005627087, .negSucc 0), (1013621099083, .negSucc 0), (1106361948187, .ofNat 1), (1393181433389, .ofNat 1), (1531551427789, .negSucc 0), (1894745118583, .ofNat 1), (2082930135383, .negSucc 0), (3101155718123, .negSucc 0), (4069739644507, .negSucc 0), (286092648131387, .ofNat 1), (314507208626587, .negSucc 0), (375447961319083, .ofNat 1), (412737241135883, .negSucc 0)] 0)) .nil))

def jac5 : JTree := .node (.node (.node (.node (.node (.leaf (.atom 937)) (.leaf (.adef 21221 [(2144003, .ofNat 1), (3660257, .negSucc 0), (255932401, .ofNat 1), (348296423, .ofNat 1), (371653097, .negSucc 0), (482439319, .ofNat 1)] 0))) (.node (.leaf (.adef 24251 [(5695343, .ofNat 1), (6074843, .negSucc 0), (485165287, .negSucc 0), (587533937, .negSucc 0), (773693671, .negSucc 0), (823858669, .negSucc 0)] 0)) .nil)) (.node (.node (.leaf (.adef 15101 [(331769267, .negSucc 0), (461342267, .ofNat 1), (996202183, .ofNat 1), (1018389077, .ofNat 1), (1446638351, .negSucc 0), (1484634773, .ofNat 1), (6237336697, .negSucc 0), (7697917243, .negSucc 1), (10150343243, .ofNat 1), (14059646779, .ofNat 1), (1631123518069, .ofNat 1), (2238328888753, .negSucc 0), (2259334484357, .ofNat 1), (3100398951809, .negSucc 0)] 0)) (.leaf (.trans [] 0))) (.node (.leaf (.adef 25873 [(40813, .ofNat 1), (11269477, .ofNat 1), (12871459, .ofNat 1), (13362329, .ofNat 1), (17325389, .negSucc 0), (18099797, .negSucc 0), (26408353, .ofNat 1), (68600549, .ofNat 1)] 0)) .nil))) (.node (.node (.node (.leaf (.trans [(691, .ofNat 1), (222829, .ofNat 1), (37124657, .ofNat 1), (40811857, .negSucc 0)] 0)) (.leaf (.adef 22037 [(4559057, .negSucc 0), (130987253, .ofNat 1), (137656037, .ofNat 1), (372339731, .ofNat 1), (384742583, .negSucc 0), (1193728259, .ofNat 1), (13419880951, .ofNat 1), (20180704207, .negSucc 1)] 0))) (.node (.leaf (.adef 31267 [(38873, .ofNat 1), (2969581, .negSucc 0), (2163657631, .negSucc 0), (2652186671, .ofNat 1), (2870890013, .negSucc 0), (3535224673, .ofNat 1), (4858299521, .negSucc 0), (5001168329, .negSucc 0), (5310421343, .ofNat 1), (5491627667, .ofNat 1), (7782619753, .ofNat 1), (8147526341, .negSucc 0), (508822732757, .ofNat 2), (691572690709, .negSucc 1), (716196738809, .negSucc 0), (973427627833, .ofNat 1)] 0)) .nil)) (.node (.node (.leaf (.adef 23623 [(6817827791, .ofNat 2), (7131323389, .ofNat 2), (12312277147, .ofNat 2), (12766604717, .ofNat 2), (17673342473, .ofNat 2), (53996243501, .ofNat 2), (55988724811, .ofNat 2), (61370500381, .ofNat 2), (63635094491, .ofNat 2), (74096995337, .negSucc 1), (75741467239, .ofNat 2), (76831201807, .negSucc 1), (77507522959, .ofNat 2), (78536355329, .ofNat 2), (88092710879, .ofNat 2), (106360631683, .negSucc 1), (108721146701, .ofNat 2), (103772737578491, .ofNat 2), (128072923551329, .ofNat 2), (134997932130563, .ofNat 2), (185252537936231, .negSucc 1)] 0)) .nil) (.node (.leaf (.adef 26513 [(3065105203, .ofNat 1), (11011523363, .ofNat 1), (96840712037, .negSucc 0), (105701113493, .ofNat 1), (192347062781, .negSucc 0), (32965840076647, .ofNat 1), (45840699869647, .negSucc 0)] 0)) .nil)))) (.node (.node (.node (.node (.leaf (.atom 7193)) (.leaf (.adef 21647 [(1655569922849, .ofNat 1)] 0))) (.node (.leaf (.adef 38299 [(3559943, .negSucc 0), (4094053, .ofNat 1), (159261737, .negSucc 0), (3676626447383, .ofNat 1), (5339025462751, .negSucc 0)] 0)) .nil)) (.node (.node (.leaf (.adef 15439 [(104498579, .negSucc 3), (107827843, .negSucc 3), (109161007, .negSucc 3), (254026177, .negSucc 3), (259364689, .negSucc 3), (432583189, .ofNat 4), (443127197, .negSucc 3), (997125313, .ofNat 4), (1017589609, .negSucc 3), (28872963979, .ofNat 4), (29900163079, .negSucc 3), (30314198303, .ofNat 4), (40471395479, .ofNat 2), (122877126041, .negSucc 3), (125488908073, .negSucc 3), (11198634698747, .ofNat 2)] 1)) .nil) (.node (.leaf (.adef 16231 [(41519, .ofNat 1), (2986147, .negSucc 0), (851392967, .ofNat 1), (1040306669, .ofNat 1), (2313703373, .ofNat 1), (2839835153, .ofNat 1), (3159536437, .ofNat 1), (4193275349, .ofNat 1), (5464032773, .ofNat 1), (375808683139, .negSucc 0), (517031635411, .negSucc 0), (646997512397, .negSucc 0)] 0)) .nil))) (.node (.node (.node (.leaf (.atom 8209)) (.leaf (.adef 47441 [(770648723, .ofNat 1), (772010213, .ofNat 1)] 0))) (.node (.leaf (.adef 6869 [(115697489, .ofNat 1), (116157739, .negSucc 0), (116328001, .ofNat 1), (144423193, .ofNat 1), (144952607, .negSucc 0), (145178273, .ofNat 1), (193059343, .ofNat 1), (193247531, .negSucc 0), (193360897, .ofNat 1), (193480949, .ofNat 1), (193628101, .ofNat 1), (193636679, .negSucc 0)] 0)) .nil)) (.node (.node (.leaf (.adef 17987 [(707994817, .negSucc 0), (734120087, .negSucc 0), (1158092213, .negSucc 0), (1186332263, .negSucc 0), (1797919489, .ofNat 1), (2250247133, .negSucc 0), (6903664387, .ofNat 1), (7700416637, .ofNat 1), (9103307197, .ofNat 1), (13864788451, .negSucc 0), (14376404261, .negSucc 0), (160855272911, .negSucc 0), (161621576993, .ofNat 1), (177613820863, .negSucc 0), (183496303717, .negSucc 0), (189251763139, .ofNat 1), (811071545489, .negSucc 0), (5922162182393, .negSucc 0), (6221063733727, .negSucc 0), (6427102321093, .negSucc 0), (6934591627339, .negSucc 0)] 0)) .nil) (.node (.leaf (.adef 43291 [(2859953, .ofNat 1), (3243241, .negSucc 0)] 0)) .nil))))

def jac6 : JTree := .node (.node (.node (.node (.node (.leaf (.atom 1327)) (.leaf (.adef 33773 [(20635847, .ofNat 1), (22167349, .negSucc 0), (23325457, .negSucc 0), (23566141, .ofNat 1)] 0))) (.node (.leaf (.adef 13649 [(436129, .negSucc 0), (485183, .ofNat 1), (967103, .ofNat 1), (1304789, .ofNat 1), (31480187, .negSucc 0), (33009763, .negSucc 0), (6186761201, .ofNat 1), (6486077849, .ofNat 1)] 0)) .nil)) (.node (.node (.leaf (.adef 14951 [(21426347, .ofNat 1), (5928775871, .ofNat 1)] 0)) (.leaf (.trans [(15493, .ofNat 1)] 0))) (.node (.leaf (.adef 25793 [(7339877, .ofNat 4), (2692702379, .ofNat 2)] 1)) .nil))) (.node (.node (.node (.leaf (.atom 48527)) (.leaf (.adef 9479 [(894601, .negSucc 0), (3472921, .ofNat 1), (4419221, .ofNat 1), (198128869, .negSucc 0), (211577411, .negSucc 0), (246286373, .negSucc 0), (303974227, .ofNat 1), (315400759, .negSucc 0), (325622807, .negSucc 0), (446704883, .ofNat 1), (464464081, .negSucc 0), (2799370351, .negSucc 0), (2995624399, .negSucc 0), (3828785161, .negSucc 0), (66695934373, .ofNat 1), (71223104387, .ofNat 1), (71265453667, .negSucc 0), (76102792373, .negSucc 0), (82907149541, .ofNat 1), (88587343139, .negSucc 0), (109614098519, .ofNat 1), (117124057601, .negSucc 0)] 0))) (.node (.leaf (.adef 19081 [(3084533, .ofNat 2), (16505497, .negSucc 1), (140009927, .negSucc 1), (371191099, .ofNat 2), (539026403, .negSucc 1), (38131481411, .negSucc 1), (62501865667, .ofNat 2)] 0)) .nil)) (.node (.node (.leaf (.adef 23497 [(8006191, .ofNat 1), (12631123, .negSucc 0), (12800947, .ofNat 1), (983230906859, .negSucc 0), (1012908517853, .ofNat 1)] 0)) .nil) (.node (.leaf (.adef 42283 [(5047729, .negSucc 0), (7495673, .negSucc 0), (10002973, .ofNat 1)] 0)) .nil)))) (.node (.node (.node (.node (.leaf (.atom 10463)) (.leaf (.adef 44839 [(104234527, .ofNat 4), (107942827, .negSucc 3), (109437539, .ofNat 4), (1099050437, .ofNat 4), (1124258869, .negSucc 3), (2549863111, .ofNat 4), (2604837559, .negSucc 3), (28946106383, .negSucc 3), (29868312511, .negSucc 3), (30237598939, .negSucc 3), (103997206583, .negSucc 3), (106557092111, .ofNat 4), (113967280421, .ofNat 2), (311751794257, .negSucc 3), (318825702809, .negSucc 3), (12641790531077, .ofNat 4), (12687330265081, .negSucc 3), (13091541234377, .negSucc 3), (31535308479953, .ofNat 2)] 1))) (.node (.leaf (.adef 18541 [(294448679, .ofNat 1), (365129177, .ofNat 1), (380000957, .ofNat 1), (467687227, .ofNat 1), (509177753, .negSucc 0), (575637979, .negSucc 0), (62625594409, .negSucc 0), (70030382009, .negSucc 0), (75001396939, .ofNat 1), (92697102659, .negSucc 0), (110801072417, .ofNat 1), (112129283147, .ofNat 1), (546128823653, .negSucc 0), (769340893097, .negSucc 0), (995822088191, .ofNat 1), (95981840312057, .ofNat 1), (116102603432081, .negSucc 0)] 0)) .nil)) (.node (.node (.leaf (.adef 13381 [(87909, .ofNat 2), (236397339, .negSucc 0)] 0)) .nil) (.node (.leaf (.adef 20129 [(2652781, .ofNat 2), (3091097, .ofNat 2), (4359913, .ofNat 2), (16556921, .negSucc 1), (139852091, .ofNat 2), (372775411, .ofNat 2), (541327067, .negSucc 1)] 0)) .nil))) (.node (.node (.node (.leaf (.atom 10753)) (.leaf (.adef 46807 [(48187309, .negSucc 0), (50128021, .negSucc 0), (50253877, .ofNat 1), (67376633, .ofNat 1), (67680937, .negSucc 0), (109237591, .negSucc 1)] 0))) (.node (.leaf (.adef 31667 [(882887, .ofNat 1), (1499473, .ofNat 1), (1575619, .negSucc 0), (2117839, .negSucc 0), (2869421, .negSucc 0)] 0)) .nil)) (.node (.node (.leaf (.adef 36343 [(6513883, .negSucc 0), (7809371, .ofNat 1)] 0)) .nil) (.node (.leaf (.adef 33413 [(128769, .ofNat 2), (687161043, .negSucc 0)] 0)) .nil))))

def jac7 : JTree := .node (.node (.node (.node (.node (.node (.node (.leaf (.atom 379)) (.leaf (.adef 9341 [(8330251, .negSucc 0), (14115887, .negSucc 0), (15476107, .ofNat 1)] 0))) (.node (.leaf (.adef 24107 [(5441552143, .ofNat 2), (6849009053, .negSucc 1), (7160490739, .ofNat 2), (12739063123, .negSucc 1), (13209139253, .negSucc 1), (18285961457, .negSucc 1), (3362717921807, .ofNat 2), (3486803453977, .ofNat 2), (4643798499491, .negSucc 1), (4815156377701, .negSucc 1), (4826927201413, .ofNat 2), (6665821462369, .negSucc 1)] 0)) .nil)) (.node (.node (.leaf (.adef 1847 [(17239870367, .ofNat 1), (17413912961, .negSucc 0), (47244004387, .negSucc 0), (47326671283, .ofNat 1), (55661012203, .negSucc 0)] 0)) .nil) (.node (.leaf (.adef 40193 [(6851099, .negSucc 0), (8042369, .ofNat 1)] 0)) .nil))) (.node (.node (.node (.leaf (.atom 443)) (.leaf (.adef 10427 [(22307, .ofNat 1), (4065869, .ofNat 1), (7586461, .ofNat 1), (7632979, .ofNat 1), (10130903, .ofNat 1), (215296693, .negSucc 0), (2991154648541, .negSucc 0)] 0))) (.node (.leaf (.adef 38723 [(27263473, .ofNat 2), (27435379, .ofNat 2), (30812183, .ofNat 1), (30943351, .ofNat 1), (34281383, .ofNat 1), (37324997, .ofNat 1), (880518277, .ofNat 1), (1012611319, .ofNat 1), (1085030071, .ofNat 1), (1261673291, .ofNat 1), (1781348221, .ofNat 1), (1944362281, .ofNat 1), (3507013681, .ofNat 1), (3744471539, .ofNat 1), (4052417779, .ofNat 1), (122393936129, .ofNat 1), (149533818739, .ofNat 1), (508305280169, .negSucc 0), (554361004037, .ofNat 1)] 0)) .nil)) (.node (.node (.leaf (.adef 2797 [(448088008175302453, .ofNat 1)] 0)) .nil) (.node (.leaf (.adef 20357 [(41904021877, .negSucc 0), (41988135941, .ofNat 1), (44018988803, .negSucc 0), (45476876177, .negSucc 0), (46142807131, .negSucc 0), (47671034329, .negSucc 0), (49067767871, .negSucc 0), (49166261743, .ofNat 1), (88900760453, .negSucc 0), (115813348901, .negSucc 0), (180567683501, .negSucc 0), (180930137533, .ofNat 1), (180954782033, .negSucc 0), (181318013089, .ofNat 1), (13945994110751, .ofNat 1), (14460606439561, .ofNat 1), (14618857315927, .ofNat 1), (15158298545297, .ofNat 1), (17745992506051, .ofNat 1), (18602197184027, .ofNat 1)] 0)) .nil)))) (.node (.node (.node (.node (.leaf (.atom 14723)) (.leaf (.adef 33997 [(44579, .ofNat 1), (44587, .negSucc 0), (1333733363, .ofNat 1)] 0))) (.node (.leaf (.adef 30677 [(6621067, .negSucc 0), (6906787, .negSucc 0)] 0)) .nil)) (.node (.node (.leaf (.adef 1867 [(11107957043, .negSucc 0), (17499086321, .ofNat 1), (17699968967, .negSucc 0), (44583958981, .negSucc 0), (59810696843, .ofNat 1), (60427134137, .negSucc 0), (1630112371608283, .ofNat 1), (1682074533271177, .negSucc 0)] 0)) (.leaf (.trans [] 0))) (.node (.leaf (.adef 8999 [(41263, .ofNat 1), (7948337, .negSucc 0), (11851319, .negSucc 0), (15047761, .negSucc 0), (20051027, .ofNat 1), (22572097, .ofNat 1), (24753607, .negSucc 0), (29453833, .negSucc 0), (44714113, .negSucc 0)] 0)) .nil))) jac4)) jac5) (.node jac6 (.node (.node (.node (.node (.node (.leaf (.atom 2297)) (.leaf (.adef 27409 [(27407, .ofNat 1), (3242873, .ofNat 1), (3768451, .negSucc 0), (19386011, .ofNat 1), (606038311, .ofNat 1), (611921593, .negSucc 0), (796827803, .negSucc 0), (811128127, .ofNat 1), (1037478991, .ofNat 1), (1071233417, .negSucc 0), (1138614991, .negSucc 0), (4272045133, .negSucc 0), (4417819177, .negSucc 0), (6260840843, .negSucc 0), (226821591103, .negSucc 0), (229023523489, .ofNat 1), (388296632743, .negSucc 0)] 0))) (.node (.leaf (.adef 6263 [(24407, .ofNat 1), (3605023, .negSucc 0), (285827303, .ofNat 1), (541905841, .ofNat 1), (560148059, .negSucc 0), (870675079, .ofNat 1), (888326473, .ofNat 1), (7424443577, .ofNat 1), (99768758083, .ofNat 1), (174016058747, .ofNat 1)] 0)) .nil)) (.node (.node (.leaf (.adef 22871 [(849, .negSucc 3), (9101943, .ofNat 2), (56151423, .negSucc 1), (64743093, .negSucc 0), (94767688989, .ofNat 2)] 0)) (.leaf (.trans [] 0))) (.node (.leaf (.adef 41117 [(41113, .ofNat 1), (10185829, .negSucc 0), (17200933, .negSucc 0), (22656433, .ofNat 1), (28984817, .ofNat 1), (30412363, .negSucc 0), (31720391, .negSucc 0), (37756157, .negSucc 0), (69060109, .ofNat 1)] 0)) .nil))) (.node (.node (.node (.leaf (.atom 22573)) (.leaf (.adef 12641 [(7451903, .ofNat 1), (12869797, .negSucc 0), (3751599949, .negSucc 0), (4562388121, .ofNat 1)] 0))) (.node (.leaf (.adef 25219 [(568115971, .ofNat 2), (1375297171, .negSucc 3), (1974796189, .ofNat 1), (684254697059, .ofNat 2)] 1)) .nil)) (.node (.node (.leaf (.adef 17789 [(12246947, .ofNat 1), (385831273, .ofNat 1), (460968779, .ofNat 1), (536518273, .negSucc 0), (669397363, .negSucc 0), (686195597, .ofNat 1), (1000354253, .ofNat 1)] 0)) .nil) (.node (.leaf (.adef 20731 [(29269463, .negSucc 0), (31208299, .ofNat 1), (33995209, .negSucc 0), (10580789377, .ofNat 1)] 0)) .nil)))) (.node (.node (.node (.node (.leaf (.atom 6961)) (.leaf (.adef 27917 [(9248489, .ofNat 1), (8045598427, .ofNat 1)] 0))) (.node (.leaf (.adef 8669 [(38653, .negSucc 1), (424268297, .ofNat 2)] 0)) .nil)) (.node (.node (.leaf (.adef 4993 [(374060309, .ofNat 1), (760590711923, .negSucc 0)] 0)) .nil) (.node (.leaf (.adef 32719 [(6815569, .ofNat 2), (7121897, .negSucc 0)] 0)) .nil))) (.node (.node (.node (.leaf (.atom 12097)) (.leaf (.atom 49201))) (.node (.leaf (.adef 7823 [(11610849571, .ofNat 1)] 0)) .nil)) (.node (.node (.leaf (.adef 36919 [(5106659, .negSucc 0), (9409859, .negSucc 0), (10413563, .ofNat 1), (45701862421, .ofNat 1), (56403745999, .ofNat 1), (59453543053, .ofNat 1), (81585840361, .negSucc 0), (147468454207, .negSucc 0), (182000749933, .negSucc 0), (191841680551, .negSucc 0), (263257056187, .ofNat 1)] 0)) .nil) (.node (.leaf (.adef 16477 [(35921729, .ofNat 1), (36015667, .negSucc 0), (36570503, .negSucc 0), (36586141, .ofNat 1)] 0)) .nil))))))

def jac8 : JTree := .node (.node (.node (.node (.node (.leaf (.atom 4211)) (.leaf (.adef 16603 [(5023327, .ofNat 2), (6682667, .ofNat 2), (32845829, .negSucc 1)] 0))) (.node (.leaf (.adef 18371 [(16428361, .negSucc 1), (131734859, .negSucc 1), (182471227, .negSucc 1), (215928523, .ofNat 2), (313561331, .negSucc 1), (369078683, .ofNat 2), (535958851, .negSucc 1), (30854268527, .negSucc 1)] 0)) .nil)) (.node (.node (.leaf (.adef 22769 [(49919117, .negSucc 3), (50404037, .ofNat 2), (98244101, .ofNat 4), (99150143, .ofNat 4)] 1)) (.leaf (.trans [] 0))) (.node (.leaf (.adef 32321 [(33806457, .ofNat 2), (129635169, .ofNat 4), (143476227, .ofNat 2), (157312521, .ofNat 1), (277137194121, .negSucc 1)] 0)) .nil))) (.node (.node (.node (.leaf (.atom 16943)) (.leaf (.adef 45613 [(8015647, .negSucc 0), (9597857, .ofNat 1)] 0))) (.node (.leaf (.adef 31259 [(5523143, .ofNat 1), (13059271, .ofNat 1)] 0)) .nil)) (.node (.node (.leaf (.adef 11161 [(295580369, .ofNat 1), (353678213, .ofNat 1), (355389251, .ofNat 1), (379351847, .negSucc 0), (509125267, .ofNat 1), (79002757631, .negSucc 0), (9312086019551, .negSucc 0), (13522577036647, .ofNat 1), (318878341518298667, .negSucc 0), (320513580024686881, .ofNat 1), (326329614538656043, .negSucc 0), (446500760481169891, .negSucc 0), (585456112915767079, .ofNat 1)] 0)) .nil) (.node (.leaf (.adef 14249 [(8869313, .negSucc 0), (11809073, .ofNat 1), (17204347, .ofNat 1)] 0)) .nil)))) (.node (.node (.node (.node (.leaf (.atom 4339)) (.leaf (.adef 21589 [(215202806717, .ofNat 1)] 0))) (.node (.leaf (.adef 38201 [(1539683, .ofNat 1), (1567697, .ofNat 1), (1815679, .negSucc 0), (106082891, .ofNat 2), (154048627, .negSucc 1), (4461884683, .negSucc 1), (6180335099, .negSucc 1), (6479340851, .ofNat 2), (8974794403, .ofNat 2), (9227309239, .ofNat 1)] 0)) .nil)) (.node (.node (.leaf (.adef 15401 [(4133, .ofNat 1), (35533, .ofNat 1), (132079, .negSucc 0)] 0)) .nil) (.node (.leaf (.adef 26161 [(4592807, .negSucc 0), (4770697, .negSucc 0)] 0)) .nil))) (.node (.node (.node (.leaf (.atom 2851)) (.leaf (.adef 47351 [(897839917, .ofNat 1), (898002209, .ofNat 1), (959031541, .ofNat 1), (959291359, .ofNat 1), (1007855459, .negSucc 0), (1007946433, .ofNat 1), (1352054093, .negSucc 0), (547538121871, .negSucc 0)] 0))) (.node (.leaf (.adef 39901 [(10088167, .negSucc 0), (19321867, .negSucc 0), (21872117, .ofNat 1), (22365143, .negSucc 0), (23885233, .negSucc 0), (30047543, .ofNat 1), (68743321, .negSucc 0), (8798094463, .ofNat 1), (1763239190833, .negSucc 0)] 0)) .nil)) (.node (.node (.leaf (.adef 36559 [(36523, .ofNat 4), (2140724419, .negSucc 3), (2195656289, .negSucc 3), (2248876853, .negSucc 3), (17591791067, .ofNat 4), (124935360691, .negSucc 1), (144764614703, .negSucc 3), (150060999323, .negSucc 3), (152669732377, .negSucc 3), (155878178089, .negSucc 3), (298764183607, .ofNat 4), (305775742931, .negSucc 3), (17352651351379, .ofNat 4), (17969998010479, .negSucc 3), (18218833180103, .ofNat 4), (30973495196519, .negSucc 1)] 1)) .nil) (.node (.leaf (.adef 43159 [(1509503, .ofNat 1), (1850957, .negSucc 0)] 0)) .nil))))

def jac9 : JTree := .node (.node (.node (.node (.node (.leaf (.atom 2741)) (.leaf (.adef 33893 [(1085951, .ofNat 1), (6749147, .ofNat 1), (296584513, .ofNat 1), (338153531, .ofNat 1)] 0))) (.node (.leaf (.adef 11251 [(37361, .ofNat 1), (10566137, .ofNat 1), (3001661699, .negSucc 0), (3039148339, .negSucc 0), (3740253347, .negSucc 0), (3804438181, .negSucc 0), (3977942417, .negSucc 0), (5336902091, .negSucc 0), (5337043897, .negSucc 0), (7535467081, .negSucc 0), (7667942389, .negSucc 0), (7973792507, .negSucc 0), (8014104101, .negSucc 0), (10386722551, .ofNat 1), (11170470757, .negSucc 0), (11604204317, .negSucc 0), (12624011639, .negSucc 0), (1247875498057, .negSucc 0), (1270208791249, .negSucc 0), (764461199347297, .negSucc 0)] 0)) .nil)) (.node (.node (.leaf (.adef 22853 [(223539, .negSucc 1), (17973873, .negSucc 0), (55582641, .negSucc 1), (64412001, .negSucc 0), (93807746163, .ofNat 2)] 0)) (.leaf (.trans [(45989, .ofNat 1)] 0))) (.node (.leaf (.adef 41039 [(3143743, .negSucc 0), (4119659, .ofNat 1)] 0)) .nil))) (.node (.node (.node (.leaf (.atom 17041)) (.leaf (.adef 22073 [(45497, .ofNat 1), (86373767, .ofNat 1), (86553149, .ofNat 1), (86701243, .negSucc 0), (111413251, .ofNat 1), (1237084460717, .ofNat 1)] 0))) (.node (.leaf (.adef 39089 [(6336653, .ofNat 1), (8663729, .ofNat 1), (13767443, .negSucc 0), (17639263, .ofNat 1), (35267851, .ofNat 1), (256102831, .ofNat 1), (846825547, .ofNat 1), (922220809, .negSucc 0), (944154223, .ofNat 1), (1019494667, .ofNat 1), (1225918481, .ofNat 1), (8488759457, .negSucc 0), (10476549683, .negSucc 0), (25620295357, .ofNat 1), (31619731783, .ofNat 1), (136081808501, .ofNat 1), (186739900337, .negSucc 0)] 0)) .nil)) (.node (.node (.leaf (.adef 17737 [(5967329, .negSucc 0), (8211061, .ofNat 1), (2489671103, .negSucc 0), (3294580193, .ofNat 1)] 0)) .nil) (.node (.leaf (.adef 20663 [(45274877, .negSucc 0), (68408383, .ofNat 1), (82681531, .negSucc 0), (2191829639, .negSucc 0), (3182872783, .ofNat 1), (17494087627, .negSucc 0), (24956862419, .ofNat 1)] 0)) .nil)))) (.node (.node (.node (.node (.leaf (.atom 6637)) (.leaf (.adef 27827 [(706702147, .negSucc 0), (732779717, .negSucc 0), (3700724659, .negSucc 0), (5874983171, .negSucc 0), (8453710669, .ofNat 1), (9799913831, .ofNat 1), (10243862803, .ofNat 1), (125715702451, .ofNat 1), (130354658261, .ofNat 1), (151320283801, .ofNat 1), (156904058111, .ofNat 1), (172514886487, .negSucc 0), (178880749457, .negSucc 0), (186754552219, .ofNat 1), (193645864109, .ofNat 1), (273394989871, .ofNat 1), (283532714539, .ofNat 1), (323011160371, .negSucc 0), (335436774737, .negSucc 0), (337415167549, .ofNat 1), (349926816241, .ofNat 1), (392818229773, .negSucc 0), (407399690041, .negSucc 0), (499419746321, .ofNat 1), (510446888033, .ofNat 1), (616367540099, .ofNat 1), (700466888621, .negSucc 0), (51906727454093, .negSucc 0), (53903478828271, .negSucc 0), (60339914736011, .ofNat 1), (62579739679487, .ofNat 1), (71229631780841, .ofNat 1), (73969697897827, .ofNat 1), (82802174576207, .negSucc 0), (85875801325619, .negSucc 0), (156648132721679, .ofNat 1), (193330009351901, .ofNat 1), (203783522368247, .ofNat 1), (279644392417739, .negSucc 0)] 0))) (.node (.leaf (.adef 38593 [(38569, .ofNat 1), (10742297, .negSucc 0), (12728489, .ofNat 1), (18675161, .ofNat 1), (21451187, .ofNat 1), (22220111, .ofNat 1), (23215163, .negSucc 0), (26099189, .negSucc 0), (29974979, .negSucc 0), (68594593, .negSucc 0), (1760895077119, .ofNat 1)] 0)) .nil)) (.node (.node (.leaf (.adef 29429 [(3451813, .ofNat 1), (50585033, .negSucc 0)] 0)) .nil) (.node (.leaf (.adef 5813 [(22251, .ofNat 4), (50036319, .negSucc 1), (57926529, .negSucc 1), (66141063, .negSucc 1), (99249535629, .ofNat 3)] 0)) .nil))) (.node (.node (.node (.leaf (.atom 48973)) (.leaf (.atom 1571))) (.node (.leaf (.adef 25463 [(5670881, .negSucc 0), (6269201, .negSucc 0), (7049443, .negSucc 0), (7276499, .negSucc 0), (565660201, .ofNat 1), (633709163, .negSucc 0)] 0)) .nil)) (.node (.node (.leaf (.adef 30253 [(1431293, .negSucc 0), (1561871, .ofNat 1), (2089289, .ofNat 1), (2848649, .ofNat 1), (88692607, .negSucc 0), (99379183, .ofNat 1)] 0)) .nil) (.node (.leaf (.adef 33637 [(1362139, .ofNat 1), (2157809, .ofNat 1), (2898271, .ofNat 1)] 0)) .nil))))

def jac10 : JTree := .node (.node (.node (.node (.node (.node (.node (.leaf (.atom 2357)) (.leaf (.adef 21017 [(6238231, .negSucc 0), (6743183, .ofNat 1), (17986849, .negSucc 0), (31112681, .ofNat 2)] 0))) (.node (.leaf (.adef 12277 [(4308283151, .negSucc 0), (4991114573, .negSucc 0), (5392214669, .ofNat 1)] 0)) .nil)) (.node (.node (.leaf (.adef 8243 [(2098223, .negSucc 0), (89685640559, .ofNat 1), (94024648391, .ofNat 1)] 0)) .nil) (.node (.leaf (.adef 40163 [(94492268471, .negSucc 0), (101626842067, .ofNat 1)] 0)) .nil))) (.node (.node (.node (.leaf (.atom 877)) (.leaf (.adef 10399 [(69133, .ofNat 1), (4189943, .negSucc 0)] 0))) (.node (.leaf (.adef 4283 [(1501397, .negSucc 0), (1910497, .negSucc 0), (2281271, .ofNat 1)] 0)) .nil)) (.node (.node (.leaf (.adef 1367 [(4947071, .negSucc 0), (5945549, .ofNat 1), (14539697, .negSucc 0)] 0)) .nil) (.node (.leaf (.adef 41903 [(11526509, .negSucc 0), (28403189, .ofNat 1), (29880119, .ofNat 1), (37013813, .ofNat 1), (37702253, .negSucc 0), (335152211, .negSucc 0), (335824963, .ofNat 1), (855221209, .negSucc 0), (856937897, .ofNat 1), (1733699419, .ofNat 1), (1773116459, .ofNat 1), (2517597443, .negSucc 0), (2584896491, .ofNat 1), (37001408207, .ofNat 1)] 0)) .nil)))) (.node (.node (.node (.node (.leaf (.atom 47869)) (.leaf (.adef 33941 [(3845789, .negSucc 0), (36791971, .negSucc 0), (38488283, .negSucc 0), (56312831, .negSucc 0)] 0))) (.node (.leaf (.adef 8641 [(1548707, .negSucc 0), (2777119, .ofNat 1), (133471007, .ofNat 1), (6675760297, .ofNat 1), (9246862841, .ofNat 1), (14142031003, .negSucc 0), (19911438373, .negSucc 0), (20536397891, .ofNat 1)] 0)) .nil)) (.node (.node (.leaf (.adef 17393 [(1533577, .ofNat 1), (1843937, .negSucc 0), (4816199, .ofNat 1), (4816753, .negSucc 0), (8346673, .negSucc 0), (10683941, .ofNat 1), (220477819, .ofNat 1), (350923267, .negSucc 0), (364294057, .ofNat 1)] 0)) .nil) (.node (.leaf (.adef 14057 [(7929281, .negSucc 0), (11679001, .negSucc 0), (14829623, .negSucc 0), (18215201, .negSucc 0), (19770523, .ofNat 1), (22522421, .ofNat 1), (24691757, .negSucc 0), (29389109, .negSucc 0), (44267753, .negSucc 0)] 0)) .nil))) (.node (.node (.node (.leaf (.atom 10657)) (.leaf (.adef 46229 [(22965797, .negSucc 0), (23011187, .negSucc 0), (23206753, .ofNat 1), (25548643, .ofNat 1), (26073367, .negSucc 0)] 0))) (.node (.leaf (.adef 39251 [(38432987, .ofNat 4), (56335459, .negSucc 3), (4655042107, .ofNat 2), (15437132143, .ofNat 2), (19627428407, .negSucc 1), (622979371277, .negSucc 1), (681984670193, .ofNat 1), (948334837193, .negSucc 0), (99001745737637, .ofNat 2)] 1)) .nil)) (.node (.node (.leaf (.adef 17911 [(36685097, .negSucc 0), (44412229, .negSucc 0), (44460739, .ofNat 1), (44480897, .ofNat 1)] 0)) .nil) (.node (.leaf (.adef 42697 [(15642589, .ofNat 1), (18699613, .negSucc 0)] 0)) .nil))))) jac8) (.node (.node (.node (.node (.node (.node (.leaf (.atom 653)) (.leaf (.trans [(2619863, .ofNat 1)] 0))) (.node (.leaf (.adef 37181 [(37171, .ofNat 1), (10451321, .negSucc 0), (12444643, .ofNat 1), (18773113, .ofNat 1), (20960861, .ofNat 1), (22256881, .negSucc 0), (22760527, .ofNat 1), (26233211, .negSucc 0), (30074119, .negSucc 0)] 0)) .nil)) (.node (.node (.leaf (.adef 13159 [(86781, .ofNat 2), (234464409, .negSucc 0)] 0)) (.leaf (.trans [] 0))) (.node (.leaf (.adef 40433 [(8888653, .ofNat 1), (14075951, .negSucc 0), (18027617, .ofNat 1), (130725341, .ofNat 1), (212302894157, .negSucc 0), (6849855578777, .negSucc 0), (6863605313641, .ofNat 1)] 0)) .nil))) (.node (.node (.node (.leaf (.atom 12739)) (.leaf (.adef 34499 [(45389, .ofNat 1), (3004721, .ofNat 1), (858327809, .negSucc 0), (909360187, .ofNat 1), (1052128369, .ofNat 1), (1119789527, .negSucc 0), (200139203683, .negSucc 0), (206968509127, .negSucc 0), (247026577507, .negSucc 0), (254290928443, .negSucc 0), (293311437893, .negSucc 0), (414271606447, .negSucc 0), (33300290406959, .ofNat 1), (34436588795171, .ofNat 1), (36607656473359, .negSucc 0), (37856811376771, .negSucc 0), (48802812651289, .ofNat 1), (53649880485689, .negSucc 0)] 0))) (.node (.leaf (.adef 38747 [(1449223, .ofNat 1), (6489858761, .negSucc 0)] 0)) .nil)) (.node (.node (.leaf (.adef 35671 [(57073567, .ofNat 1), (58436999, .negSucc 0), (64212433, .negSucc 0), (64289573, .ofNat 1)] 0)) .nil) (.node (.leaf (.adef 32987 [(2558537, .ofNat 1), (3097967, .ofNat 1), (3813371, .negSucc 0), (330776503, .ofNat 1), (408233557, .ofNat 1)] 0)) .nil)))) (.node (.node (.node (.node (.leaf (.atom 1489)) (.leaf (.adef 44753 [(18480019, .ofNat 1), (41024117, .ofNat 1)] 0))) (.node (.leaf (.adef 37853 [(2746657, .ofNat 2), (3050273, .ofNat 2), (4007011, .negSucc 1), (6496813, .ofNat 2), (6942181, .ofNat 2), (138473399, .negSucc 1), (148387937, .ofNat 2), (192554399, .ofNat 2), (495116827, .ofNat 2), (721794523, .ofNat 2)] 0)) .nil)) (.node (.node (.leaf (.adef 29231 [(1830809, .ofNat 1), (38777509, .ofNat 1)] 0)) .nil) (.node (.leaf (.adef 41357 [(1452307, .ofNat 1), (6482542613, .ofNat 1)] 0)) .nil))) (.node (.node (.node (.leaf (.atom 5279)) (.leaf (.adef 46681 [(805547249, .negSucc 0), (806439283, .ofNat 1), (860822807, .negSucc 0), (861774901, .ofNat 1), (903983977, .ofNat 1), (904347041, .negSucc 0), (1183006409, .negSucc 0), (1196859287, .ofNat 1), (1200138823, .negSucc 0), (1205765249, .ofNat 1), (1212707899, .ofNat 1), (7078432880363, .ofNat 1), (7663445329657, .ofNat 1), (8012008626661, .negSucc 0), (10814722657271, .negSucc 0)] 0))) (.node (.leaf (.adef 15973 [(34493843, .negSucc 0), (34944257, .ofNat 1), (35289211, .ofNat 1), (35473261, .negSucc 0)] 0)) .nil)) (.node (.node (.leaf (.adef 3527 [(3807989, .ofNat 2), (4561171, .ofNat 2)] 0)) .nil) (.node (.leaf (.adef 33377 [(5603071, .ofNat 4), (2194581659, .ofNat 2)] 1)) .nil))))) jac9)

def jac11 : JTree := .node (.node (.node (.node (.leaf (.atom 12647)) (.leaf (.adef 44633 [(9426587, .ofNat 1), (9427141, .negSucc 0), (15106499, .negSucc 0), (15114157, .negSucc 0), (19335683, .ofNat 1), (19355311, .ofNat 1), (642331609, .ofNat 1), (147464192839, .negSucc 0), (153076303141, .ofNat 1)] 0))) (.node (.leaf (.adef 24709 [(3403142069, .ofNat 4), (3456102259, .negSucc 3), (3613968223, .negSucc 3), (3686528057, .negSucc 3), (450571441781, .negSucc 3), (471152399657, .negSucc 3), (473931554303, .negSucc 3), (513396718859, .ofNat 4), (569472615949, .negSucc 3), (595484677153, .negSucc 3), (685785620749, .ofNat 1), (790379309569, .negSucc 0), (1073056365361, .negSucc 1), (1127775016597, .negSucc 1), (1190261240471, .ofNat 2), (1417024748747, .negSucc 1), (1935057842651, .ofNat 2), (2058711064259, .negSucc 1), (2312837459467, .negSucc 1), (2462514945883, .negSucc 1), (71442255012647, .ofNat 4), (77391384849491, .negSucc 3), (77915382280331, .negSucc 3), (84403541499143, .ofNat 4), (117792416425339, .ofNat 1), (119847591208399, .ofNat 1), (128465166082447, .negSucc 0), (130706552903827, .negSucc 0), (161776717825139, .negSucc 1), (181746365262907, .negSucc 1), (24530690151183869, .ofNat 2), (26753328270384137, .negSucc 1), (31217253458097277, .negSucc 1), (34045737169117321, .ofNat 2)] 1)) .nil)) (.node (.node (.leaf (.adef 7253 [(198217, .negSucc 0), (324283, .ofNat 1)] 0)) (.leaf (.trans [] 0))) (.node (.leaf (.adef 32531 [(20093587, .ofNat 1), (21711553, .negSucc 0), (22889543, .negSucc 0), (22938847, .ofNat 1)] 0)) .nil))) (.node (.node (.node (.leaf (.atom 10079)) (.leaf (.adef 46447 [(853647457, .negSucc 0), (854374963, .ofNat 1), (913356457, .negSucc 0), (913615651, .ofNat 1), (954117229, .ofNat 1), (954387811, .negSucc 0), (1176817837, .negSucc 0), (1191113911, .ofNat 1), (1194015797, .negSucc 0), (1199617471, .ofNat 1), (1285995581, .ofNat 1), (1286603071, .negSucc 0), (7121344489337, .ofNat 1), (7720761535331, .ofNat 1), (8035545944491, .negSucc 0), (10901283939793, .negSucc 0)] 0))) (.node (.leaf (.adef 19379 [(19373, .ofNat 1), (6091693, .ofNat 1), (6629837, .ofNat 1), (8762419, .negSucc 0), (10510571, .negSucc 0), (11091989, .negSucc 0), (16900399, .ofNat 1), (27896443, .negSucc 0), (30365843, .ofNat 1)] 0)) .nil)) (.node (.node (.leaf (.adef 36209 [(11664539, .ofNat 1), (12250739, .ofNat 1), (13245461, .ofNat 1), (21120401, .ofNat 1), (21273313, .ofNat 1), (24365983, .ofNat 1), (26473033, .ofNat 1), (28383233, .ofNat 1), (30821389, .ofNat 1), (35127821, .ofNat 1), (58371949, .ofNat 1), (58411159, .ofNat 1), (781176199, .ofNat 1), (810001889, .ofNat 1), (1710003767, .negSucc 0), (1773103537, .negSucc 0), (2270975393, .ofNat 1), (2330568293, .ofNat 1), (2347417519, .ofNat 1), (2648400179, .negSucc 0), (2730936997, .ofNat 1), (2797113763, .negSucc 0), (2831337469, .ofNat 1), (2865321313, .negSucc 0), (3078226399, .negSucc 0), (3199215067, .negSucc 0), (4279988591, .ofNat 1), (4719869281, .ofNat 1), (5035164011, .negSucc 0), (5084896591, .ofNat 1), (5169906283, .negSucc 0), (5874061783, .negSucc 0), (6580711829, .ofNat 1), (7496482267, .negSucc 0), (8772717203, .negSucc 0), (9097011527, .ofNat 1), (9356263013, .ofNat 1), (9544385563, .ofNat 1), (10161736577, .ofNat 1), (10223476999, .ofNat 1), (10468255253, .ofNat 1), (10494699581, .ofNat 1), (10752000769, .ofNat 1), (10938895117, .ofNat 1), (11778241973, .negSucc 0), (12085471421, .ofNat 1), (14496647239, .ofNat 1), (14721564523, .ofNat 1), (16241731907, .ofNat 1), (18288250319, .ofNat 1), (20178589283, .ofNat 1), (21503752157, .ofNat 1), (25246013153, .ofNat 1), (31551626231, .ofNat 1), (43154907823, .ofNat 1), (55264397989, .ofNat 1), (333669147557, .ofNat 1), (350084209421, .ofNat 1), (350509994323, .ofNat 1), (362118713857, .ofNat 1), (363192524447, .ofNat 1), (368142079247, .ofNat 1), (390711906511, .ofNat 1), (394820182111, .ofNat 1), (404569256977, .negSucc 0), (409680814883, .ofNat 1), (417968392843, .negSucc 0), (431078194381, .ofNat 1), (1141274161883, .negSucc 0), (1220107264213, .ofNat 1), (2032526280193, .ofNat 1), (2666412075973, .ofNat 1), (3228224408251, .negSucc 0), (3777811884659, .negSucc 0), (4235013652711, .negSucc 0), (4338485648927, .negSucc 0), (4860405777901, .ofNat 1), (4956001468799, .negSucc 0), (30163162302113, .negSucc 0)] 0)) .nil) (.node (.leaf (.adef 26777 [(8762371, .ofNat 1), (23907735191, .negSucc 0)] 0)) .nil)))

def jac12 : JTree := .node (.leaf (.adef 32621 [(8698177, .ofNat 1), (8708533, .ofNat 1), (8725793, .ofNat 1), (8744779, .ofNat 1), (11478437, .ofNat 1), (13314523, .ofNat 1), (21073601, .ofNat 1), (24827029, .ofNat 1), (25767041, .ofNat 1), (25860101, .ofNat 1), (25928783, .ofNat 1), (25944187, .ofNat 1), (26269783, .ofNat 1), (27329153, .ofNat 1), (31136789, .ofNat 1), (31268917, .ofNat 1), (31285433, .ofNat 1), (33947059, .ofNat 1), (34680521, .ofNat 1), (34719983, .ofNat 1), (37533857, .ofNat 1), (37544911, .ofNat 1), (47028349, .negSucc 0), (54360697, .ofNat 1), (55649617, .ofNat 1), (601834903, .ofNat 1), (624042833, .ofNat 1), (1348550471, .negSucc 0), (1398312481, .negSucc 0), (1777641989, .ofNat 1), (1954196389, .negSucc 0), (1987840013, .ofNat 1), (1997643709, .ofNat 1), (2055238777, .ofNat 1), (2208744037, .negSucc 0), (2279586929, .negSucc 0), (2346138923, .negSucc 0), (2424746213, .negSucc 0), (2517316301, .negSucc 0), (2546907287, .ofNat 1), (2560797947, .ofNat 1), (3134545727, .ofNat 1), (3174274219, .ofNat 1), (3767717143, .ofNat 1), (3971407711, .negSucc 0), (4103833309, .negSucc 0), (4587768989, .ofNat 1), (6672543607, .negSucc 0), (7296530009, .ofNat 1), (7854697933, .ofNat 1), (8268148673, .ofNat 1), (8495503433, .ofNat 1), (8578220701, .ofNat 1), (8583101003, .ofNat 1), (8921920781, .negSucc 0), (9527615809, .ofNat 1), (10158999131, .ofNat 1), (10690914917, .ofNat 1), (13940055593, .ofNat 1), (15332838259, .ofNat 1), (17241299863, .ofNat 1), (17264832703, .ofNat 1), (19107388753, .ofNat 1), (34722809929, .negSucc 0), (41106116047, .ofNat 1), (47655377171, .ofNat 1), (79333762481, .ofNat 1), (80666139943, .ofNat 1), (81444876871, .negSucc 0), (92227048181, .negSucc 0), (94813779947, .negSucc 0), (95560601837, .negSucc 0), (96892758163, .negSucc 0), (98240831219, .negSucc 0), (99896384869, .ofNat 1), (100171223101, .negSucc 0), (103080126109, .ofNat 1), (104075243773, .negSucc 0), (194579763397, .ofNat 1), (245013148553, .ofNat 1), (247598772497, .ofNat 1), (248368420061, .negSucc 0), (266745241193, .ofNat 1), (275306003281, .ofNat 1), (285682614629, .ofNat 1), (295160807983, .ofNat 1), (302058608923, .ofNat 1), (310530576901, .ofNat 1), (323556045437, .negSucc 0), (324538839403, .ofNat 1), (337405183109, .ofNat 1), (340863379859, .ofNat 1), (349660272197, .negSucc 0), (359467344539, .negSucc 0), (377174528629, .ofNat 1), (427312097501, .ofNat 1), (431437294397, .negSucc 0), (431449181129, .ofNat 1), (435614316713, .negSucc 0), (493862452063, .negSucc 0), (615565886983, .ofNat 1), (643922297027, .negSucc 0), (676703543783, .negSucc 0), (1010698831159, .negSucc 0), (1103172308551, .ofNat 1), (1388967829121, .ofNat 1), (1526919330721, .negSucc 0), (1887760189681, .ofNat 1), (2075251467281, .negSucc 0), (3047821375741, .negSucc 0), (3999838691813, .negSucc 0), (31174218705373, .ofNat 1), (32301013206421, .ofNat 1), (32324558879003, .ofNat 1), (33492932512931, .ofNat 1), (39668556227273, .ofNat 1), (41102379202721, .ofNat 1), (281172365296429, .ofNat 1), (309098246074829, .negSucc 0), (368999349742997, .ofNat 1), (405648157094197, .negSucc 0)] 0)) .nil

def jac13 : JTree := .node (.node (.node (.node (.node (.node (.leaf (.trans [(88603, .ofNat 1), (97403, .negSucc 0)] 0)) (.leaf (.adef 43867 [(44332373, .negSucc 0), (226475339, .negSucc 0), (1058895757, .ofNat 1), (2125316491, .ofNat 1), (93874929553, .negSucc 0), (131692762217, .negSucc 0)] 0))) (.node (.leaf (.adef 18169 [(14341753159, .ofNat 1)] 0)) .nil)) (.node (.node (.leaf (.adef 2273 [(9411, .ofNat 2), (17063271, .negSucc 0)] 0)) .nil) (.node (.leaf (.adef 40241 [(3608711, .negSucc 0), (4522139, .ofNat 1)] 0)) .nil))) (.node (.node (.node (.leaf (.atom 10567)) (.leaf (.adef 12611 [(10453, .ofNat 1), (2698991, .ofNat 1), (9725369, .ofNat 1), (9782819, .ofNat 1), (12987613, .ofNat 1), (808536137, .negSucc 0), (2951231659, .ofNat 1)] 0))) (.node (.leaf (.adef 11821 [(4784783, .ofNat 1), (1029465169, .negSucc 0), (1737102947, .negSucc 0)] 0)) .nil)) (.node (.node (.leaf (.adef 3217 [(292124021, .ofNat 1), (444641224741, .ofNat 1)] 0)) .nil) (.node (.leaf (.adef 42019 [(561571, .negSucc 0), (3476699, .ofNat 1), (4162181, .ofNat 1), (214427021, .negSucc 0), (62423324477, .negSucc 0)] 0)) .nil)))) jac11) (.node (.node (.node (.node (.node (.leaf (.atom 3881)) (.leaf (.adef 10391 [(22343, .ofNat 1), (4165279, .ofNat 1), (7380343, .ofNat 1), (7425673, .ofNat 1), (9854029, .ofNat 1), (220268903, .ofNat 1), (407809999, .ofNat 1)] 0))) (.node (.leaf (.adef 8581 [(12926791, .ofNat 1), (1075896091, .ofNat 1), (1900581757, .ofNat 1), (3920635051, .ofNat 1), (4041715543, .ofNat 1)] 0)) .nil)) (.node (.node (.leaf (.adef 15131 [(16253539277, .negSucc 0), (163337151539, .ofNat 1), (182203963297, .negSucc 0), (502591129847, .negSucc 0), (560644623181, .ofNat 1), (1174147399699, .ofNat 1), (1315397414537, .negSucc 0)] 0)) (.leaf (.trans [(2399, .ofNat 1)] 0))) (.node (.leaf (.adef 40849 [(2816689, .negSucc 0), (5015303, .ofNat 1), (7011047, .negSucc 0), (333635209, .ofNat 1), (457834933, .negSucc 0)] 0)) .nil))) (.node (.node (.node (.leaf (.trans [(653, .ofNat 1), (222829, .ofNat 1), (238411, .ofNat 1)] 0)) (.leaf (.adef 45751 [(104234527, .ofNat 4), (107942827, .negSucc 3), (109437539, .ofNat 4), (1132757569, .negSucc 3), (1157770351, .negSucc 3), (1569027857, .negSucc 3), (1609939351, .ofNat 4), (2459943823, .ofNat 4), (5051073047, .ofNat 4), (5113523603, .ofNat 4), (6632679769, .negSucc 3), (12523478159, .ofNat 4), (97622652119, .negSucc 3), (98733376691, .ofNat 4), (113972679671, .ofNat 2), (133014743929, .negSucc 1), (166152413879, .ofNat 2)] 1))) (.node (.leaf (.adef 4517 [(2969581, .negSucc 0), (4745933, .ofNat 1), (623964293, .ofNat 1), (1401055963, .ofNat 1), (1793057611, .ofNat 1), (2858275337, .ofNat 1), (4979193221, .ofNat 1), (103836340519, .negSucc 1), (146155514803, .ofNat 1)] 0)) .nil)) (.node (.node (.leaf (.adef 17681 [(18054277, .negSucc 0), (26182811, .ofNat 1), (68524541, .ofNat 1)] 0)) .nil) (.node (.leaf (.adef 33161 [(10926017, .ofNat 1), (883858643, .negSucc 0)] 0)) .nil)))) (.node (.node (.node (.node (.leaf (.atom 10007)) (.leaf (.adef 44971 [(12826403, .ofNat 1), (16323883, .ofNat 1)] 0))) (.node (.leaf (.adef 24799 [(3049357, .negSucc 0), (5117549, .negSucc 0), (7650859, .negSucc 0), (10332737, .ofNat 1), (11494349, .ofNat 1), (12631007, .ofNat 1)] 0)) .nil)) (.node (.node (.leaf (.adef 7283 [(193434847, .negSucc 0), (202270459, .negSucc 0), (790652501, .negSucc 0), (826767497, .negSucc 0)] 0)) .nil) jac12)) (.node (.node (.node (.leaf (.atom 3919)) (.leaf (.atom 1613))) (.node (.leaf (.adef 19489 [(18201709, .negSucc 0), (26512051, .ofNat 1), (68958751, .ofNat 1)] 0)) .nil)) (.node (.node (.leaf (.adef 30187 [(1805959, .negSucc 0), (2734051, .ofNat 1), (2782909, .negSucc 0), (100745453, .negSucc 0), (138249161, .ofNat 1), (326278907, .ofNat 1), (447740159, .negSucc 0)] 0)) .nil) (.node (.leaf (.adef 43399 [(1514533, .ofNat 1), (1853233, .negSucc 0)] 0)) .nil)))))

def jac14 : JTree := .node (.node (.node (.node (.node (.leaf (.atom 2069)) (.leaf (.adef 33809 [(28213877, .ofNat 1), (30678503, .ofNat 1), (31033267, .ofNat 1), (2436480931, .ofNat 1), (5936072683, .ofNat 1), (6641643517, .ofNat 1), (7040445947, .ofNat 1), (8318338489, .ofNat 1), (9076409239, .ofNat 1), (1335639089767, .negSucc 0), (1434891347699, .ofNat 1), (1639346110903, .negSucc 0), (1649015939027, .ofNat 1), (1835901898081, .ofNat 1), (1968477888149, .ofNat 1), (2126959634377, .negSucc 0), (123217457900023, .ofNat 1), (135455346340823, .negSucc 0)] 0))) (.node (.leaf (.adef 24181 [(23430661, .negSucc 0), (26745151, .ofNat 1), (28966781, .negSucc 0), (29791661, .ofNat 1)] 0)) .nil)) (.node (.node (.leaf (.adef 15013 [(4231, .ofNat 1), (171509927, .ofNat 1)] 0)) (.leaf (.trans [(1109, .ofNat 1)] 0))) (.node (.leaf (.adef 40519 [(14139403, .ofNat 1), (14149249, .ofNat 1), (220312363561, .negSucc 0)] 0)) .nil))) (.node (.node (.node (.leaf (.atom 11681)) (.leaf (.adef 45533 [(34716361633, .negSucc 0), (57724619899, .negSucc 0), (1851661985039, .ofNat 1), (2065544483797, .negSucc 0), (3635744367643, .negSucc 0), (4073124671009, .ofNat 1)] 0))) (.node (.leaf (.adef 24977 [(5920507, .ofNat 1), (6313163, .negSucc 0), (485977619, .negSucc 0), (588517669, .negSucc 0), (784089157, .negSucc 0), (835742231, .negSucc 0)] 0)) .nil)) (.node (.node (.leaf (.adef 11113 [(294904127, .negSucc 0), (352778993, .negSucc 0), (354635701, .ofNat 1), (378451423, .ofNat 1), (103988261111, .negSucc 0), (543377490803, .negSucc 0), (546163982329, .ofNat 1), (556074665587, .negSucc 0), (760849613419, .negSucc 0), (997633367311, .ofNat 1)] 0)) .nil) (.node (.leaf (.adef 42373 [(33624197, .ofNat 1), (49302947, .ofNat 1), (6377876987, .ofNat 1), (6907647727, .negSucc 0), (7468621297, .negSucc 0), (9487200473, .ofNat 1), (22417733911, .ofNat 1), (43221493921, .ofNat 1)] 0)) .nil)))) (.node (.node (.node (.node (.leaf (.atom 10477)) (.leaf (.adef 44927 [(44917, .ofNat 1), (11877623, .negSucc 0), (13877779, .ofNat 1), (31593799, .ofNat 1), (34256323, .negSucc 0), (40634197, .ofNat 1)] 0))) (.node (.leaf (.adef 37993 [(7331, .ofNat 1), (2064683, .ofNat 1), (2929229, .ofNat 2), (3025247, .ofNat 1), (5582719, .negSucc 0), (6542911, .negSucc 0), (8589827, .negSucc 0), (9440539, .negSucc 0), (10485337, .ofNat 1), (845021183, .ofNat 1), (148601892779, .negSucc 0), (183399602801, .negSucc 0), (193316170547, .negSucc 0), (265280442839, .ofNat 1)] 0)) .nil)) (.node (.node (.leaf (.adef 10987 [(8386057, .negSucc 0), (106164347, .negSucc 0), (106377451, .ofNat 1), (365485727, .negSucc 0), (11272048763, .ofNat 1), (11294675179, .negSucc 0)] 0)) .nil) (.node (.leaf (.adef 26083 [(6251411, .ofNat 1), (6658727, .negSucc 0), (489633113, .negSucc 0), (592944463, .negSucc 0), (791404499, .negSucc 0), (845576903, .negSucc 0)] 0)) .nil))) (.node (.node (.node (.leaf (.atom 48611)) (.leaf (.adef 46993 [(22565339, .negSucc 0), (22665761, .ofNat 1), (22740517, .negSucc 0), (30748117, .negSucc 0), (30951289, .ofNat 1), (31455353, .negSucc 0)] 0))) (.node (.leaf (.adef 31741 [(1897033, .ofNat 1), (8262629593, .ofNat 1)] 0)) .nil)) (.node (.node (.leaf (.adef 36433 [(4611757, .ofNat 1), (24227231333, .negSucc 0)] 0)) .nil) (.node (.leaf (.adef 42989 [(2945213, .negSucc 0), (490674629, .ofNat 1), (712534813, .negSucc 0)] 0)) .nil))))

def jac15 : JTree := .node (.node (.node (.node (.node (.leaf (.atom 47737)) (.leaf (.adef 5167 [(27367, .ofNat 1), (983623, .negSucc 0), (4114147, .negSucc 0), (118409069, .negSucc 0), (120809603, .negSucc 0), (200997233, .negSucc 0), (210778957, .negSucc 0), (320190163, .negSucc 0), (1009700947, .negSucc 0), (1169586007, .negSucc 0), (1276908287, .negSucc 0), (1634174639, .negSucc 0), (4537986529, .negSucc 0), (38183754611, .negSucc 0), (38957862557, .negSucc 0), (325601522893, .negSucc 0), (6361644098863, .negSucc 0), (6490615157281, .negSucc 0), (6993479003663, .ofNat 1), (7135259394881, .ofNat 1), (54247179927569, .negSucc 0), (59634979249969, .ofNat 1)] 0))) (.node (.leaf (.adef 24443 [(18762847, .ofNat 1), (10369497869, .ofNat 1)] 0)) .nil)) (.node (.node (.leaf (.adef 991 [(4694393513, .ofNat 1), (4921509137, .ofNat 1), (6594632687, .ofNat 1), (7249607887, .negSucc 0)] 0)) (.leaf (.trans [(47093, .ofNat 1)] 0))) (.node (.leaf (.adef 25939 [(11412640823, .ofNat 1), (22647499753, .ofNat 1), (495805965517, .negSucc 0), (511649163547, .negSucc 0), (555451458071, .ofNat 1), (997902022057, .negSucc 0)] 0)) .nil))) (.node (.node (.node (.leaf (.atom 22669)) (.leaf (.adef 22171 [(36767267, .ofNat 1), (36770593, .ofNat 1), (53913751, .ofNat 1), (4773506797, .ofNat 1), (6487985671, .ofNat 1), (7197527039, .negSucc 0), (7769626327, .negSucc 0), (45050130989, .ofNat 1)] 0))) (.node (.leaf (.adef 31387 [(7139549, .ofNat 4), (506707249, .ofNat 2), (2175005387, .ofNat 1), (4254042157, .ofNat 2)] 1)) .nil)) (.node (.node (.leaf (.adef 17837 [(738629, .ofNat 1), (1408933, .ofNat 1)] 0)) .nil) (.node (.leaf (.adef 9187 [(14772137, .ofNat 1), (871234219, .ofNat 1), (3119969773, .ofNat 1), (4478546899, .negSucc 0)] 0)) .nil)))) (.node (.node (.node (.node (.leaf (.atom 733)) (.leaf (.adef 45263 [(13968083, .negSucc 0), (13974553, .negSucc 0), (13975847, .ofNat 1), (16198319, .negSucc 0), (16204327, .negSucc 0), (16211837, .ofNat 1), (28685759, .ofNat 1), (2338057649, .ofNat 1), (2387792161, .ofNat 1), (2691739333, .negSucc 0), (2935628209, .ofNat 1), (12361274381, .ofNat 1), (353822620817, .ofNat 1), (360803536069, .ofNat 1), (409756312423, .negSucc 0), (417840798611, .negSucc 0), (1158662825851, .negSucc 0), (1263645121423, .ofNat 1)] 0))) (.node (.leaf (.adef 38677 [(9547313, .negSucc 0), (129415051, .negSucc 0), (229463753, .negSucc 0)] 0)) .nil)) (.node (.node (.leaf (.adef 5023 [(374803807, .ofNat 1), (446348825443266347, .negSucc 0)] 0)) .nil) (.node (.leaf (.adef 32783 [(56717279, .negSucc 3), (4951135099, .negSucc 1), (6914046991, .negSucc 1), (15546551309, .negSucc 1), (19792632311, .negSucc 1), (476626426817, .ofNat 4), (709292619991, .ofNat 1), (986307948991, .negSucc 0)] 1)) .nil))) (.node (.node (.node (.leaf (.atom 3109)) .nil) (.node (.leaf (.adef 8861 [(4326089, .ofNat 1), (4327949, .ofNat 1), (5573167, .ofNat 1), (1057118509, .ofNat 1), (1082269043, .ofNat 1)] 0)) .nil)) (.node (.node (.leaf (.adef 13577 [(36997, .ofNat 1), (7796357, .ofNat 1), (9900551, .ofNat 1), (11506037, .ofNat 1), (14340691, .ofNat 1), (17248867, .ofNat 1), (19510021, .negSucc 0), (19743463, .negSucc 0), (21661907, .ofNat 1), (25691531, .ofNat 1), (43744109, .ofNat 1)] 0)) .nil) (.node (.leaf (.adef 12503 [(5059667113, .ofNat 1), (5458752623, .ofNat 1), (1107549438113, .ofNat 2)] 0)) .nil))))

def jac16 : JTree := .node (.node (.node (.node (.node (.leaf (.atom 479)) (.leaf (.adef 27059 [(4523820263, .ofNat 2), (4617854047, .ofNat 2), (9085844737, .ofNat 1), (11936237809, .ofNat 1), (12049714951, .ofNat 1), (744822796811, .ofNat 1), (1557652889831, .ofNat 1), (2197331117437, .ofNat 1), (402352796633057, .ofNat 2)] 0))) (.node (.leaf (.adef 8467 [(927209161, .ofNat 1), (1483476481, .ofNat 2), (2874880133, .negSucc 1)] 0)) .nil)) (.node (.node (.leaf (.atom 49019)) .nil) (.node (.leaf (.adef 40151 [(23507009173, .negSucc 0), (43505084279, .ofNat 1)] 0)) .nil))) (.node (.node (.node (.leaf (.atom 12071)) (.leaf (.adef 21821 [(4060961, .negSucc 0), (9704549, .ofNat 1), (1207919749, .negSucc 0), (2943447821, .negSucc 0)] 0))) (.node (.leaf (.adef 13759 [(7490993, .negSucc 0), (12449477, .negSucc 0), (14593043, .negSucc 0), (19416877, .negSucc 0), (19612643, .ofNat 1), (21210523, .ofNat 1), (23246941, .negSucc 0), (27800429, .negSucc 0), (44005931, .negSucc 0)] 0)) .nil)) (.node (.node (.leaf (.adef 29599 [(3363799, .negSucc 0), (3467663, .ofNat 1)] 0)) .nil) (.node (.leaf (.adef 32909 [(125589, .ofNat 8), (507147021, .negSucc 3), (687543201, .negSucc 3), (744326361, .negSucc 3), (1363776248691, .ofNat 6)] 1)) .nil)))) (.node (.node (.node (.node (.leaf (.atom 5419)) (.leaf (.adef 44501 [(33830017873, .negSucc 0), (56739048991, .negSucc 0), (1801608119387, .ofNat 1), (2009708976601, .negSucc 0), (3534664298911, .negSucc 0), (3959884662893, .ofNat 1)] 0))) (.node (.leaf (.adef 37561 [(8484787, .ofNat 1), (13410799, .negSucc 0), (17180809, .ofNat 1), (28355989, .negSucc 0), (34856813, .ofNat 1), (18811409879, .ofNat 1), (23216427701, .ofNat 1), (264656245393, .negSucc 0), (2153824907477, .ofNat 1), (8470709446993, .negSucc 0), (1361212430254319, .negSucc 0), (1867940148380003, .ofNat 1)] 0)) .nil)) (.node (.node (.leaf (.adef 17389 [(384793, .ofNat 4), (777748973, .ofNat 2)] 1)) .nil) (.node (.leaf (.adef 14051 [(32435415751, .negSucc 0), (35506405637, .ofNat 1), (36212346641, .ofNat 1), (40215278189, .negSucc 0), (174548931187, .ofNat 1), (5212254224633, .negSucc 0), (5454058203859, .negSucc 0), (5562496195687, .negSucc 0), (6462450034387, .negSucc 0), (7152578622821, .ofNat 1), (7484397044983, .ofNat 1), (7633202385019, .ofNat 1), (8868174876919, .ofNat 1), (28049383148621, .ofNat 1), (38491103780777, .negSucc 0), (2573939567105513, .negSucc 0), (3176672150084747, .negSucc 0), (3353138484038921, .negSucc 0), (3630046747938889, .negSucc 0), (3763996812438479, .negSucc 0), (4138334005099499, .negSucc 0), (4619160303235589, .negSucc 0), (5930720384235421, .ofNat 1), (557603223722439023, .ofNat 1), (578178988435444153, .ofNat 1), (709538707025555923, .ofNat 1), (765177738101217251, .negSucc 0), (793413078990561061, .negSucc 0), (953045356814798243, .ofNat 1), (973673034586562551, .negSucc 0), (1307827966931584391, .negSucc 0)] 0)) .nil))) (.node (.node (.node (.leaf (.atom 12973)) (.leaf (.adef 34883 [(19805333, .ofNat 1), (21128579, .negSucc 0), (21904969, .ofNat 1), (22033909, .negSucc 0)] 0))) (.node (.leaf (.adef 39229 [(22047, .ofNat 4), (67020507, .negSucc 1), (75937149, .negSucc 1), (117852417, .negSucc 1), (147614409, .negSucc 0), (239705019, .negSucc 0), (243734787, .negSucc 0), (1260832257, .ofNat 2), (132884063271, .ofNat 3), (265543757757, .ofNat 2), (308437271631, .ofNat 2), (350868171987, .ofNat 2), (359695032777, .ofNat 1), (416056156317, .ofNat 1), (526503529837521, .negSucc 3)] 0)) .nil)) (.node (.node (.leaf (.adef 8389 [(768679, .ofNat 1), (1253041, .ofNat 1)] 0)) .nil) (.node (.leaf (.adef 33289 [(42667, .ofNat 1), (2992673, .negSucc 0), (1286442413, .negSucc 0), (1576906333, .ofNat 1), (2345855263, .negSucc 0), (2888694923, .ofNat 1), (5349015857, .ofNat 1), (5531539133, .ofNat 1), (7839181447, .ofNat 1), (637248699943, .ofNat 1), (655988376607, .ofNat 1), (1068686800003, .ofNat 1)] 0)) .nil))))

def jac17 : JTree := .node (.node (.node (.node (.node (.leaf (.atom 1453)) (.leaf (.adef 21379 [(128316817, .negSucc 0), (128532251, .ofNat 1), (53927241941, .negSucc 0), (148663261763, .ofNat 1)] 0))) (.node (.leaf (.adef 13679 [(358664557, .ofNat 1), (4436008573, .ofNat 1)] 0)) .nil)) (.node (.node (.leaf (.adef 35507 [(691724123, .negSucc 3), (3447656501, .ofNat 2), (149771020543, .negSucc 3), (493598766119, .negSucc 1), (686374527119, .ofNat 2)] 1)) (.leaf (.trans [(38651, .negSucc 0)] 0))) (.node (.leaf (.adef 40961 [(1490389, .negSucc 0), (1832749, .ofNat 1)] 0)) .nil))) (.node (.node (.node .nil (.leaf (.adef 45887 [(12210623, .negSucc 0), (12214859, .ofNat 1), (27666851, .ofNat 1), (38299967, .negSucc 0), (1874307109, .ofNat 1), (1874967239, .ofNat 1), (1914231169, .ofNat 1), (1916661853, .ofNat 1), (2721781373, .negSucc 0), (2722739983, .negSucc 0), (2790617281, .ofNat 1), (2794160797, .ofNat 1), (8718931027, .negSucc 0), (12661225019, .ofNat 1), (157781235119, .ofNat 1)] 0))) (.node (.leaf (.adef 39043 [(9799291, .negSucc 0), (1553409001, .ofNat 1)] 0)) .nil)) (.node (.node (.leaf (.adef 29803 [(7578577, .ofNat 1), (2138527637, .negSucc 0)] 0)) .nil) (.node (.leaf (.adef 20627 [(15014149, .negSucc 0), (16129103, .negSucc 0), (64707667, .ofNat 1), (12926440727, .ofNat 1), (422918766073, .negSucc 0), (432330156299, .negSucc 0)] 0)) .nil)))) (.node (.node (.node (.node (.leaf (.atom 6389)) (.leaf (.adef 9437 [(45127, .negSucc 0), (278701543, .ofNat 1), (409565447, .ofNat 1), (61150775857, .ofNat 1), (65301552983, .ofNat 1), (76014176369, .ofNat 1), (100500686171, .ofNat 1), (182081826403, .ofNat 1), (194846945347, .ofNat 1), (249038929333, .ofNat 1)] 0))) (.node (.leaf (.adef 13721 [(38543, .ofNat 1), (8192399, .ofNat 1), (10363127, .ofNat 1), (11942933, .negSucc 0), (14401333, .negSucc 0), (17340467, .negSucc 0), (19515343, .ofNat 1), (20956303, .negSucc 0), (22887983, .ofNat 1), (27112597, .ofNat 1), (43340221, .negSucc 0)] 0)) .nil)) (.node (.node (.leaf (.adef 29411 [(38070869, .ofNat 4), (46275527, .negSucc 1)] 1)) .nil) (.node (.leaf (.adef 9103 [(1564219, .negSucc 0), (1994803, .ofNat 1), (143871257, .ofNat 1), (220941779, .negSucc 0), (12759586757, .negSucc 0), (18528876829, .ofNat 1), (26596281589, .negSucc 0)] 0)) .nil))) (.node (.node (.node (.leaf (.atom 48907)) (.leaf (.atom 431))) (.node (.leaf (.adef 16057 [(47583337, .ofNat 1), (17703234517, .negSucc 0), (29190229987, .negSucc 0)] 0)) .nil)) (.node (.node (.leaf (.adef 36791 [(5381309, .negSucc 0), (6530593, .ofNat 1), (9501143, .negSucc 0), (10422007, .ofNat 1), (46592421299, .ofNat 1), (57502844681, .ofNat 1), (60612070907, .ofNat 1), (83175644159, .negSucc 0), (148116133391, .negSucc 0), (182800094429, .negSucc 0), (192684246263, .negSucc 0), (264413277131, .ofNat 1)] 0)) .nil) (.node (.leaf (.adef 43573 [(43543, .ofNat 1), (10611413, .negSucc 0), (17237911, .ofNat 1), (22972541, .negSucc 0), (30186073, .ofNat 1), (30595093, .ofNat 1), (33056351, .negSucc 0), (39321301, .negSucc 0), (69395503, .ofNat 1)] 0)) .nil))))

def jac18 : JTree := .node (.node jac16 (.node (.node (.node (.node (.node (.leaf (.atom 2621)) (.leaf (.adef 11927 [(14717, .ofNat 1), (5042951, .ofNat 1), (562938263, .negSucc 0), (1038300877, .negSucc 0)] 0))) (.node (.leaf (.mult 7001 2181 (.negSucc 0) 0)) .nil)) (.node (.node (.leaf (.adef 4027 [(48465841, .ofNat 1), (53279441, .negSucc 0), (703723931, .ofNat 1), (721709713, .negSucc 0)] 0)) (.leaf (.trans [(1031, .ofNat 1)] 0))) (.node (.leaf (.adef 40627 [(56431663, .negSucc 3), (4817323843, .ofNat 2), (419876542661, .negSucc 3), (698083810169, .negSucc 1), (970721521169, .ofNat 2)] 1)) .nil))) (.node (.node (.node (.leaf (.atom 8111)) (.leaf (.adef 45589 [(761211949, .negSucc 0), (3657707216461, .ofNat 1)] 0))) (.node (.leaf (.adef 4759 [(662209, .negSucc 0), (9930910631, .ofNat 1), (10411369919, .ofNat 1), (17608338493, .ofNat 1), (18460233157, .ofNat 1)] 0)) .nil)) (.node (.node (.leaf (.adef 23593 [(33472587736559, .negSucc 0), (33592237825151, .ofNat 1), (2059329368799539, .negSucc 0), (2990462069933083, .ofNat 1)] 0)) .nil) (.node (.leaf (.adef 9133 [(8902171, .ofNat 1), (11776021, .ofNat 1), (11846689, .negSucc 0), (17708309, .negSucc 0)] 0)) .nil)))) (.node (.node (.node (.node (.leaf (.atom 28549)) (.leaf (.adef 21577 [(132848004001, .ofNat 1)] 0))) (.node (.leaf (.adef 38177 [(38167, .ofNat 1), (10692691, .ofNat 1), (12748913, .ofNat 1), (18699517, .negSucc 0), (20450953, .negSucc 0), (22220563, .ofNat 1), (22432513, .negSucc 0), (26200327, .negSucc 0), (30134789, .ofNat 1)] 0)) .nil)) (.node (.node (.leaf (.adef 15383 [(129133, .ofNat 1), (316721, .ofNat 1)] 0)) .nil) (.node (.leaf (.adef 41443 [(17206781, .ofNat 1), (26614993, .ofNat 1), (33193631, .ofNat 1)] 0)) .nil))) (.node (.node (.node (.leaf (.atom 48799)) (.leaf (.adef 47279 [(48227321, .negSucc 0), (50271073, .ofNat 1), (50691653, .negSucc 0), (108886081, .negSucc 0), (109299041, .ofNat 1), (109865309, .negSucc 0)] 0))) (.node (.leaf (.adef 31849 [(23552482843, .ofNat 1), (24691956307, .ofNat 1)] 0)) .nil)) (.node (.node (.leaf (.adef 30137 [(133015887, .ofNat 2), (146717577, .ofNat 1), (270937837251, .negSucc 1)] 0)) .nil) (.node (.leaf (.adef 20873 [(311735179, .ofNat 1), (14394188389, .negSucc 0), (264144282127137251, .negSucc 0)] 0)) .nil)))))) (.node (.node (.node (.node (.node (.node (.leaf (.atom 9923)) (.leaf (.adef 21089 [(21067, .ofNat 1), (6384073, .ofNat 1), (6910567, .ofNat 1), (16172323, .negSucc 0), (33289933, .ofNat 2)] 0))) (.node (.leaf (.adef 18251 [(18803723, .ofNat 1), (26265121, .negSucc 0), (68661007, .negSucc 0), (1896266741, .ofNat 1), (43776142233419, .negSucc 0), (63569672195443, .ofNat 1)] 0)) .nil)) (.node (.node (.leaf (.adef 28901 [(49661847, .ofNat 2), (61524369, .negSucc 0), (90042881067, .negSucc 1)] 0)) .nil) (.node (.leaf (.adef 32083 [(53300063, .negSucc 0), (95829743, .negSucc 0), (140210051, .negSucc 0), (13553349119, .negSucc 0)] 0)) .nil))) (.node (.node (.node (.leaf (.atom 1889)) (.leaf (.adef 11971 [(1327430347, .ofNat 1), (3413088293, .ofNat 1)] 0))) (.node (.leaf (.adef 31231 [(2020349, .ofNat 1), (4687973, .negSucc 0), (56915566997, .ofNat 1), (63489792631, .negSucc 0)] 0)) .nil)) (.node (.node (.leaf (.adef 29671 [(100180403, .ofNat 1), (101500621, .negSucc 0), (125064217, .ofNat 1), (140980327, .ofNat 1), (146578153, .negSucc 0), (146961653, .ofNat 1)] 0)) .nil) (.node (.leaf (.adef 42169 [(5095301, .ofNat 1), (5809537, .negSucc 0), (7507631, .ofNat 1), (10006967, .negSucc 0)] 0)) .nil)))) (.node (.node (.node (.node (.leaf (.atom 47951)) (.leaf (.adef 16649 [(38797139, .ofNat 4), (56969071, .ofNat 4), (5302745527, .negSucc 1), (738764432689, .negSucc 1), (1027290023689, .ofNat 2)] 1))) (.node (.leaf (.adef 37811 [(114900777, .ofNat 2), (144463401, .ofNat 1), (228997863, .ofNat 1), (236207781, .ofNat 1), (259576367553, .negSucc 1), (283567424157, .negSucc 1), (342630121419, .negSucc 1), (354447169623, .negSucc 0), (415200573243, .negSucc 0), (514141728313977, .ofNat 4)] 0)) .nil)) (.node (.node (.leaf (.adef 35521 [(106692727, .ofNat 4), (653256979, .ofNat 2)] 1)) (.leaf (.trans [(47497, .negSucc 0)] 0))) (.node (.leaf (.adef 32569 [(23238943181, .ofNat 1), (24835670143, .ofNat 1)] 0)) .nil))) (.node (.node (.node (.leaf (.atom 10103)) (.leaf (.adef 46633 [(22819157, .negSucc 0), (24305557, .negSucc 0), (24497531, .ofNat 1), (25183621, .ofNat 1), (25555109, .negSucc 0), (31428113, .negSucc 0)] 0))) (.node (.leaf (.adef 13859 [(39551, .ofNat 1), (7629943, .negSucc 0), (12405139, .negSucc 0), (14519023, .negSucc 0), (19523201, .ofNat 1), (21878891, .ofNat 1), (23897603, .negSucc 0), (28391771, .negSucc 0), (43473467, .negSucc 0)] 0)) .nil)) (.node (.node (.leaf (.adef 36299 [(8287009, .ofNat 1), (13066189, .negSucc 0), (16739179, .ofNat 1), (27938851, .negSucc 0), (34357637, .ofNat 1), (254720093, .ofNat 1), (14934818147, .ofNat 1), (18432064793, .ofNat 1), (210116781349, .negSucc 0), (6725094290149, .negSucc 0), (1080698375935067, .negSucc 0), (1483001359546079, .ofNat 1)] 0)) .nil) (.node (.leaf (.adef 33349 [(6887981, .negSucc 0), (7185991, .negSucc 0)] 0)) .nil))))) jac17)

def jac19 : JTree := .node (.node (.node (.node (.node (.leaf (.atom 457)) (.leaf (.adef 2683 [(611309, .negSucc 0), (347440487, .negSucc 0), (431170871, .ofNat 1)] 0))) (.node (.leaf (.adef 18131 [(5398009, .negSucc 0), (8436721, .negSucc 0), (10442339, .negSucc 0), (16812067, .negSucc 0), (27216803, .ofNat 1), (30146639, .ofNat 1)] 0)) .nil)) (.node (.node (.leaf (.adef 28859 [(16220016457, .ofNat 1), (502061459311, .negSucc 0), (560053771253, .ofNat 1)] 0)) .nil) (.node (.leaf (.adef 6301 [(25633, .ofNat 1), (3725429, .negSucc 0), (229190453, .ofNat 1), (413076809, .ofNat 1), (113216377223, .negSucc 0), (115511638601, .negSucc 0), (965421688249, .negSucc 0)] 0)) .nil))) (.node (.node (.node (.leaf (.atom 10529)) (.leaf (.adef 21911 [(1327, .ofNat 1), (502661, .ofNat 1), (516569, .negSucc 0)] 0))) (.node (.leaf (.adef 31181 [(21098711, .negSucc 0), (21230137, .ofNat 1), (22191149, .ofNat 1), (22228001, .negSucc 0)] 0)) .nil)) (.node (.node (.leaf (.adef 3187 [(285243287, .negSucc 0), (291923653, .negSucc 0), (442264735031, .ofNat 1)] 0)) .nil) (.node (.leaf (.adef 26437 [(5145277, .negSucc 0), (6454771, .negSucc 0), (7788337, .negSucc 0), (10478827, .ofNat 1)] 0)) .nil)))) (.node (.node (.node (.node (.leaf (.atom 1879)) (.leaf (.adef 44621 [(9417169, .ofNat 1), (15070397, .negSucc 0), (15086807, .negSucc 0), (19304839, .ofNat 1), (19306241, .ofNat 1), (641857301, .ofNat 1), (148379929909, .negSucc 0), (152264558519, .ofNat 1)] 0))) (.node (.leaf (.adef 30697 [(6622751, .negSucc 0), (6908543, .negSucc 0)] 0)) .nil)) (.node (.node (.leaf (.adef 5519 [(1274789, .ofNat 1), (1354783, .negSucc 1)] 0)) (.leaf (.trans [] 0))) (.node (.leaf (.adef 25981 [(974391947, .ofNat 1), (1000242301, .ofNat 1), (1089092903, .negSucc 0), (1117599671, .ofNat 1), (1397744951, .ofNat 1), (1531874191, .ofNat 1), (2390725003, .ofNat 1), (2398328939, .ofNat 1), (2729307677, .ofNat 1), (2878642667, .ofNat 1), (2890897099, .ofNat 1), (3041988949, .ofNat 1), (3381781591, .ofNat 1), (4024945819, .ofNat 1), (8457872503, .ofNat 1), (27891049271, .ofNat 1), (28080350359, .ofNat 1), (30531777877, .negSucc 0), (31138812961, .negSucc 0), (33265198781, .negSucc 0), (34198202147, .negSucc 0), (34580913469, .ofNat 1), (35882788717, .ofNat 1), (36387754547, .ofNat 1), (41204988217, .ofNat 1), (42360682279, .ofNat 1), (46498497761, .ofNat 1), (68407618627, .ofNat 1), (84815666753, .ofNat 1), (87047296727, .ofNat 1), (109971957961, .negSucc 0), (123811604171, .ofNat 1), (143263349737, .negSucc 0), (148749815213, .ofNat 1), (150093739427, .negSucc 0), (150189957977, .ofNat 1), (162402112819, .ofNat 1), (192756560929, .ofNat 1), (194622761341, .ofNat 1), (663318234973, .ofNat 1), (805458157643, .ofNat 1), (11244169715173, .ofNat 1), (11659083726803, .ofNat 1), (13927945648961, .negSucc 0), (14307976177073, .ofNat 1), (14441891982871, .negSucc 0), (17723026207261, .negSucc 0), (19119316005199, .ofNat 1), (23069280362059, .ofNat 1), (24328938894899, .ofNat 1), (24431831079637, .ofNat 1), (30052955698603, .ofNat 1), (36688614044833, .negSucc 0), (37608496447931, .ofNat 1), (49222693641041, .ofNat 1), (3121458762238169, .ofNat 1), (3236641742394559, .ofNat 1), (3971992484918869, .ofNat 1), (5099796337407341, .negSucc 0)] 0)) .nil))) (.node (.node (.node (.leaf (.atom 6661)) (.leaf (.adef 35069 [(20718613, .ofNat 1), (21966229, .negSucc 0), (23733739, .ofNat 1), (23845711, .negSucc 0)] 0))) (.node (.leaf (.adef 25343 [(39409, .ofNat 1), (11025827, .ofNat 1), (12795317, .negSucc 0), (13063163, .ofNat 1), (17269981, .ofNat 1), (17769229, .negSucc 0), (18773107, .negSucc 0), (19522429, .ofNat 1), (26293427, .negSucc 0), (68415359, .negSucc 0), (1512380317739, .ofNat 1)] 0)) .nil)) (.node (.node (.leaf (.adef 4483 [(2959039, .negSucc 0), (4705517, .ofNat 1), (363727003, .ofNat 1), (2469365891, .ofNat 1), (194301824797, .negSucc 0), (248665560109, .negSucc 0), (690526541699, .negSucc 0)] 0)) .nil) (.node (.leaf (.adef 20773 [(83096441, .ofNat 1), (88805923, .ofNat 1)] 0)) .nil))))

def jac20 : JTree := .node (.node (.node (.node (.node (.leaf (.atom 1657)) (.leaf (.adef 9887 [(22291, .ofNat 1), (4161089, .ofNat 1), (7363687, .ofNat 1), (7408223, .ofNat 1), (9837361, .ofNat 1), (356817451, .ofNat 1), (743566903, .negSucc 0)] 0))) (.node (.leaf (.adef 24359 [(5712137, .ofNat 1), (6066899, .ofNat 1), (449941871, .negSucc 0), (491109119, .ofNat 1), (775233743, .ofNat 1), (785339537, .negSucc 0)] 0)) .nil)) (.node (.node (.leaf (.adef 6473 [(1340881, .ofNat 1), (32991779101, .ofNat 2), (47909122997, .negSucc 1), (1387646136413, .negSucc 1), (1922084215789, .negSucc 1), (2015075004661, .ofNat 2), (2791161059333, .ofNat 2)] 0)) (.leaf (.trans [] 0))) (.node (.leaf (.adef 19867 [(40277, .ofNat 1), (77560517, .ofNat 1), (77844089, .ofNat 1), (78033869, .negSucc 0), (86447237, .ofNat 1), (86618639, .negSucc 0), (87911701, .ofNat 1), (101458991, .ofNat 1), (107802533, .ofNat 1), (115315961, .ofNat 1), (117705041, .ofNat 1)] 0)) .nil))) (.node (.node (.node (.leaf (.adef 16993 [(2467, .ofNat 1), (895403, .ofNat 1), (897961, .ofNat 1)] 0)) (.leaf (.adef 34651 [(149321331, .ofNat 2), (168705981, .ofNat 1), (274144482747, .negSucc 1)] 0))) (.node (.leaf (.adef 13831 [(25097, .ofNat 1), (11962949, .negSucc 0), (1275677951, .ofNat 1), (1525324573, .ofNat 1), (1560716459, .negSucc 0), (2141482747, .negSucc 0), (2584976341, .negSucc 0), (2622799847, .ofNat 1), (2657156809, .ofNat 1), (2864420641, .ofNat 1), (3430730357, .negSucc 0), (3479002697, .negSucc 0), (4470401189, .negSucc 0), (7435967447, .ofNat 1), (489256217371, .ofNat 2), (688655763127, .negSucc 0)] 0)) .nil)) (.node (.node (.leaf (.adef 35983 [(18019009, .negSucc 0), (26144639, .ofNat 1)] 0)) .nil) (.node (.leaf (.adef 33151 [(20336177, .ofNat 1), (21986207, .negSucc 0), (23286251, .negSucc 0), (23363309, .ofNat 1)] 0)) .nil)))) (.node (.node (.node (.node (.leaf (.atom 48337)) (.leaf (.adef 12583 [(918397217449, .ofNat 1)] 0))) (.node (.leaf (.adef 38321 [(76393153, .ofNat 1), (57907826969, .ofNat 1)] 0)) .nil)) (.node (.node (.leaf (.adef 17573 [(1853783, .ofNat 1), (8447321, .ofNat 1), (362543659, .ofNat 1)] 0)) .nil) (.node (.leaf (.adef 9067 [(3307771, .ofNat 1), (4209071, .ofNat 1), (526696133, .negSucc 0), (775620947, .negSucc 0), (778539071, .negSucc 0), (1144100959, .negSucc 0), (1242831229, .negSucc 0), (1259126629, .negSucc 0), (1267215073, .ofNat 1), (1637367553, .negSucc 0), (1934435959, .negSucc 0), (2065741121, .negSucc 0), (2404622903, .negSucc 0), (2900263711, .negSucc 0), (3103591039, .negSucc 0), (3179226077, .negSucc 0), (3966780121, .negSucc 0), (157350027971, .negSucc 0), (171676185697, .negSucc 0), (44567012736481, .negSucc 0)] 0)) .nil))) (.node (.node (.node (.leaf (.atom 6199)) (.leaf (.atom 49043))) (.node (.leaf (.adef 13901 [(7726811, .negSucc 0), (10971421, .negSucc 0), (14695561, .ofNat 1), (17111621, .negSucc 0), (19707371, .negSucc 0), (21955663, .ofNat 1), (24068309, .negSucc 0), (28638899, .negSucc 0), (44109073, .ofNat 1)] 0)) .nil)) (.node (.node (.leaf (.adef 24049 [(1472281, .ofNat 1), (280782907, .ofNat 1), (308670107, .negSucc 0)] 0)) .nil) (.node (.leaf (.adef 43321 [(43319, .ofNat 1), (11739943, .ofNat 1), (13874347, .ofNat 1), (18405133, .ofNat 1), (22813757, .ofNat 1), (26742913, .negSucc 0), (30644417, .ofNat 1)] 0)) .nil))))

def jac21 : JTree := .node (.node (.node (.node .nil (.leaf (.adef 27179 [(3139079, .negSucc 0), (11670473, .ofNat 1), (12811609, .negSucc 0)] 0))) (.node (.leaf (.adef 5081 [(866753, .negSucc 0), (30745241, .ofNat 1), (33798841, .negSucc 0), (7488157343, .ofNat 1)] 0)) .nil)) (.node (.node (.leaf (.adef 17203 [(431537, .negSucc 0), (546037, .negSucc 0)] 0)) (.leaf (.trans [(1151, .ofNat 1)] 0))) (.node (.leaf (.adef 32159 [(5444039, .negSucc 0), (6759997, .ofNat 2)] 0)) .nil))) (.node (.node (.node (.leaf (.atom 10613)) (.leaf (.adef 34501 [(12485567, .ofNat 1), (14471273, .ofNat 1), (22914953, .ofNat 1), (27026939, .ofNat 1), (28134163, .ofNat 1), (28583911, .ofNat 1), (29387011, .ofNat 1), (36508757, .ofNat 1), (51125099, .negSucc 0), (59122061, .ofNat 1), (59838137, .ofNat 1), (609818563, .ofNat 1), (632321093, .ofNat 1), (1356654997, .negSucc 0), (1406716067, .negSucc 0), (1933051651, .ofNat 1), (2022020701, .ofNat 1), (2078166481, .ofNat 1), (2086564657, .ofNat 1), (2125041251, .negSucc 0), (2222018159, .negSucc 0), (2293286803, .negSucc 0), (2375519807, .negSucc 0), (2456737763, .negSucc 0), (2549161469, .negSucc 0), (2592867023, .ofNat 1), (2658970087, .ofNat 1), (3791459237, .ofNat 1), (4023805561, .negSucc 0), (4155748621, .negSucc 0), (4638482231, .ofNat 1), (6750647621, .negSucc 0), (7645175177, .ofNat 1), (7958477083, .ofNat 1), (8359544867, .ofNat 1), (8632275959, .ofNat 1), (8815883941, .ofNat 1), (8896029719, .ofNat 1), (9242249833, .negSucc 0), (9871183939, .ofNat 1), (10478208641, .ofNat 1), (11641194923, .ofNat 1), (14636053043, .ofNat 1), (16098544309, .ofNat 1), (18077681449, .ofNat 1), (18127020553, .ofNat 1), (20061380203, .ofNat 1), (37750308179, .negSucc 0), (44214066271, .ofNat 1), (49502458589, .ofNat 1), (270283758653, .ofNat 1), (278665527409, .ofNat 1), (290036979389, .ofNat 1), (298620399403, .ofNat 1), (306065576983, .ofNat 1), (314649930121, .ofNat 1), (339285723911, .ofNat 1), (345385113839, .ofNat 1), (352250862709, .ofNat 1), (353758653977, .negSucc 0), (363680675399, .negSucc 0), (381595406089, .ofNat 1), (622771260149, .ofNat 1), (684624550549, .negSucc 0), (1023686688599, .negSucc 0), (1117348484711, .ofNat 1), (1399735928917, .ofNat 1), (1538756912117, .negSucc 0), (1912041133007, .ofNat 1), (2101943980207, .negSucc 0), (3195672274243, .negSucc 0), (4190960283989, .negSucc 0), (294812136699667, .ofNat 1), (324092711882867, .negSucc 0), (386630996583941, .ofNat 1), (425030969157541, .negSucc 0)] 0))) (.node (.leaf (.adef 15901 [(640147, .negSucc 0), (2079767, .ofNat 1), (3111359, .negSucc 0), (4757279, .ofNat 1), (69235667, .negSucc 0), (160953703, .ofNat 1), (195269717, .negSucc 0), (200196487, .negSucc 0), (676604671, .negSucc 0), (833657093, .ofNat 1), (940853671, .ofNat 1), (1215327557, .ofNat 1), (7042724723, .ofNat 1), (81022441823, .ofNat 1), (181928814283, .ofNat 1)] 0)) .nil)) (.node (.node (.leaf (.adef 11083 [(294403207, .ofNat 1), (337853467, .negSucc 0), (344722273, .ofNat 1), (352149539, .ofNat 1), (353268503, .ofNat 1), (353550589, .negSucc 0), (377422367, .ofNat 1), (508440107, .negSucc 0), (16418891909, .ofNat 1), (118224237649, .negSucc 0), (542215807231, .negSucc 0), (544996341533, .ofNat 1), (554885836799, .negSucc 0), (759222997463, .negSucc 0), (995500532747, .ofNat 1)] 0)) .nil) (.node (.leaf (.adef 33053 [(1833107, .ofNat 1), (2820067, .ofNat 1), (337403071, .negSucc 0), (463005427, .ofNat 1)] 0)) .nil)))

def jac22 : JTree := .node (.node (.node (.node (.leaf (.atom 12653)) (.leaf (.adef 44909 [(27862271, .ofNat 4), (38114147, .negSucc 3), (606513123617, .ofNat 2), (125742762776627, .ofNat 2), (183311155124723, .ofNat 2)] 1))) (.node (.leaf (.adef 18617 [(289124339, .ofNat 1), (364245889, .ofNat 1), (372502123, .ofNat 1), (464575363, .ofNat 1), (499331917, .negSucc 0), (573045599, .negSucc 0), (92495854577, .negSucc 0), (99687782299, .negSucc 0), (111474765899, .negSucc 0), (111885847241, .ofNat 1), (119387656129, .ofNat 1), (176373785987, .ofNat 1), (544807677421, .negSucc 0), (764221907393, .negSucc 0), (991337413171, .ofNat 1), (152784446870027, .ofNat 1), (184812793627091, .negSucc 0)] 0)) .nil)) (.node (.node (.leaf (.adef 6563 [(10561867, .negSucc 1), (3479685791, .ofNat 1), (498142878209, .ofNat 1), (692693349209, .negSucc 0)] 1)) .nil) (.node (.leaf (.adef 16223 [(2097313, .ofNat 1), (3149053, .negSucc 0), (4768111, .ofNat 1), (5668459, .negSucc 0), (27743587, .ofNat 1), (132622891, .negSucc 0), (7359425471, .ofNat 1), (4663944310687, .ofNat 1), (4889586796663, .ofNat 1)] 0)) .nil))) (.node (.node (.node (.leaf (.atom 13093)) (.leaf (.adef 46861 [(894993931, .ofNat 1), (955512883, .ofNat 1), (1002555853, .negSucc 0), (1343850911, .negSucc 0)] 0))) (.node (.leaf (.adef 19417 [(116639681, .negSucc 0), (182183707, .ofNat 1), (225904501, .ofNat 1), (5851523261, .ofNat 1), (5916630613, .ofNat 1), (8634739187, .ofNat 1), (8730814171, .ofNat 1), (9370530233, .negSucc 0), (10823467219, .ofNat 1), (10947752689, .ofNat 1), (15412376869, .negSucc 0), (15583863677, .negSucc 0), (16115940053, .ofNat 1), (17016201043, .ofNat 1), (20542828783, .ofNat 1), (25098991129, .ofNat 1), (32973710507, .ofNat 1), (44860935839, .negSucc 0), (52384515721, .ofNat 1), (81035253781, .ofNat 1), (81982272751, .ofNat 1), (85889417981, .ofNat 1), (92874603403, .negSucc 0), (109840429703, .ofNat 1), (141333909281, .negSucc 0), (173202901141, .ofNat 1), (187475191961, .ofNat 1), (854777522387, .negSucc 0), (864288259771, .negSucc 0), (872986122611, .negSucc 0), (882699459163, .negSucc 0), (1437259988663, .negSucc 0), (1454262677459, .negSucc 0), (1540505751371, .ofNat 1), (1558727338697, .ofNat 1), (3025861796413, .negSucc 0), (3328855630781, .negSucc 0), (3398826833513, .negSucc 0), (4150643190653, .ofNat 1), (4199738305871, .ofNat 1), (4883065924703, .ofNat 1), (15800761484693, .ofNat 1), (23515933594213, .ofNat 1), (25851522859013, .negSucc 0), (229783400027507, .negSucc 0), (232747547307721, .negSucc 0), (310093118180473, .ofNat 1), (314210177790401, .ofNat 1)] 0)) .nil)) (.node (.node (.leaf (.adef 24007 [(3316845167, .ofNat 4), (3371110313, .negSucc 3), (3525094061, .negSucc 3), (3593045051, .negSucc 3), (416248339789, .negSucc 3), (435261505633, .negSucc 3), (633704195459, .ofNat 2), (730990547467, .negSucc 1), (62671636106843, .ofNat 4), (67890420147479, .negSucc 3), (68405751894827, .negSucc 3), (74102026453031, .ofNat 4), (103357635253849, .ofNat 2), (105252527493257, .ofNat 2), (112814299941961, .negSucc 1), (114882564574073, .negSucc 1)] 1)) .nil) (.node (.leaf (.adef 16421 [(57027617, .ofNat 2), (5094199261, .negSucc 0), (424794048317, .negSucc 1), (724050164969, .ofNat 1), (1006829075969, .negSucc 0)] 1)) .nil)))

def jac23 : JTree := .node (.node (.node (.node (.node (.leaf (.atom 47701)) (.leaf (.adef 44371 [(15266813, .ofNat 1), (17266807, .negSucc 0), (27643573, .negSucc 0)] 0))) (.node (.leaf (.adef 11261 [(3763547, .negSucc 0), (661761073, .ofNat 1), (664916249, .negSucc 0), (1142405053, .ofNat 1), (1214891071, .negSucc 0), (1324912003, .ofNat 1), (1329728041, .ofNat 1), (1355667647, .negSucc 0), (1381535737, .ofNat 1), (1881602647, .ofNat 1), (2025408587, .ofNat 1), (2337753791, .negSucc 0), (2369305937, .ofNat 1), (2377562849, .negSucc 0), (2733821803, .negSucc 0), (3091933909, .ofNat 1), (100090076101, .negSucc 0), (110287163027, .negSucc 0), (2245088739196937, .negSucc 0), (3260213164500289, .ofNat 1)] 0)) .nil)) (.node (.node (.leaf (.adef 2591 [(86881, .ofNat 1), (22566913, .ofNat 1)] 0)) (.leaf (.trans [(46831, .ofNat 1)] 0))) (.node (.leaf (.adef 32429 [(1359217, .negSucc 0), (2128117, .negSucc 0), (2880961, .negSucc 0)] 0)) .nil))) (.node (.node (.node (.leaf (.atom 28789)) (.leaf (.adef 34759 [(28277411, .ofNat 1), (28279969, .ofNat 1), (59444501, .ofNat 1), (3671265901, .ofNat 1), (6760276883, .negSucc 0), (6762416719, .negSucc 0), (7990302689, .ofNat 1), (8852017081, .ofNat 1), (9911603719, .ofNat 1), (49671605239, .ofNat 1), (623659593827, .ofNat 1), (623857001311, .ofNat 1), (685601113027, .negSucc 0), (685818126911, .negSucc 0), (2012528062057, .negSucc 0), (185662873795033, .ofNat 1), (204102805731833, .negSucc 0)] 0))) (.node (.leaf (.adef 31357 [(7134161, .ofNat 4), (585935687, .ofNat 2), (2475466607, .ofNat 1), (7166870237, .ofNat 2)] 1)) .nil)) (.node (.node (.leaf (.adef 6221 [(341969, .ofNat 1), (594043, .ofNat 1)] 0)) .nil) (.node (.leaf (.adef 26683 [(6419351, .ofNat 1), (6822241, .ofNat 1), (6932501, .ofNat 1), (7395533, .negSucc 0), (125708377, .negSucc 0), (152232527, .negSucc 0), (522417631, .negSucc 0), (558503441, .ofNat 1)] 0)) .nil)))) (.node (.node (.node (.node (.leaf (.atom 16871)) (.leaf (.adef 45247 [(12129433, .ofNat 1), (1841300609, .ofNat 1), (1882632277, .ofNat 1), (2673850873, .negSucc 0), (2744551573, .ofNat 1)] 0))) (.node (.leaf (.adef 10267 [(1444301, .ofNat 1), (2035153, .negSucc 0)] 0)) .nil)) (.node (.node (.leaf (.adef 5009 [(374448221, .ofNat 1), (761403743149, .negSucc 0)] 0)) .nil) (.node (.leaf (.adef 26407 [(3650303099, .ofNat 4), (3710509589, .negSucc 3), (3879996233, .negSucc 3), (3954270647, .negSucc 3), (454720697419, .negSucc 3), (475491182743, .negSucc 3), (478080508271, .negSucc 3), (517891163963, .ofNat 4), (578974090153, .negSucc 3), (605420154541, .negSucc 3), (691210935511, .ofNat 1), (799178105153, .negSucc 0), (1082450256577, .negSucc 1), (1137647933029, .negSucc 1), (1210120380587, .ofNat 2), (1440667367759, .negSucc 1), (1947272831663, .ofNat 2), (2071706610167, .negSucc 1), (2327082828773, .negSucc 1), (2477682217877, .negSucc 1), (72100157737753, .ofNat 4), (78104072361709, .negSucc 3), (78632895218869, .negSucc 3), (85180803078457, .ofNat 4), (118724283347521, .ofNat 1), (121181779038863, .ofNat 1), (129481466134333, .negSucc 0), (132161626722899, .negSucc 0), (162797928037607, .negSucc 1), (182865788542133, .negSucc 1), (24685539326257097, .ofNat 2), (26922207775510181, .negSucc 1), (31409528666374163, .negSucc 1), (34255433746489799, .ofNat 2)] 1)) .nil))) (.node (.node (.node (.leaf (.atom 12113)) (.leaf (.atom 6949))) (.node (.leaf (.adef 10301 [(6034187, .ofNat 1), (6795301, .ofNat 1), (6839353, .ofNat 1), (9076189, .ofNat 1), (548434763, .ofNat 1), (4439195285243, .negSucc 0)] 0)) .nil)) (.node (.node (.leaf (.adef 30341 [(1720813, .ofNat 1), (2747377, .negSucc 0), (2777279, .ofNat 1), (101283719, .ofNat 1), (138987803, .negSucc 0), (326817173, .negSucc 0), (448478801, .ofNat 1)] 0)) .nil) (.node (.leaf (.adef 16481 [(35926771, .ofNat 1), (36533671, .negSucc 0), (36626581, .negSucc 0), (36787559, .ofNat 1)] 0)) .nil))))

def jac24 : JTree := .node (.node (.node (.node (.node (.leaf (.atom 383)) (.leaf (.adef 9323 [(27683387, .ofNat 1), (5286006811, .ofNat 1), (805843431937, .ofNat 2)] 0))) (.node (.leaf (.adef 6997 [(799279681, .negSucc 0), (1104726907, .ofNat 1)] 0)) .nil)) (.node (.node (.leaf (.adef 8269 [(1963879, .negSucc 0), (2025313, .negSucc 0)] 0)) .nil) (.node (.leaf (.adef 25621 [(25609, .ofNat 1), (19529743, .ofNat 1), (1466585447, .ofNat 1), (1608464413, .ofNat 1), (2565839411, .negSucc 0), (2924936503, .ofNat 1), (4555429643, .ofNat 1), (4689391907, .ofNat 1), (4950025189, .negSucc 0), (4998078907, .ofNat 1), (7639603703, .ofNat 1), (8473964509, .negSucc 0)] 0)) .nil))) (.node (.node (.node (.leaf (.atom 2711)) (.leaf (.adef 21859 [(1967531, .negSucc 0), (2682941, .ofNat 1), (2806703, .negSucc 0), (81138647, .negSucc 0), (2733690188219, .negSucc 0), (2865946623731, .negSucc 0)] 0))) (.node (.leaf (.adef 18947 [(38707, .ofNat 1), (10574359, .ofNat 1), (10760483, .negSucc 0), (12740759, .ofNat 1), (14207861, .negSucc 0), (15827401, .ofNat 1), (17182493, .negSucc 0), (18821927, .ofNat 1), (26284919, .negSucc 0), (68728313, .negSucc 0), (1538767925987, .ofNat 1)] 0)) .nil)) (.node (.node (.leaf (.adef 29663 [(70195943, .ofNat 1), (70386191, .negSucc 0)] 0)) .nil) (.node (.leaf (.adef 41957 [(9527767, .ofNat 1), (9558071, .ofNat 1), (27383371, .ofNat 1), (27556033, .ofNat 1), (31022659, .ofNat 1), (31154723, .ofNat 1), (34386043, .ofNat 1), (37338523, .ofNat 1), (1107630907, .ofNat 1), (1119564143, .ofNat 1), (1269380689, .ofNat 1), (1286360849, .ofNat 1), (1519157023, .ofNat 1), (1814567501, .ofNat 1), (1925650189, .ofNat 1), (2082281783, .ofNat 1), (3543216527, .ofNat 1), (3858009007, .ofNat 1), (4046490193, .ofNat 1), (35729938903, .ofNat 1), (37075288051, .ofNat 1), (39265369673, .negSucc 0), (40565819507, .negSucc 0), (41838188069, .ofNat 1), (43920991409, .negSucc 0), (45152862383, .negSucc 0), (47377070113, .ofNat 1), (76196295211, .ofNat 1), (87633850211, .ofNat 1), (91938105751, .ofNat 1), (96958228511, .ofNat 1), (97368285193, .ofNat 1), (102615386953, .ofNat 1), (107842781621, .ofNat 1), (111512283511, .ofNat 1), (119770178167, .ofNat 1), (140489615957, .ofNat 1), (149881308359, .ofNat 1), (153963080639, .ofNat 1), (154293144587, .ofNat 1), (174273083429, .ofNat 1), (196167420149, .ofNat 1), (196398626657, .ofNat 1), (198300088253, .ofNat 1), (229803843673, .ofNat 1), (514882237591, .negSucc 0), (550447543001, .ofNat 1), (12439963504541, .ofNat 1), (12899002748251, .ofNat 1), (14845998207097, .ofNat 1), (15393821019167, .ofNat 1), (15829599336841, .ofNat 1), (18891229326197, .ofNat 1)] 0)) .nil)))) (.node (.node (.node (.node (.leaf (.atom 47903)) (.leaf (.adef 44549 [(9407197, .ofNat 1), (15058363, .negSucc 0), (19296427, .ofNat 1), (90237097, .ofNat 1), (146548455769, .negSucc 0), (4728318760309, .negSucc 0), (4737809928197, .ofNat 1)] 0))) (.node (.leaf (.adef 5749 [(21999, .ofNat 4), (49698711, .negSucc 1), (54292059, .negSucc 1), (65600253, .negSucc 1), (98438010399, .ofNat 3)] 0)) .nil)) (.node (.node (.leaf (.adef 22937 [(24023149, .ofNat 1), (130540759, .negSucc 0), (135678161, .ofNat 1), (140851279, .ofNat 1), (159553081, .negSucc 0), (2855266148093, .negSucc 0)] 0)) (.leaf (.trans [] 0))) (.node (.leaf (.adef 19993 [(19991, .ofNat 1), (6076289, .negSucc 0), (6601669, .ofNat 1), (8568143, .ofNat 1), (10709581, .ofNat 1), (11258213, .negSucc 0), (30511979, .negSucc 0)] 0)) .nil))) (.node (.node (.node (.leaf (.atom 14827)) (.leaf (.adef 46273 [(46486799, .negSucc 0), (49752349, .negSucc 0), (50308879, .ofNat 1), (64693397, .ofNat 1), (65814797, .negSucc 0)] 0))) (.node (.leaf (.adef 31567 [(15297, .ofNat 4), (33749271, .negSucc 1), (63516447, .negSucc 1), (140940801, .negSucc 1), (153602343, .negSucc 0), (249432867, .negSucc 0), (256678677, .negSucc 0), (1232068023, .ofNat 2), (66915940563, .ofNat 3), (276668397063, .ofNat 2), (325031327073, .ofNat 2), (367168470399, .ofNat 2), (372660225687, .ofNat 1), (433200865311, .ofNat 1), (548560767831939, .negSucc 3)] 0)) .nil)) (.node (.node (.leaf (.adef 36107 [(10977793, .ofNat 1), (13964143, .ofNat 1)] 0)) .nil) (.node (.leaf (.adef 9227 [(3369427, .ofNat 1), (4287527, .ofNat 1), (472715563, .negSucc 0), (696128317, .negSucc 0), (784155223, .negSucc 0), (1152354167, .negSucc 0), (1940560499, .negSucc 0), (2072281381, .negSucc 0), (2412236083, .negSucc 0), (2905308379, .negSucc 0), (3108989371, .negSucc 0), (3189291697, .negSucc 0), (3973679869, .negSucc 0)] 0)) .nil))))

def jac25 : JTree := .node (.node (.node (.node (.node (.leaf (.atom 997)) (.leaf (.adef 21193 [(22283, .ofNat 1), (4160251, .negSucc 0), (9442217, .ofNat 1), (1235816279, .ofNat 1), (1652150993, .negSucc 0), (2865188693, .ofNat 1)] 0))) (.node (.leaf (.adef 15737 [(3084091, .negSucc 0), (4739677, .ofNat 1), (146991989, .negSucc 0), (153863251, .ofNat 1), (195698561, .ofNat 1), (292829903, .negSucc 0), (426895247, .negSucc 0), (657523963, .negSucc 0), (673562819, .negSucc 0), (829200839, .ofNat 1), (914320963, .ofNat 1), (936623819, .ofNat 1), (1208831111, .ofNat 1), (15606942581, .negSucc 0)] 0)) .nil)) (.node (.node (.leaf (.adef 17317 [(6072659, .negSucc 0), (6074071, .ofNat 1), (331398673, .negSucc 0), (333981523, .negSucc 0), (384785761, .negSucc 0), (459033569, .negSucc 0), (464418523, .ofNat 1), (991053169, .ofNat 1), (991317221, .ofNat 1), (1010691911, .ofNat 1), (1011637177, .ofNat 1), (1439161193, .negSucc 0), (1439544637, .negSucc 0), (1473413639, .ofNat 1), (1474791673, .ofNat 1)] 0)) (.leaf (.trans [] 0))) (.node (.leaf (.adef 40759 [(11337301, .negSucc 0), (27511157, .negSucc 0), (38027603, .ofNat 1), (1700428867, .ofNat 1), (1700692919, .ofNat 1), (1738006579, .ofNat 1), (1738411693, .ofNat 1), (2469283499, .negSucc 0), (2469666943, .negSucc 0), (2533712371, .ofNat 1), (2534302957, .ofNat 1), (233905056599, .ofNat 1)] 0)) .nil))) (.node (.node (.node (.leaf (.atom 1811)) (.leaf (.adef 28393 [(8019317, .negSucc 0), (9601369, .ofNat 1)] 0))) (.node (.leaf (.adef 25087 [(25073, .ofNat 1), (19229591, .ofNat 1), (2491020751, .ofNat 1), (2732004629, .ofNat 1), (3179965979, .negSucc 0), (3625011967, .ofNat 1), (4524952171, .ofNat 1), (4658018179, .ofNat 1), (4939767841, .negSucc 0), (4987721983, .ofNat 1), (6513572047, .ofNat 1), (6578886451, .negSucc 0), (7588491991, .ofNat 1), (8456404921, .negSucc 0), (642479679463, .negSucc 1), (904326441331, .ofNat 1)] 0)) .nil)) (.node (.node (.leaf (.adef 10151 [(5234897, .negSucc 0), (5774381, .ofNat 1), (84579721, .negSucc 0)] 0)) .nil) (.node (.leaf (.adef 9151 [(42463, .ofNat 1), (8146837, .negSucc 0), (11157233, .ofNat 1), (15119779, .negSucc 0), (20107069, .ofNat 1), (23152403, .ofNat 1), (25369633, .negSucc 0), (30204043, .negSucc 0), (44770211, .ofNat 1)] 0)) .nil)))) (.node (.node (.node (.node (.leaf (.atom 5689)) (.leaf (.adef 21611 [(433127, .negSucc 0), (1498949, .negSucc 0)] 0))) (.node (.leaf (.adef 38261 [(2790791, .negSucc 0), (3686129, .negSucc 0), (4974769, .negSucc 0), (7257631, .ofNat 1), (329867347, .ofNat 1), (452664439, .negSucc 0), (829517849, .ofNat 2), (25368107909, .ofNat 1), (26659641461, .ofNat 1)] 0)) .nil)) (.node (.node (.leaf (.adef 10993 [(6352223, .ofNat 1), (28099171, .ofNat 1)] 0)) .nil) (.node (.leaf (.adef 41491 [(34665493, .ofNat 1), (58623737, .ofNat 1), (61685047, .negSucc 0)] 0)) .nil))) (.node (.node (.node (.leaf (.atom 6121)) (.leaf (.adef 22259 [(459413, .negSucc 0), (523111, .ofNat 1), (8660011, .negSucc 0), (100405339, .ofNat 1), (16706007047, .negSucc 0), (18365238247, .ofNat 1)] 0))) (.node (.leaf (.adef 8803 [(39971, .ofNat 1), (8393521, .ofNat 1), (10436033, .ofNat 1), (12234263, .negSucc 0), (14791697, .negSucc 0), (17453147, .negSucc 0), (19962961, .ofNat 1), (21239299, .negSucc 0), (23289289, .ofNat 1), (27661181, .ofNat 1), (44409581, .negSucc 0)] 0)) .nil)) (.node (.node (.leaf (.adef 36629 [(27185051, .negSucc 0), (1585566247, .ofNat 1), (1585830299, .ofNat 1), (2302485359, .negSucc 0), (2302868803, .negSucc 0)] 0)) .nil) (.node (.leaf (.adef 43237 [(3184061, .ofNat 1), (4160587, .negSucc 0)] 0)) .nil))))

def jac26 : JTree := .node (.node (.node (.node (.node (.leaf (.atom 1999)) (.leaf (.adef 12547 [(7711801, .ofNat 1), (43024307, .negSucc 0), (51239521, .negSucc 0), (2106173063, .ofNat 1), (2401372381, .ofNat 1), (15252267551, .ofNat 1)] 0))) (.node (.leaf (.adef 9769 [(9406829, .negSucc 0), (1490371027, .ofNat 1), (2888241311, .negSucc 0)] 0)) .nil)) (.node (.node (.leaf (.adef 29147 [(1239383, .ofNat 2), (38513249, .negSucc 1), (225716017, .ofNat 2), (329054833, .ofNat 2), (9965819813, .ofNat 2)] 0)) (.leaf (.trans [(46309, .ofNat 1)] 0))) (.node (.leaf (.adef 41077 [(2823739, .negSucc 0), (3211337, .ofNat 1)] 0)) .nil))) (.node (.node (.node (.leaf (.atom 17093)) (.leaf (.adef 22093 [(45979, .ofNat 1), (51781861, .ofNat 1), (51879517, .negSucc 0), (86241461, .ofNat 1), (1236175006969, .ofNat 1)] 0))) (.node (.leaf (.adef 7369 [(3941723, .ofNat 1), (4244173, .negSucc 0), (141986599, .negSucc 0), (164897269, .negSucc 0), (380739641, .ofNat 1), (485129537, .ofNat 1), (555052409, .ofNat 1), (704482489, .negSucc 0), (35941987387, .ofNat 1), (45213880729, .negSucc 0)] 0)) .nil)) (.node (.node (.leaf (.adef 17749 [(2115199, .negSucc 0), (3587539, .ofNat 1), (2758401196451, .negSucc 0), (2891853155099, .negSucc 0)] 0)) .nil) (.node (.leaf (.adef 16369 [(2491121, .ofNat 1), (2985383, .negSucc 0), (2877663223469, .ofNat 1), (3016885100981, .ofNat 1)] 0)) .nil)))) (.node (.node (.node (.node (.leaf (.atom 2153)) (.leaf (.adef 34361 [(33760483, .negSucc 0), (44424697, .ofNat 1)] 0))) (.node (.leaf (.adef 38639 [(12202231, .negSucc 0), (12443033, .ofNat 1), (12947023, .ofNat 1), (13367009, .negSucc 0)] 0)) .nil)) (.node (.node (.leaf (.adef 23117 [(1385977573, .negSucc 0), (2929874009, .ofNat 2)] 0)) .nil) (.node (.leaf (.adef 32713 [(6814727, .negSucc 0), (7119263, .negSucc 0)] 0)) .nil))) (.node (.node (.node (.leaf (.atom 48991)) (.leaf (.atom 281))) (.node (.leaf (.adef 25523 [(27315713, .negSucc 0), (116788409, .ofNat 1), (45308254127, .ofNat 1), (84432596761, .negSucc 0)] 0)) .nil)) (.node (.node (.leaf (.adef 18077 [(110654387, .negSucc 0), (169109839, .ofNat 1), (209622583, .ofNat 1), (5590240099, .ofNat 1), (5652440267, .ofNat 1), (8245607759, .ofNat 1), (8337353047, .ofNat 1), (10043569357, .ofNat 1), (10160830441, .ofNat 1), (14720199883, .negSucc 0), (14883985139, .negSucc 0), (15288960431, .ofNat 1), (15788594797, .ofNat 1), (23291160371, .ofNat 1), (31281684689, .ofNat 1), (41618085529, .negSucc 0), (75209576413, .ofNat 1), (76079400613, .ofNat 1), (160653801439, .ofNat 1), (173917642589, .ofNat 1), (1142396591659, .ofNat 1), (1471010712901, .ofNat 1), (1487476286047, .ofNat 1), (2869271571511, .negSucc 0), (2913128121133, .ofNat 1), (3963400067443, .ofNat 1), (4007763886921, .ofNat 1), (4630364234141, .ofNat 1), (14983062276671, .ofNat 1)] 0)) .nil) (.node (.leaf (.adef 27011 [(3061802881, .ofNat 1), (11037574579, .ofNat 1), (111137056169, .negSucc 0), (118813808359, .ofNat 1), (193376246377, .negSucc 0), (33142229054699, .ofNat 1), (46085977835699, .negSucc 0)] 0)) .nil))))

def jac27 : JTree := .node (.node (.node (.node (.node (.node (.leaf (.trans [(125449, .negSucc 0), (21500363, .ofNat 1), (29897363, .negSucc 0)] 0)) (.leaf (.adef 16547 [(36120793, .negSucc 0), (36619997, .ofNat 1), (36845527, .ofNat 1), (37022803, .negSucc 0)] 0))) (.node (.leaf (.adef 24179 [(9587947, .negSucc 0), (12712253, .negSucc 0), (17145313, .ofNat 1), (17701591, .ofNat 1), (18075313, .negSucc 0), (19399871, .negSucc 0), (68341283, .negSucc 0), (8730468833, .ofNat 2), (1578196934681, .negSucc 0)] 0)) .nil)) (.node (.node (.leaf (.adef 6449 [(545621039, .negSucc 1), (724909877, .negSucc 1), (795420911, .negSucc 1), (3435556547, .negSucc 0), (492084062089, .ofNat 1), (684268253089, .negSucc 0)] 1)) (.leaf (.trans [] 0))) (.node (.leaf (.adef 25741 [(8640011, .negSucc 0), (1106386459, .ofNat 1), (36305077297, .ofNat 1)] 0)) .nil))) (.node (.node (.node (.leaf (.atom 12781)) (.leaf (.adef 45433 [(15785381, .ofNat 1), (18787589, .negSucc 0)] 0))) (.node (.leaf (.mult 7027 2644 (.negSucc 0) 0)) .nil)) (.node (.node (.leaf (.adef 11071 [(378488971, .ofNat 1), (760736663813, .negSucc 0)] 0)) .nil) (.node (.leaf (.adef 33013 [(20224871, .ofNat 1), (21704987, .negSucc 0), (22524497, .negSucc 0), (22705601, .ofNat 1)] 0)) .nil)))) (.node (.node (.node (.node (.leaf (.atom 9539)) (.leaf (.adef 44789 [(16971, .negSucc 1), (117554427, .ofNat 2), (160415379, .ofNat 1), (6364775421, .ofNat 1), (9242630037, .negSucc 0), (264176698563, .negSucc 1)] 0))) (.node (.leaf (.adef 37889 [(10812743, .negSucc 0), (29412359, .ofNat 1), (33378679, .ofNat 1), (36909109, .negSucc 0), (445806293, .negSucc 0), (550199567, .negSucc 0), (839617243, .negSucc 0), (856445561, .negSucc 0), (875154647, .negSucc 0), (1186297033, .negSucc 0), (1216947647, .ofNat 1), (1590499903, .negSucc 0), (1618440721, .ofNat 1), (1654823171, .ofNat 1), (2350224137, .negSucc 0), (2412445379, .ofNat 1), (42153184223, .negSucc 0), (134923460069, .negSucc 0), (185150342753, .ofNat 1)] 0)) .nil)) (.node (.node (.leaf (.adef 29269 [(52986357, .ofNat 2), (62509059, .ofNat 1), (90785196657, .negSucc 1)] 0)) .nil) (.node (.leaf (.mult 7043 3412 (.negSucc 0) 0)) .nil))) (.node (.node (.node (.leaf (.atom 13009)) (.leaf (.adef 35201 [(21692089, .negSucc 0), (22029559, .ofNat 1), (23325899, .ofNat 1), (23614607, .negSucc 0)] 0))) (.node (.leaf (.adef 39659 [(2868317, .ofNat 1), (2969081, .negSucc 0), (5637649, .ofNat 1), (6588077, .negSucc 0), (8889173, .ofNat 1), (9651023, .negSucc 0), (10498003, .negSucc 0), (150140130841, .ofNat 1), (185298045979, .ofNat 1), (195317264113, .ofNat 1), (268026467581, .negSucc 0)] 0)) .nil)) (.node (.node (.leaf (.adef 36319 [(750888973, .ofNat 1), (5374772706829, .negSucc 0)] 0)) .nil) (.node (.leaf (.adef 20807 [(7158001, .ofNat 1), (11854721, .ofNat 1), (25637119, .ofNat 1), (69102533, .ofNat 1), (82768453, .negSucc 0), (103832819, .ofNat 1), (119846387, .ofNat 1), (119948779, .ofNat 1), (162878687, .ofNat 1), (163903799, .ofNat 1), (164750141, .ofNat 1), (297827191, .ofNat 1)] 0)) .nil))))) jac26

def jac28 : JTree := .node (.node (.node (.node (.node .nil (.leaf (.adef 43891 [(8479543, .ofNat 1), (5987153231, .negSucc 0)] 0))) (.node (.leaf (.adef 30389 [(28054577, .ofNat 1), (50588053, .ofNat 1), (3584808181, .negSucc 0), (3927396989, .ofNat 2), (4143021721, .negSucc 0), (4471244893, .negSucc 0), (5293040189, .ofNat 1), (1132971730703, .ofNat 1), (1249626606677, .ofNat 1)] 0)) .nil)) (.node (.node (.leaf (.adef 22699 [(10165334089, .ofNat 1)] 0)) .nil) (.node (.leaf (.adef 25673 [(706622473, .ofNat 1), (732697103, .ofNat 1), (780105749, .ofNat 1), (808891939, .ofNat 1), (1299461531, .ofNat 1), (1347412141, .ofNat 1), (2334741151, .ofNat 1), (2422604689, .ofNat 1), (3058870769, .ofNat 1), (3606286351, .ofNat 1), (4133452927, .ofNat 1), (6020674171, .negSucc 0), (7895076941, .negSucc 0), (8050993019, .ofNat 1), (9375409759, .ofNat 1), (9799343627, .ofNat 1), (321318890573, .negSucc 0), (321963874909, .ofNat 1), (333686355487, .negSucc 0), (334356165071, .ofNat 1), (358291295371, .ofNat 1), (371678805937, .ofNat 1), (375578053667, .ofNat 1), (389611481849, .ofNat 1)] 0)) .nil))) (.node (.node (.node (.leaf (.atom 2459)) (.leaf (.adef 21991 [(132007571, .negSucc 0), (132209941, .ofNat 1), (55470260731, .negSucc 0), (152939236969, .ofNat 1)] 0))) (.node (.leaf (.adef 31189 [(6738421, .ofNat 1), (10847183, .ofNat 1)] 0)) .nil)) (.node (.node (.leaf (.adef 3257 [(14314706399, .ofNat 1), (262685727283806841, .ofNat 1)] 0)) .nil) (.node (.leaf (.adef 42071 [(18202939, .negSucc 0), (26539151, .negSucc 0)] 0)) .nil)))) (.node (.node (.node (.node (.leaf (.atom 12007)) (.leaf (.adef 44647 [(9428803, .ofNat 1), (9433789, .negSucc 0), (15137131, .negSucc 0), (15145883, .negSucc 0), (19380547, .ofNat 1), (19384753, .ofNat 1), (642568763, .ofNat 1), (147036848873, .negSucc 0), (152639209883, .ofNat 1)] 0))) (.node (.leaf (.adef 37693 [(116088723, .negSucc 1), (143985123, .negSucc 0), (228376737, .negSucc 0), (236532267, .ofNat 1), (262260097947, .ofNat 2), (286499195343, .ofNat 2), (346172535081, .ofNat 2), (354934084761, .negSucc 0), (414074397357, .ofNat 1), (519457380875523, .negSucc 3)] 0)) .nil)) (.node (.node (.leaf (.adef 3727 [(370827709, .ofNat 1), (758473843813, .negSucc 0)] 0)) (.leaf (.trans [] 0))) (.node (.leaf (.adef 32533 [(10899739, .ofNat 1), (877528411, .negSucc 0)] 0)) .nil))) (.node (.node (.node (.leaf (.atom 6709)) (.leaf (.adef 35107 [(20595529, .negSucc 0), (20771077, .ofNat 1), (20952031, .ofNat 1), (21369233, .negSucc 0)] 0))) (.node (.leaf (.adef 25367 [(9817, .ofNat 1), (2428039, .negSucc 0), (3434579, .ofNat 1), (3635663, .ofNat 1), (5315111, .negSucc 0), (6402797, .negSucc 0), (7700851, .negSucc 0), (10407869, .ofNat 1), (11514119, .negSucc 0), (12638677, .ofNat 1)] 0)) .nil)) (.node (.node (.leaf (.adef 23857 [(27663463, .negSucc 0), (28269743, .negSucc 0), (93968627, .ofNat 1)] 0)) .nil) (.node (.leaf (.adef 9241 [(1565881, .ofNat 1), (11451869227, .negSucc 0), (16123793557, .negSucc 0), (16629870419, .ofNat 1), (23870454779, .negSucc 0)] 0)) .nil))))

def jac29 : JTree := .node (.leaf (.adef 38953 [(9988289, .ofNat 1), (10000181, .ofNat 1), (10020001, .ofNat 1), (10041803, .ofNat 1), (12509521, .ofNat 1), (13135219, .ofNat 1), (14181641, .ofNat 1), (19227479, .ofNat 1), (19232683, .ofNat 1), (19289927, .ofNat 1), (19295131, .ofNat 1), (22115837, .ofNat 1), (22820201, .ofNat 1), (26108063, .ofNat 1), (27252443, .ofNat 1), (27423509, .ofNat 1), (27439801, .ofNat 1), (28386103, .ofNat 1), (28908923, .ofNat 1), (29069543, .ofNat 1), (29927719, .ofNat 1), (30759739, .ofNat 1), (30890267, .ofNat 1), (30906583, .ofNat 1), (33055247, .ofNat 1), (34427417, .ofNat 1), (34466591, .ofNat 1), (37031993, .ofNat 1), (37370873, .ofNat 1), (37381879, .ofNat 1), (51106901, .ofNat 1), (51649427, .ofNat 1), (51687499, .ofNat 1), (58835981, .negSucc 0), (59088709, .negSucc 0), (59115787, .negSucc 0), (61593589, .ofNat 1), (62608649, .ofNat 1), (81125017, .negSucc 0), (81292019, .negSucc 0), (93391807, .ofNat 1), (93508171, .ofNat 1), (787100801, .ofNat 1), (795791771, .ofNat 1), (816145111, .ofNat 1), (825156781, .ofNat 1), (1723180871, .negSucc 0), (1786766881, .negSucc 0), (2316757591, .ofNat 1), (2400858661, .ofNat 1), (2424089851, .ofNat 1), (2675634197, .negSucc 0), (2818668019, .negSucc 0), (2844334547, .ofNat 1), (2860452667, .ofNat 1), (2887401169, .negSucc 0), (3098541101, .negSucc 0), (3216294247, .negSucc 0), (3216454979, .ofNat 1), (3225626009, .ofNat 1), (4308114607, .ofNat 1), (4769134817, .ofNat 1), (5068393489, .negSucc 0), (5136900647, .ofNat 1), (5197506103, .negSucc 0), (6299051659, .negSucc 0), (7056828017, .ofNat 1), (7574729819, .negSucc 0), (8864285971, .negSucc 0), (9451951021, .ofNat 1), (9487953887, .ofNat 1), (9607106651, .ofNat 1), (10236154939, .ofNat 1), (10473810709, .ofNat 1), (10558167797, .ofNat 1), (10790338831, .ofNat 1), (11204414069, .ofNat 1), (11251401971, .ofNat 1), (11389410727, .ofNat 1), (12067920937, .negSucc 0), (12391931807, .ofNat 1), (12904187983, .ofNat 1), (14346066073, .ofNat 1), (14621159911, .ofNat 1), (15348238799, .ofNat 1), (16240587061, .ofNat 1), (16941722747, .ofNat 1), (19076442599, .ofNat 1), (21037560679, .ofNat 1), (22433894143, .ofNat 1), (25336032047, .ofNat 1), (32170245929, .ofNat 1), (40058610437, .ofNat 1), (45492138689, .ofNat 1), (56618414719, .ofNat 1), (223439797829, .ofNat 1), (225104022023, .negSucc 0), (226046390981, .negSucc 0), (226884052277, .negSucc 0), (230300848511, .ofNat 1), (231406264057, .ofNat 1), (231477581189, .ofNat 1), (235994596127, .negSucc 0), (236982557069, .negSucc 0), (237860744573, .negSucc 0), (241442846039, .ofNat 1), (242601741793, .ofNat 1), (242676509261, .ofNat 1), (281353453321, .ofNat 1), (284322576529, .ofNat 1), (285206378077, .negSucc 0), (336199763443, .ofNat 1), (346292768203, .negSucc 0), (346885007267, .ofNat 1), (353168334677, .ofNat 1), (357141804427, .ofNat 1), (359071099133, .negSucc 0), (364865097143, .ofNat 1), (371460939893, .ofNat 1), (371545818109, .negSucc 0), (371635026431, .ofNat 1), (393675146489, .ofNat 1), (404972687089, .ofNat 1), (408407826721, .negSucc 0), (410663613377, .ofNat 1), (418675349503, .ofNat 1), (421934094139, .negSucc 0), (426692119333, .ofNat 1), (435168282013, .ofNat 1), (436794589183, .ofNat 1), (438428946019, .ofNat 1), (438478249577, .ofNat 1), (442661463043, .negSucc 0), (442711242569, .negSucc 0), (567112039391, .negSucc 0), (689171591413, .negSucc 0), (713986639039, .negSucc 0), (739428732739, .negSucc 0), (1153012023641, .negSucc 0), (1232655914551, .ofNat 1), (2120442938507, .ofNat 1), (2781000633613, .ofNat 1), (3367860832649, .negSucc 0), (3632554370993, .ofNat 1), (3941220643441, .negSucc 0), (4016785042987, .negSucc 0), (4417012568191, .negSucc 0), (4650596360323, .negSucc 0), (5168984700119, .negSucc 0), (5198249133757, .negSucc 0), (5210063429849, .ofNat 1), (5944707128663, .ofNat 1), (30270622885427, .negSucc 0), (35797973044061, .ofNat 1), (37091893496597, .ofNat 1), (37118931458971, .ofNat 1), (38460598053667, .ofNat 1), (45552189132361, .ofNat 1), (47198676465697, .ofNat 1)] 0)) .nil

end BP.EL
