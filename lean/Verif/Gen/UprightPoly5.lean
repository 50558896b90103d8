import Verif.Lemmas.Laurent
import Verif.Gen.UprightPoly4

/-!
# Generated by tools/gen_upright_poly.py
-/

namespace BP.EL

def upr269 : Tr := .node (.node .nil (.node .nil (.node .nil upr268))) (.node .nil (.node (.node (.node (.leaf [(107, .ofNat 1)]) .nil) (.node (.leaf [(4445, .negSucc 0), (39370, .ofNat 1), (160475, .ofNat 1), (174230, .ofNat 2), (385795, .negSucc 0), (1421350, .negSucc 0), (1604645, .ofNat 2), (4149425, .negSucc 0), (5911850, .ofNat 1), (13090525, .negSucc 0), (36752050, .ofNat 1), (57931475, .negSucc 0), (152863550, .negSucc 0), (338483575, .ofNat 1), (1497942425, .ofNat 1)]) .nil)) .nil))

def upr270 : Tr := .node .nil (.node .nil (.node (.node (.node .nil (.leaf [(181, .ofNat 1)])) .nil) .nil))

def upr271 : Tr := .node (.node (.node (.node (.node (.leaf [(19, .ofNat 1)]) .nil) .nil) (.node (.node (.leaf [(14, .negSucc 0)]) .nil) .nil)) .nil) (.node (.node .nil (.node (.node (.leaf [(1, .ofNat 1)]) .nil) .nil)) .nil)

def upr272 : Tr := .node (.node (.node .nil (.node (.node (.leaf [(7, .negSucc 0), (181, .ofNat 1)]) .nil) .nil)) .nil) (.node .nil (.node (.node (.node .nil (.leaf [(31, .ofNat 1)])) .nil) .nil))

def upr273 : Tr := .node (.node .nil (.node (.node (.node .nil (.leaf [(1, .ofNat 1), (1330, .ofNat 1), (2945, .negSucc 0)])) .nil) (.node .nil (.node (.leaf [(923930, .ofNat 1), (2045845, .negSucc 0), (34587290, .ofNat 1), (179532995, .negSucc 0), (267605785, .negSucc 0), (351414215, .negSucc 0), (362453405, .ofNat 1), (722874361, .ofNat 1), (791977627, .ofNat 1), (820431913, .ofNat 1), (2917812310, .ofNat 1), (3022643890, .ofNat 1), (5535036110, .negSucc 0), (5897132945, .negSucc 0), (6460870115, .negSucc 0), (6692997185, .negSucc 0), (7594584430, .ofNat 1), (9139245670, .negSucc 0), (10683906910, .ofNat 1), (16530941770, .negSucc 0), (24883772305, .ofNat 1), (28552877605, .ofNat 1), (31000267114, .ofNat 1), (36604228205, .ofNat 1), (64811411195, .ofNat 2), (67464113710, .negSucc 0), (70928547830, .ofNat 1), (73639192970, .ofNat 1), (80867580010, .ofNat 1), (96605688385, .ofNat 2), (149384823215, .ofNat 1), (157056070195, .negSucc 0), (163058213005, .negSucc 0), (179063927165, .negSucc 0), (220399126130, .negSucc 0), (252896915930, .negSucc 0), (298801844701, .negSucc 0), (975365500270, .negSucc 0), (2159737893455, .ofNat 1), (2437593996245, .ofNat 1), (3342792582205, .negSucc 0), (8847958466735, .ofNat 1), (8983041802105, .negSucc 0), (10772592822115, .ofNat 1), (13226708857645, .ofNat 1), (13642207565215, .negSucc 0), (16352579929165, .ofNat 1), (25220165078410, .ofNat 1), (232275795168715, .ofNat 1), (325956088247810, .ofNat 1), (346812104310290, .negSucc 0), (403468476488710, .ofNat 1), (415334564134390, .negSucc 0), (3194113006491335, .negSucc 1), (3888906008783515, .negSucc 1)]) .nil)))) (.node (.node .nil (.node (.node (.leaf [(2, .negSucc 0)]) .nil) (.node (.leaf [(36220889210, .ofNat 1)]) .nil))) (.node (.node (.node (.leaf [(67, .ofNat 1)]) .nil) .nil) .nil))

def upr274 : Tr := .node (.node (.node (.node (.node (.leaf [(133, .ofNat 1)]) (.leaf [(1541, .ofNat 1), (4441921, .ofNat 1)])) .nil) .nil) (.node (.node (.node (.leaf [(1007, .ofNat 1)]) .nil) .nil) .nil)) (.node (.node .nil (.node (.node .nil (.leaf [(181, .negSucc 0)])) .nil)) .nil)

def upr275 : Tr := .node (.node (.node (.node upr254 upr255) (.node upr256 upr258)) (.node (.node upr260 upr261) (.node upr263 upr264))) (.node (.node (.node upr265 upr267) (.node upr269 upr270)) (.node (.node upr271 upr272) (.node upr273 upr274)))

def upr276 : Tr := .node (.node (.node (.node (.node (.leaf [(1, .ofNat 1)]) .nil) .nil) .nil) .nil) (.node (.node .nil (.node .nil (.node (.leaf [(574313, .negSucc 0), (594947, .negSucc 0), (458607845, .negSucc 0), (707299130, .negSucc 0), (798295070, .negSucc 0), (6514170995, .negSucc 0), (7474683695, .negSucc 0)]) .nil))) (.node (.node (.node (.leaf [(118, .ofNat 1)]) .nil) .nil) .nil))

def upr277 : Tr := .node (.leaf [(8757061913663, .ofNat 1), (8785103829551, .negSucc 0), (9071686892597, .ofNat 1), (9100736302469, .negSucc 0), (19147565427802, .negSucc 0), (19835501910238, .negSucc 0), (19889118314618, .ofNat 1), (20603697415742, .ofNat 1), (187372604543491, .negSucc 0), (194629229221619, .ofNat 1), (342776423477666, .ofNat 1), (343874064185282, .negSucc 0), (3161299350832343, .negSucc 0), (3171422482467911, .ofNat 1), (3274878968227517, .negSucc 0), (3285365805191309, .ofNat 1), (5895329014275505, .negSucc 0), (6123645155340545, .ofNat 1), (6653778986161195, .negSucc 0), (6911468614329755, .ofNat 1), (6992802344290595, .ofNat 1), (7015194737663315, .negSucc 0), (10784819902892630, .ofNat 1), (10819355117507510, .negSucc 0), (12172316059991570, .ofNat 1), (12211294323075890, .negSucc 0), (15289961602542130, .negSucc 0), (15882116005065170, .ofNat 1), (23880672642119395, .negSucc 0), (23957143474480915, .ofNat 1), (26952985561409905, .negSucc 0), (27039294572525185, .ofNat 1), (33856343548486145, .ofNat 1), (35167542582644305, .negSucc 0), (52215771269297330, .ofNat 1), (54237999947301970, .negSucc 0), (58933471020284870, .ofNat 1), (61215864869777830, .negSucc 0), (61936249335145270, .negSucc 0), (62134581962160790, .ofNat 1), (99327368036946245, .ofNat 1), (99645434727273365, .negSucc 0), (113973160806323945, .ofNat 1), (114338126341606265, .negSucc 0), (121735670901366565, .ofNat 1), (126450287938492085, .negSucc 0), (217182120785447230, .negSucc 0), (225593217707431070, .ofNat 1), (249205564042843030, .negSucc 0), (258856874864753270, .ofNat 1), (480903267453490295, .ofNat 1), (499527839209311655, .negSucc 0), (551812320380580995, .ofNat 1), (573183080057667955, .negSucc 0), (879756688327238170, .negSucc 0), (882573850441564090, .ofNat 1), (1009476567141726370, .negSucc 0), (1012709119025655490, .ofNat 1), (2128213774153457305, .ofNat 1), (2210635901077936745, .negSucc 0), (2402014214004191395, .ofNat 1), (2495040169773041555, .negSucc 0), (2524401646288904795, .negSucc 0), (2532485300296456715, .ofNat 1), (3893319984944239430, .negSucc 0), (3905787197420211110, .ofNat 1), (4394206097656956770, .negSucc 0), (4408277250630396290, .ofNat 1), (8620922823805101595, .ofNat 1), (8648528794287610315, .negSucc 0), (9730027787668975705, .ofNat 1), (9761185340681591785, .negSucc 0), (35857179861337594445, .negSucc 0), (35972001936545684765, .ofNat 1), (41144311051082944145, .negSucc 0), (41276063609319861665, .ofNat 1), (350902162898033143265, .ofNat 1), (364492011323838222385, .negSucc 0), (384446699557451494355, .ofNat 1), (398259155828976697745, .ofNat 1), (399335671262949280195, .negSucc 0), (413683060649642068705, .negSucc 0), (641934762458013238390, .negSucc 0), (643990369782924931030, .ofNat 1), (703300597294674297730, .negSucc 0), (705552710661892450210, .ofNat 1), (728568882227417086870, .negSucc 0), (730901909847349663990, .ofNat 1), (2178092806816938620285, .negSucc 0), (2262446664477769959565, .ofNat 1), (6882298702097884199215, .negSucc 0), (6904337240048518977055, .ofNat 1), (7515569739517860240995, .ofNat 1), (7781716410111607450915, .negSucc 0), (8888973346739398153055, .negSucc 0), (9233228279355223348495, .ofNat 1), (9345442139712659636515, .ofNat 1), (9702592794733525609885, .ofNat 1), (9707375338134499311635, .negSucc 0), (10078357835133269985965, .negSucc 0), (10654994541455834872205, .ofNat 1), (11067644493796658450845, .negSucc 0), (13114598361806715733010, .ofNat 1), (13622504618155595719090, .negSucc 0), (15048342239820244207610, .ofNat 1), (15631139132292586110490, .negSucc 0), (128512737490302816769535, .negSucc 0), (133489818876335739152815, .ofNat 1), (145046247647318485227365, .negSucc 0), (150663643972207006999285, .ofNat 1), (216538673421550393434325, .negSucc 0), (217232074853041048255525, .ofNat 1), (244396957559899318461175, .negSucc 0), (245179566955007626447975, .ofNat 1), (561608689534319107627450, .negSucc 0), (563407076229441123938650, .ofNat 1), (1243562098254563738317925, .ofNat 1), (1247544240222333917292725, .negSucc 0), (1917913964590874913275450, .ofNat 1), (1924055520126934998834650, .negSucc 0), (2164658766959108249227550, .ofNat 1), (2171590450172924691396350, .negSucc 0), (7977218610171009150488950, .negSucc 0), (8002763307181496938024150, .ofNat 1), (9153457273790185984955950, .negSucc 0), (9182768529264530239483150, .ofNat 1), (17663841208235805976082675, .ofNat 1), (17720404465901886077053475, .negSucc 0), (20268369677678268966688175, .ofNat 1), (20333273171942888387426975, .negSucc 0), (78170461105179692029791325, .ofNat 1), (78420779021947818420244525, .negSucc 0), (88227301679123653964484175, .ofNat 1), (88509823670757753147718975, .negSucc 0)]) .nil

def upr278 : Tr := .node (.node (.node (.node (.node (.leaf [(131, .ofNat 1)]) .nil) .nil) .nil) (.node (.node (.node .nil (.leaf [(266, .ofNat 1)])) .nil) (.node .nil upr277))) (.node .nil (.node (.node .nil (.node (.leaf [(86, .ofNat 1)]) .nil)) .nil))

def upr279 : Tr := .node (.node .nil (.node (.node .nil (.node (.leaf [(46, .negSucc 0)]) .nil)) (.node .nil (.node (.leaf [(1295, .negSucc 0), (5285, .negSucc 0), (6335, .ofNat 1), (11470, .ofNat 1), (46810, .ofNat 1), (56110, .negSucc 0), (467495, .ofNat 1), (1907885, .ofNat 1), (2286935, .negSucc 0)]) .nil)))) (.node (.node (.node (.node (.leaf [(45793, .negSucc 0)]) .nil) .nil) (.node (.node .nil (.leaf [(159281789, .ofNat 1), (173055359, .negSucc 0)])) .nil)) .nil)

def upr280 : Tr := .node (.node (.node (.node (.node (.leaf [(151, .negSucc 0)]) (.leaf [(870067, .ofNat 1)])) .nil) (.node (.node (.leaf [(19, .ofNat 4), (6859, .negSucc 5)]) .nil) .nil)) .nil) (.node (.node .nil (.node (.node (.leaf [(4163, .negSucc 0)]) .nil) (.node (.leaf [(395485, .negSucc 0)]) .nil))) (.node (.node (.node .nil (.leaf [(83, .ofNat 1)])) .nil) .nil))

def upr281 : Tr := .node (.node (.node (.node (.node (.leaf [(14, .negSucc 0)]) .nil) .nil) .nil) .nil) .nil

def upr282 : Tr := .node (.node (.node (.node (.node (.leaf [(31, .ofNat 1), (137, .ofNat 1)]) .nil) .nil) .nil) (.node (.node (.node (.leaf [(19, .ofNat 1)]) (.leaf [(361, .ofNat 2)])) (.node (.leaf [(262, .ofNat 1), (2413, .ofNat 1)]) .nil)) .nil)) .nil

def upr283 : Tr := .node (.node .nil (.node (.node (.node .nil (.leaf [(8883842, .ofNat 1)])) .nil) (.node (.node (.leaf [(9, .ofNat 1)]) .nil) .nil))) (.node .nil (.node (.node .nil (.node (.leaf [(133, .ofNat 2), (490, .ofNat 1), (1085, .negSucc 1), (1178, .negSucc 0), (9610, .ofNat 1), (12670, .negSucc 0), (28055, .ofNat 1), (48013, .negSucc 1), (162925, .negSucc 0), (176890, .negSucc 2), (391685, .ofNat 4), (1443050, .ofNat 2), (3195325, .negSucc 0), (4212775, .ofNat 2), (4573870, .ofNat 3), (10127855, .negSucc 1), (37313150, .negSucc 2), (58815925, .ofNat 1), (82621975, .ofNat 1), (108930325, .negSucc 0), (964811450, .ofNat 1), (1520811775, .negSucc 1), (39323847325, .ofNat 1)]) .nil)) .nil))

def upr284 : Tr := .node (.node (.node .nil (.node (.node .nil (.leaf [(17998842157, .negSucc 0), (19555255567, .ofNat 1), (176514326470121, .negSucc 0), (191778045234851, .ofNat 1), (208770751611869, .ofNat 1), (227924692504247, .negSucc 0)])) .nil)) .nil) .nil

def upr285 : Tr := .node (.leaf [(67, .ofNat 1)]) (.leaf [(466655, .ofNat 1), (989590, .negSucc 0), (2191235, .ofNat 1), (4133230, .negSucc 0), (17469215, .ofNat 1), (37045270, .negSucc 0), (168462455, .negSucc 0), (192291685, .ofNat 1), (286623455, .ofNat 1), (388211515, .negSucc 0), (540645190, .negSucc 0), (774246143, .negSucc 0), (848260301, .negSucc 0), (878736719, .negSucc 0), (1460426374, .ofNat 1), (1473717385, .ofNat 1), (1526665315, .ofNat 1), (1600036018, .ofNat 1), (1657522342, .ofNat 1), (3125169530, .negSucc 0), (3237451070, .negSucc 0), (3542936897, .negSucc 0), (3670228043, .negSucc 0), (5396186485, .ofNat 1), (5786272255, .ofNat 1), (5928388930, .ofNat 1), (6306386615, .negSucc 0), (6316218535, .ofNat 1), (6920018245, .ofNat 1), (7168641655, .ofNat 1), (8134301090, .negSucc 0), (8349384295, .negSucc 0), (9788735210, .ofNat 1), (10299633050, .ofNat 1), (11443169330, .negSucc 0), (11914004630, .negSucc 1), (13052925410, .negSucc 1), (13521892790, .negSucc 1), (14611107350, .ofNat 1), (17006370850, .ofNat 1), (17705729510, .ofNat 1), (21317845150, .ofNat 1), (22806330325, .negSucc 0), (26108372150, .ofNat 1), (26652162215, .negSucc 0), (28902906265, .ofNat 1), (29941334035, .ofNat 1), (30582016115, .negSucc 0), (32353166275, .negSucc 0), (33203331782, .negSucc 0), (34074514285, .negSucc 0), (35824317305, .ofNat 1), (37193399495, .ofNat 1), (37656964025, .negSucc 0), (39205543915, .negSucc 0), (40844285335, .ofNat 1), (47203799975, .negSucc 0), (50272798870, .ofNat 1), (57811395475, .negSucc 0), (69417298285, .negSucc 1), (72258517730, .ofNat 1), (73951689470, .ofNat 1), (75969155290, .negSucc 0), (78872435110, .negSucc 0), (86614514630, .negSucc 0), (103471067255, .negSucc 1), (111318340355, .negSucc 0), (120601517225, .negSucc 1), (160001003545, .negSucc 0), (168217415285, .ofNat 1), (174646106315, .ofNat 1), (179764525675, .negSucc 1), (191789282395, .ofNat 1), (236062008190, .ofNat 1), (249002696767, .negSucc 0), (270869285590, .ofNat 1), (301802840810, .ofNat 1), (317301096130, .negSucc 0), (320036493563, .ofNat 1), (329427252670, .negSucc 0), (361763670110, .negSucc 0), (492633844045, .negSucc 0), (532011975985, .negSucc 0), (551126178715, .negSucc 0), (556012516255, .ofNat 1), (1044680815010, .ofNat 1), (1068184866850, .ofNat 2), (1592200084550, .ofNat 2), (2031337789415, .ofNat 1), (2313221804665, .negSucc 0), (2610824026435, .negSucc 0), (3014127730495, .ofNat 1), (3580351445915, .ofNat 1), (3718167531050, .negSucc 0), (4363328332970, .ofNat 1), (5101671728650, .ofNat 1), (6139299876850, .negSucc 0), (7176928025050, .ofNat 1), (8233085247325, .ofNat 1), (9476747393305, .negSucc 0), (9621430559615, .ofNat 1), (11296558827725, .negSucc 0), (11538157794245, .negSucc 0), (12300899656885, .ofNat 1), (12932578547105, .negSucc 0), (13426817217695, .negSucc 0), (13594164013025, .ofNat 1), (14611704549545, .ofNat 1), (14744787005935, .negSucc 0), (15891769198325, .negSucc 0), (17514692208395, .negSucc 0), (18148480392070, .negSucc 0), (20824468774270, .ofNat 1), (21763918493410, .ofNat 1), (27012461073830, .negSucc 0), (40185920868155, .ofNat 1), (43537147718225, .ofNat 2), (64894993768675, .ofNat 2), (177840817700245, .ofNat 1), (200720518368055, .negSucc 0), (203782301576785, .ofNat 1), (248782704470045, .negSucc 0), (349120480306030, .negSucc 0), (371458649794270, .ofNat 1), (432141363142730, .negSucc 0), (444850726052570, .ofNat 1), (645350335698950, .ofNat 1), (772857397594450, .ofNat 1), (951872684846650, .ofNat 1), (1428990029047675, .negSucc 0), (1711327094673425, .negSucc 0), (2107718087874725, .negSucc 0), (3421105808983105, .ofNat 2), (4165274963722445, .ofNat 2), (5943627328402925, .ofNat 2), (7236502899058825, .ofNat 2), (52643556337283050, .negSucc 1), (64094739963092450, .negSucc 1), (218961415930324550, .ofNat 1), (232971471187320950, .negSucc 0), (271030461097124050, .ofNat 1), (279001520531596450, .negSucc 0), (484843135274290075, .negSucc 0), (515865400486210675, .ofNat 1), (600138878143631825, .negSucc 0), (617789081177106425, .ofNat 1), (2145649465553455925, .negSucc 1), (2612377546560235825, .negSucc 1)])

def upr286 : Tr := .node (.node (.node (.node (.node (.leaf [(19, .ofNat 1)]) (.leaf [(27029, .ofNat 1)])) .nil) .nil) (.node (.node (.node .nil (.leaf [(1, .negSucc 0)])) .nil) .nil)) (.node .nil (.node (.node upr285 .nil) .nil))

def upr287 : Tr := .node (.leaf [(158, .negSucc 0), (1577, .ofNat 1), (1691, .ofNat 1), (3010, .ofNat 1), (4130, .negSucc 0), (4970, .ofNat 1), (5810, .negSucc 0), (6665, .negSucc 0), (7014, .ofNat 1), (7070, .negSucc 0), (7266, .ofNat 1), (7630, .ofNat 1), (9145, .ofNat 1), (11005, .negSucc 0), (12865, .ofNat 1), (15655, .ofNat 1), (16895, .negSucc 0), (35245, .negSucc 4), (52535, .negSucc 4), (68637, .ofNat 1), (71155, .ofNat 1), (129850, .negSucc 0), (155477, .ofNat 1), (161063, .ofNat 1), (162491, .ofNat 2), (193550, .negSucc 0), (262150, .ofNat 1), (287525, .ofNat 1), (312170, .ofNat 4), (428575, .ofNat 1), (465310, .ofNat 4), (580475, .negSucc 0), (1000825, .negSucc 0), (1086610, .negSucc 2), (1373225, .ofNat 1), (1439206, .negSucc 0), (1490930, .ofNat 3), (1652525, .negSucc 0), (1794170, .negSucc 2), (1931825, .ofNat 1), (2097410, .ofNat 3), (2406065, .ofNat 2), (3301345, .negSucc 1), (3357550, .ofNat 1), (3972805, .ofNat 2), (4644265, .negSucc 1), (5004650, .ofNat 1), (5605355, .negSucc 0), (6085814, .ofNat 3), (6360362, .ofNat 1), (6778450, .negSucc 0), (7434575, .negSucc 0), (8864450, .ofNat 1), (11081725, .negSucc 0), (12162850, .negSucc 0), (12723445, .ofNat 6), (13475731, .negSucc 0), (14636650, .ofNat 1), (15009425, .ofNat 1), (17110450, .negSucc 0), (17153570, .negSucc 0), (18965135, .ofNat 6), (25878475, .ofNat 1), (35507675, .negSucc 0), (37982905, .ofNat 1), (42729575, .ofNat 1), (46875850, .ofNat 2), (49647430, .ofNat 1), (49951475, .negSucc 0), (58659251, .negSucc 2), (59554037, .ofNat 1), (69871550, .ofNat 2), (70005110, .negSucc 1), (83913410, .ofNat 1), (103796525, .negSucc 1), (126313565, .negSucc 0), (154715575, .negSucc 1), (155011315, .ofNat 2), (177257710, .negSucc 0), (185808265, .negSucc 0), (188599390, .ofNat 1), (199051475, .ofNat 1), (216113030, .ofNat 2), (219409610, .negSucc 0), (225862490, .ofNat 1), (229209350, .negSucc 0), (278178530, .ofNat 1), (285696530, .negSucc 0), (314496550, .ofNat 1), (342457430, .ofNat 1), (361297825, .ofNat 1), (378461950, .negSucc 0), (392499215, .ofNat 1), (417612935, .negSucc 0), (442427350, .ofNat 1), (478535995, .negSucc 0), (485835565, .ofNat 1), (495734225, .negSucc 0), (500124085, .negSucc 0), (596561525, .ofNat 1), (615966745, .negSucc 0), (632613745, .ofNat 1), (656239955, .negSucc 0), (697388825, .negSucc 0), (758298595, .negSucc 0), (1118777290, .ofNat 1), (1212075550, .negSucc 1), (1736985985, .ofNat 5), (1763027350, .negSucc 0), (1806678650, .negSucc 1), (2023533155, .ofNat 2), (2114820365, .ofNat 5), (2417726150, .negSucc 0), (2678168465, .negSucc 0), (2683881575, .ofNat 2), (3210254915, .ofNat 1), (4000502725, .ofNat 2), (4560218075, .ofNat 1), (4951093910, .ofNat 2), (5146902425, .negSucc 0), (5353536475, .ofNat 1), (6399422050, .ofNat 1), (7455122150, .ofNat 1), (7791443450, .ofNat 1), (9342129475, .negSucc 0), (9866936450, .negSucc 0), (10963136515, .negSucc 0), (11827254950, .ofNat 1), (12818270675, .ofNat 1), (14170148825, .negSucc 0), (15384733010, .negSucc 3), (15425376575, .negSucc 0), (16507770475, .negSucc 0), (17252481925, .negSucc 0), (18032482475, .ofNat 1), (18731266090, .negSucc 3), (21848216425, .ofNat 1), (26188921675, .negSucc 0), (40390502950, .negSucc 0), (45586850050, .ofNat 1), (45599196965, .ofNat 2), (58938188575, .ofNat 1), (62515490450, .ofNat 1), (62709297175, .negSucc 0), (63990033310, .ofNat 3), (68084379790, .negSucc 2), (71857582475, .negSucc 0), (72953695325, .ofNat 1), (75099277925, .negSucc 0), (79206869210, .ofNat 3), (81536358890, .negSucc 2), (117914210225, .negSucc 0), (138427157425, .negSucc 0), (141692216615, .negSucc 1), (150758269535, .ofNat 2), (165470770150, .negSucc 0), (167997041450, .ofNat 1), (175386638965, .negSucc 1), (180544794685, .ofNat 2), (192768158450, .negSucc 0), (201464466350, .negSucc 0), (255130785350, .ofNat 1), (305819020850, .negSucc 0), (366399562475, .ofNat 1), (371993448925, .negSucc 0), (426843779425, .ofNat 1), (446099889775, .ofNat 1), (522023955950, .negSucc 0), (555425203550, .ofNat 1), (564932453275, .negSucc 0), (627051940585, .negSucc 5), (646161301450, .negSucc 0), (665165033050, .ofNat 1), (677170689025, .ofNat 1), (763450151765, .negSucc 5), (1044383004850, .ofNat 1), (1523973161725, .negSucc 0), (1621483255525, .ofNat 1), (1646238725075, .negSucc 0), (1858031775425, .ofNat 1), (1886374121975, .negSucc 0), (1941852757775, .ofNat 1), (2310191360050, .negSucc 1), (2812711085450, .negSucc 1), (4343923500350, .negSucc 0), (5115423725825, .ofNat 2), (6228145974925, .ofNat 2), (9618687750775, .ofNat 1), (13498048003850, .ofNat 1), (14361708834650, .negSucc 0), (16707885080350, .ofNat 1), (17199267283150, .negSucc 0), (21276686075575, .negSucc 0), (22638056280175, .ofNat 1), (26336284012325, .negSucc 0), (27110839330925, .ofNat 1), (42567029891225, .ofNat 1), (59734948024150, .ofNat 2), (72728672352350, .ofNat 2), (132270242053475, .negSucc 1), (161042060208775, .negSucc 1), (550154311382725, .ofNat 1), (585355455244525, .negSucc 0), (680981058032975, .ofNat 1), (701008845556775, .negSucc 0)]) .nil

def upr288 : Tr := .node (.node (.node (.node (.node (.leaf [(62, .ofNat 1), (114, .negSucc 0), (2527, .ofNat 1), (65341, .negSucc 0)]) .nil) .nil) .nil) .nil) (.node .nil (.node (.node (.node (.leaf [(43, .ofNat 1), (61, .ofNat 1), (71, .ofNat 1), (89, .ofNat 1), (109, .ofNat 1), (1503, .ofNat 1), (1557, .ofNat 1), (2014, .negSucc 1), (3002, .negSucc 1), (15523, .negSucc 0), (21299, .ofNat 1), (25631, .negSucc 0), (29963, .ofNat 1), (139278, .ofNat 2), (1304103, .ofNat 2), (2694277, .ofNat 1), (3226607, .ofNat 1), (3973979, .ofNat 1), (99256342, .ofNat 2), (120846878, .ofNat 2), (914143333, .ofNat 1), (972633997, .negSucc 0), (1131526703, .ofNat 1), (1164805127, .negSucc 0)]) .nil) upr287) .nil))

def upr289 : Tr := .node (.leaf [(101, .ofNat 1)]) (.leaf [(8666315158081, .negSucc 0), (8708378031913, .ofNat 1), (8977679774539, .negSucc 0), (9021253889347, .ofNat 1), (18058604360818, .ofNat 1), (18707416493542, .ofNat 1), (19715414224534, .negSucc 0), (20423752460146, .negSucc 0), (176716342673719, .ofNat 1), (192929410625797, .negSucc 0), (339224336187742, .negSucc 0), (340870797249166, .ofNat 1), (3128539772067241, .ofNat 1), (3143724469520593, .negSucc 0), (3240942398608579, .ofNat 1), (3256672654054267, .negSucc 0), (5560049639056045, .ofNat 1), (6070163538263335, .negSucc 0), (6275365015384255, .ofNat 1), (6851106443025565, .negSucc 0), (6920338071292765, .negSucc 0), (6953926661351845, .ofNat 1), (10673060111152810, .negSucc 0), (10724862933075130, .ofNat 1), (12046178069732590, .negSucc 0), (12104645464359070, .ofNat 1), (14420390326568170, .ofNat 1), (15743407568339710, .negSucc 0), (23633204531838365, .ofNat 1), (23747910780380645, .negSucc 0), (26673680011550735, .ofNat 1), (26803143528223655, .negSucc 0), (31930864294543805, .negSucc 0), (34860402472752215, .ofNat 1), (49246153945924970, .negSucc 0), (53764305624618110, .ofNat 1), (55581804421974830, .negSucc 0), (60681228495369290, .ofNat 1), (61294422917164490, .ofNat 1), (61591921857687770, .negSucc 0), (98298068886304315, .negSucc 0), (98775168921794995, .ofNat 1), (112792091782424215, .negSucc 0), (113339540085347695, .ofNat 1), (114812315210293585, .negSucc 0), (125345918611518355, .ofNat 1), (204830530977744070, .ofNat 1), (223622971264571410, .negSucc 0), (235032735756046270, .ofNat 1), (256596116132310010, .negSucc 0), (453553318593576155, .negSucc 0), (495165150657265265, .ofNat 1), (520429629174102455, .negSucc 0), (568177114292972165, .ofNat 1), (870640038707266790, .ofNat 1), (874865781878755670, .negSucc 0), (999015670072900190, .ofNat 1), (1003864497898793870, .negSucc 0), (2007177919699232245, .negSucc 0), (2191329037313063935, .ofNat 1), (2265406770553716055, .negSucc 0), (2473249425932228965, .ofNat 1), (2498242043736688165, .ofNat 1), (2510367524748016045, .negSucc 0), (3852974700126164410, .ofNat 1), (3871675518840121930, .negSucc 0), (4348670283173464990, .ofNat 1), (4369777012633624270, .negSucc 0), (8531586835993649765, .negSucc 0), (8572995791717412845, .ofNat 1), (9629198484169815335, .negSucc 0), (9675934813688739455, .ofNat 1), (35485602867955857715, .ofNat 1), (35657835980767993195, .negSucc 0), (40717945133455141615, .ofNat 1), (40915573970810517895, .negSucc 0), (330945641785348793885, .negSucc 0), (361308674980398587255, .ofNat 1), (362582432284041930695, .negSucc 0), (375609346018797928205, .negSucc 0), (395848023478993391285, .ofNat 1), (410070108154885369415, .ofNat 1), (635282588753785121930, .ofNat 1), (638365999741152660890, .negSucc 0), (696012508203537776510, .ofNat 1), (699390678254365005230, .negSucc 0), (721018945624024163690, .ofNat 1), (724518487053923029370, .negSucc 0), (2054220230125927893065, .ofNat 1), (2242687304962680265595, .negSucc 0), (6810979544563191098705, .ofNat 1), (6844037351489143265465, .negSucc 0), (7088143972341489042455, .negSucc 0), (7701076861820295456605, .ofNat 1), (8383439317540948968995, .ofNat 1), (8813947800013361458135, .negSucc 0), (9150786569440623679465, .negSucc 0), (9152588731063911354185, .negSucc 0), (9622594767495770060005, .ofNat 1), (9990337242686691208795, .ofNat 1), (10049023287913322936345, .negSucc 0), (10970983843195814272235, .ofNat 1), (12368744426538087350090, .negSucc 0), (13503530778695721520670, .ofNat 1), (14192512349403927001490, .negSucc 0), (15494622633320598458870, .ofNat 1), (121203956211233462261315, .ofNat 1), (132323968929817523090345, .negSucc 0), (136797171951736391280785, .ofNat 1), (149347804286860220911955, .negSucc 0), (214294749344643135471275, .ofNat 1), (215334851491879117703075, .negSucc 0), (241864346600729377337225, .ofNat 1), (243038260693391839317425, .negSucc 0), (555788910368160360398150, .ofNat 1), (558486490410843384864950, .negSucc 0), (1230675444386640798024475, .negSucc 0), (1236648657338296066486675, .ofNat 1), (1898039208481124914174150, .negSucc 0), (1907251541785215042512950, .ofNat 1), (2142227069892174484986850, .negSucc 0), (2152624594712899148240050, .ofNat 1), (7894553132345402838048650, .ofNat 1), (7932870177861134519351450, .negSucc 0), (9058602794269044161277650, .ofNat 1), (9102569677480560543068450, .negSucc 0), (17480796221621963427107725, .negSucc 0), (17565641108121083578563925, .ofNat 1), (20058334758738597785686225, .negSucc 0), (20155690000135526916794425, .ofNat 1), (77360404513416171905130275, .negSucc 0), (77735881388568361490810075, .ofNat 1), (87313029122863305218738225, .negSucc 0), (87736812110314453993590425, .ofNat 1)])

def upr290 : Tr := .node (.node .nil (.node .nil (.node .nil (.node (.leaf [(47929, .ofNat 1), (49651, .ofNat 1), (1876078, .ofNat 1), (17302369, .negSucc 0), (17924011, .negSucc 0), (38272885, .ofNat 1), (59027290, .ofNat 1), (66621310, .ofNat 1), (130703285, .negSucc 0), (147518615, .negSucc 0), (338988410, .negSucc 0), (543636835, .ofNat 1), (623795935, .ofNat 1), (4815069110, .negSucc 0), (5525049710, .negSucc 0), (13816511485, .negSucc 0), (21308851690, .negSucc 0), (24050292910, .negSucc 0), (47183885885, .ofNat 1), (53254220015, .ofNat 1), (196252897435, .negSucc 0), (225190332535, .negSucc 0)]) .nil)))) (.node (.node .nil (.node (.node (.leaf [(6859, .negSucc 1)]) .nil) .nil)) (.node (.node upr289 (.node (.leaf [(35, .negSucc 0), (310, .ofNat 1), (12635, .ofNat 2), (46550, .ofNat 1), (103075, .negSucc 0), (1203650, .negSucc 0), (2665225, .ofNat 1)]) .nil)) .nil))

def upr291 : Tr := .node (.node .nil (.node (.node (.node (.leaf [(14, .ofNat 1), (137, .ofNat 1), (4655, .negSucc 0), (4865, .ofNat 1), (5054, .negSucc 0), (11191, .ofNat 1), (41230, .ofNat 2), (43090, .negSucc 0), (91295, .negSucc 0), (120365, .ofNat 1), (182210, .ofNat 1), (403465, .negSucc 0), (1066090, .negSucc 0), (1680455, .ofNat 1), (1756265, .negSucc 0), (43451765, .negSucc 0)]) .nil) .nil) .nil)) (.node .nil (.node (.node (.node (.leaf [(229, .ofNat 1)]) (.leaf [(167, .ofNat 1)])) .nil) .nil))

def upr292 : Tr := .node (.node (.node (.node (.node (.leaf [(2, .ofNat 1)]) .nil) .nil) .nil) (.node (.node (.node .nil (.leaf [(20815, .negSucc 0), (7514215, .ofNat 1), (14195830, .ofNat 1)])) .nil) (.node .nil (.node (.leaf [(95858, .ofNat 1), (99302, .ofNat 1), (938039, .ofNat 1), (29513645, .ofNat 1), (33310655, .ofNat 1), (76545770, .ofNat 1), (169494205, .negSucc 0), (261406570, .negSucc 0), (295037230, .negSucc 0), (1087273670, .ofNat 1), (1247591870, .ofNat 1), (2407534555, .negSucc 0), (2762524855, .negSucc 0), (10654425845, .negSucc 0), (12025146455, .negSucc 0)]) .nil)))) (.node (.node .nil (.node .nil (.node (.leaf [(7514215, .negSucc 0)]) .nil))) .nil)

def upr293 : Tr := .node (.node (.node .nil (.node (.node (.leaf [(2, .negSucc 1)]) .nil) .nil)) .nil) (.node .nil (.node (.node (.node (.leaf [(193, .ofNat 1)]) .nil) .nil) .nil))

def upr294 : Tr := .node .nil (.leaf [(132610345, .ofNat 2), (142196635, .ofNat 2), (190504510, .negSucc 0), (196426930, .negSucc 0), (196962290, .negSucc 0), (203085470, .negSucc 0), (267997870, .negSucc 0), (276329410, .negSucc 0), (287371210, .negSucc 0), (296305030, .negSucc 0), (326117890, .negSucc 0), (336256270, .negSucc 0), (421831415, .ofNat 1), (434945345, .ofNat 1), (436130785, .ofNat 1), (449689255, .ofNat 1), (593423855, .ofNat 1), (611872265, .ofNat 1), (636321965, .ofNat 1), (656103995, .ofNat 1), (722118185, .ofNat 1), (744567455, .ofNat 1), (1174548770, .negSucc 1), (1259455910, .negSucc 1), (1625746115, .negSucc 2), (1676287445, .negSucc 2), (2423281945, .negSucc 2), (2498617135, .negSucc 2), (2963761325, .negSucc 1), (3282166685, .ofNat 1), (3384202955, .ofNat 1), (4796340430, .ofNat 4), (5983442675, .ofNat 2), (5989590950, .negSucc 0), (6175795850, .negSucc 0), (7171687579, .ofNat 1), (7394641597, .ofNat 1), (7429353001, .ofNat 1), (7660317343, .ofNat 1), (8927880850, .negSucc 0), (9205431550, .negSucc 0), (10620468095, .negSucc 1), (12092193050, .ofNat 1), (12468116150, .ofNat 1), (13262665675, .ofNat 1), (13674976525, .ofNat 1), (14194739146, .negSucc 1), (14399465590, .ofNat 2), (14704729774, .negSucc 1), (14847117370, .ofNat 2), (19768879025, .ofNat 1), (20383455575, .ofNat 1), (21463354370, .ofNat 2), (22130608910, .ofNat 2), (26250457450, .ofNat 4), (26775570325, .negSucc 0), (27607971475, .negSucc 0), (39128040350, .ofNat 2), (46165054775, .negSucc 0), (47600237825, .negSucc 0), (47872334545, .negSucc 3), (50122059470, .negSucc 1), (51332985235, .negSucc 3), (51680258210, .negSucc 1), (52996206550, .negSucc 3), (58126012925, .negSucc 1), (63342749575, .ofNat 1), (65311954225, .ofNat 1), (68772128110, .ofNat 2), (70910121730, .ofNat 2), (76226020675, .negSucc 0), (78595741525, .negSucc 0), (82759679590, .negSucc 1), (84159637625, .negSucc 1), (85332519370, .negSucc 1), (86640660775, .negSucc 1), (89109291775, .ofNat 1), (91373320850, .negSucc 3), (91879528825, .ofNat 1), (96747231070, .ofNat 2), (99754917010, .ofNat 2), (110984560255, .ofNat 1), (114228633925, .negSucc 1), (114434857465, .ofNat 1), (117348743075, .ofNat 2), (119389253375, .negSucc 1), (125372696050, .ofNat 2), (129622617950, .negSucc 1), (138905661643, .negSucc 1), (138961262125, .negSucc 1), (150872227450, .negSucc 3), (152281140815, .negSucc 0), (154873708850, .ofNat 1), (157015269545, .negSucc 0), (159688435550, .ofNat 1), (174190877875, .negSucc 1), (183253576235, .ofNat 1), (188950578605, .ofNat 1), (189121524550, .negSucc 3), (202326639025, .ofNat 6), (213334895375, .negSucc 1), (214226011655, .negSucc 0), (220885887665, .negSucc 0), (230849490550, .ofNat 1), (231620743550, .negSucc 1), (238026158650, .ofNat 1), (258558210085, .negSucc 0), (266596289155, .negSucc 0), (277610969825, .negSucc 3), (280720342378, .ofNat 1), (287021511175, .ofNat 2), (289447399654, .ofNat 1), (312669563150, .negSucc 0), (322389860450, .negSucc 0), (334074217925, .ofNat 6), (342934641025, .negSucc 0), (353595821575, .negSucc 0), (390537466025, .negSucc 1), (408890485150, .ofNat 1), (418769090075, .ofNat 4), (421602106450, .ofNat 1), (511166729075, .negSucc 0), (511757700790, .ofNat 2), (512874503575, .ofNat 2), (527057922725, .negSucc 0), (561035781950, .negSucc 0), (578477308850, .negSucc 0), (586894347515, .ofNat 4), (605139767645, .ofNat 4), (675144754550, .ofNat 1), (692339746975, .ofNat 1), (696133710650, .ofNat 1), (713863262425, .ofNat 1), (745413933250, .ofNat 4), (789253727150, .negSucc 0), (791242723390, .negSucc 0), (813790112450, .negSucc 0), (815840942770, .negSucc 0), (874804782145, .ofNat 4), (902000785735, .ofNat 4), (1011739329050, .ofNat 2), (1057447672750, .ofNat 4), (1069917838325, .ofNat 10), (1133177766035, .negSucc 1), (1193696416325, .ofNat 1), (1230799750250, .ofNat 4), (1230806149475, .ofNat 1), (1542833489750, .ofNat 4), (1594783192975, .ofNat 8), (1637862524725, .negSucc 0), (1650559423625, .negSucc 1), (1688780530675, .negSucc 0), (1752037458935, .ofNat 1), (1792035945650, .negSucc 1), (1806504944705, .ofNat 1), (1889537644750, .ofNat 4), (1970987106025, .ofNat 1), (2032261316575, .ofNat 1), (2160022805675, .negSucc 1), (2162242332950, .ofNat 2), (2176127772875, .ofNat 2), (2229462301850, .ofNat 2), (2290087003610, .ofNat 1), (2304111687325, .negSucc 0), (2341491275375, .negSucc 1), (2361281418230, .ofNat 1), (2375742102475, .negSucc 0), (2458840018450, .ofNat 2), (2705775270877, .negSucc 0), (2725342304125, .negSucc 1), (2789892636811, .negSucc 0), (2958943073050, .negSucc 1), (3087064980125, .ofNat 2), (3222964986850, .ofNat 2), (3229125708970, .negSucc 1), (3323160789550, .ofNat 2), (3329513036710, .negSucc 1), (3416274155875, .negSucc 1), (3459046127650, .ofNat 2), (3593141206375, .ofNat 2), (3870673863070, .ofNat 1), (3941802562250, .ofNat 4), (3991005693010, .ofNat 1), (4183976213375, .negSucc 1), (4504078413625, .ofNat 2), (4560469764550, .ofNat 2), (4787822308675, .negSucc 1), (4890142277650, .ofNat 2), (4932671853235, .negSucc 5), (4936666525525, .negSucc 1), (5007914643445, .ofNat 2), (5516230866125, .ofNat 2), (5826465812755, .negSucc 0), (5875517026750, .ofNat 4), (6007599464965, .negSucc 0), (7136565328025, .negSucc 1), (7150206927005, .ofNat 2), (7358427462575, .negSucc 1), (7372493152715, .ofNat 2), (8176366389170, .negSucc 0), (8430553945310, .negSucc 0), (8570777839655, .negSucc 0), (8728277102125, .negSucc 7), (8837226891665, .negSucc 0), (9181647387325, .ofNat 1), (9467087202475, .ofNat 1), (9476415139450, .negSucc 11), (9968645734810, .ofNat 2), (10098183050075, .negSucc 1), (10120707080470, .negSucc 0), (10278551819830, .ofNat 2), (10435340461210, .negSucc 0), (10572739687450, .negSucc 0), (10828172186225, .negSucc 1), (10901425895350, .negSucc 0), (13010073416375, .negSucc 7), (13178323839310, .negSucc 0), (13588012663330, .negSucc 0), (14125222566350, .negSucc 11), (14506782361850, .ofNat 1), (14957770414550, .ofNat 1), (15796533873610, .ofNat 1), (16287617828230, .ofNat 1), (16665584773775, .ofNat 1), (17183685854825, .ofNat 1), (17457314367650, .negSucc 0), (18000028803950, .negSucc 0), (18104811290305, .ofNat 1), (18173001564550, .negSucc 1), (18667655164615, .ofNat 1), (19274274559750, .negSucc 3), (20407846373450, .ofNat 1), (20983490665925, .ofNat 4), (21042287193350, .ofNat 1), (22073429841365, .negSucc 0), (22410137106755, .ofNat 1), (22759650458195, .negSucc 0), (22866732596575, .negSucc 0), (23106825306965, .ofNat 1), (23577615475225, .negSucc 0), (27342575538250, .negSucc 3), (27517593463675, .ofNat 1), (28373062690525, .ofNat 1), (29180574215615, .ofNat 1), (30087742325945, .ofNat 1), (30270380404285, .negSucc 0), (30381629182625, .ofNat 4), (31211428499755, .negSucc 0), (31277278539775, .ofNat 4), (31824964970750, .negSucc 3), (32168454330775, .negSucc 0), (32985768826850, .ofNat 4), (33168509905825, .negSucc 0), (34978039291565, .negSucc 0), (36065439476795, .negSucc 0), (39893265949250, .negSucc 3), (40240217750075, .ofNat 2), (41236536846925, .ofNat 2), (41686421436625, .negSucc 1), (42678750810875, .ofNat 2), (43099520468375, .ofNat 2), (43689379271510, .ofNat 4), (44355815413370, .negSucc 1), (45259543274050, .negSucc 3), (48858044814250, .negSucc 3), (50165015627125, .ofNat 4), (51605840055830, .ofNat 1), (53210166689690, .ofNat 1), (54464874109450, .ofNat 4), (55183390510675, .negSucc 1), (55909408894850, .negSucc 1), (57647525233550, .negSucc 1), (58643609817625, .negSucc 1), (60544274406125, .ofNat 2), (62882906912875, .ofNat 2), (63670204944850, .negSucc 3), (70469565292375, .ofNat 2), (73039916688025, .negSucc 5), (77013897230375, .ofNat 2), (77307597190250, .ofNat 4), (80121952530095, .ofNat 3), (81323162573450, .negSucc 0), (82612790432585, .ofNat 3), (83336666088550, .negSucc 1), (83851343793350, .negSucc 0), (85927443272650, .negSucc 1), (88335088887625, .ofNat 2), (93339513840685, .ofNat 2), (96241260384955, .ofNat 2), (97550318976355, .ofNat 3), (100217560106825, .ofNat 6), (100582971379765, .ofNat 3), (101923751966750, .negSucc 3), (108185670660125, .ofNat 2), (111522454121050, .negSucc 0), (114989473420150, .negSucc 0), (115232078830750, .ofNat 4), (120600792670925, .negSucc 5), (123535876785055, .negSucc 0), (123799405410025, .ofNat 2), (127376370363865, .negSucc 0), (127648091588575, .ofNat 2), (140984025235025, .ofNat 6), (146063608580225, .ofNat 2), (148079428464205, .ofNat 1), (151924083120250, .negSucc 3), (152682934012315, .ofNat 1), (170159435512675, .negSucc 1), (184531189196075, .ofNat 2), (184744529985190, .negSucc 5), (190267910103725, .ofNat 2), (193078869683770, .negSucc 3), (210349179145525, .ofNat 1), (216888531865075, .ofNat 1), (225207891003025, .negSucc 1), (225688307926375, .ofNat 8), (228379108786570, .ofNat 2), (235478977453510, .ofNat 2), (237411168157975, .negSucc 0), (244791826235425, .negSucc 0), (246942576982325, .ofNat 1), (254619548287475, .ofNat 1), (269094429903250, .negSucc 3), (295186140900350, .ofNat 1), (304362912120050, .ofNat 1), (336403326909125, .ofNat 8), (343882419413050, .ofNat 1), (354573064576150, .ofNat 1), (359395912018150, .ofNat 1), (369222589867250, .ofNat 4), (370568841925450, .ofNat 1), (386240339635325, .negSucc 7), (409077173538635, .ofNat 4), (427531782871205, .ofNat 2), (430924406293325, .negSucc 0), (444318709840250, .negSucc 3), (444321019960475, .negSucc 0), (455132177629150, .negSucc 0), (469281364498450, .negSucc 0), (469901897597650, .ofNat 2), (488767173094550, .ofNat 4), (505696598027405, .negSucc 0), (519414829813250, .ofNat 4), (521417735789915, .negSucc 0), (545555789078650, .ofNat 1), (562516072676950, .ofNat 1), (575716732663975, .negSucc 7), (591268371425725, .ofNat 1), (595851951928625, .ofNat 2), (609649771573675, .ofNat 1), (653626454850775, .negSucc 0), (673946448265825, .negSucc 0), (709651579552270, .negSucc 1), (711526345275025, .negSucc 0), (731713286688610, .negSucc 1), (733646335283575, .negSucc 0), (761453928700325, .negSucc 0), (785126071561475, .negSucc 0), (785582126007875, .negSucc 3), (795805233754475, .negSucc 0), (817564306134625, .negSucc 1), (820545292834925, .negSucc 0), (831784319124325, .ofNat 1), (857642898993475, .ofNat 1), (864017110933430, .negSucc 1), (890877746506490, .negSucc 1), (983848571789125, .ofNat 2), (1007792679035975, .ofNat 1), (1039123021389425, .ofNat 1), (1040497058966225, .negSucc 1), (1077891754289875, .ofNat 2), (1082270168995075, .negSucc 1), (1114430457825125, .negSucc 1), (1150132837443625, .negSucc 1), (1208016390102725, .negSucc 0), (1245571303784675, .negSucc 0), (1293706247424850, .negSucc 3), (1297123975501375, .negSucc 3), (1422990724972250, .negSucc 3), (1507126428826550, .ofNat 2), (1516356196712875, .ofNat 2), (1575117094788650, .negSucc 1), (1625972307318625, .negSucc 1), (1780694539017835, .ofNat 6), (1807857186283645, .negSucc 3), (1863092729574650, .negSucc 0), (1921012710804950, .negSucc 0), (1991359342671125, .negSucc 1), (1994698463169650, .ofNat 4), (1998953584490750, .negSucc 3), (2102784632256350, .ofNat 1), (2103354158404555, .ofNat 2), (2121061646656750, .negSucc 3), (2168156175228050, .ofNat 1), (2168743406852365, .ofNat 2), (2718641824399025, .ofNat 1), (2803159186815575, .ofNat 1), (2864635262155025, .ofNat 2), (2883652027987150, .ofNat 1), (2892591750791225, .negSucc 0), (2951668266490370, .ofNat 2), (2973299241292450, .ofNat 1), (2979572324052250, .negSucc 3), (2982516882940175, .negSucc 0), (3043429974256910, .ofNat 2), (3140528186573330, .negSucc 1), (3150908033867125, .ofNat 8), (3238161187192190, .negSucc 1), (3314574706824325, .negSucc 0), (3365135104256275, .ofNat 1), (3417618480093475, .negSucc 0), (3464104392846475, .negSucc 0), (3469750703352325, .ofNat 1), (3487759281317725, .ofNat 2), (3571796757390925, .negSucc 0), (3653575256049670, .ofNat 2), (3761027626519030, .negSucc 1), (3767157906496810, .ofNat 2), (3877950765167290, .negSucc 1), (4399836832542025, .ofNat 2), (4416832311304225, .negSucc 1), (4598325712205575, .ofNat 2), (4696636503311375, .ofNat 8), (5273241301892375, .negSucc 1), (5380938740520350, .ofNat 2), (5439028775048575, .negSucc 0), (5608117752511225, .negSucc 0), (5725233413483150, .negSucc 3), (6315118043681125, .negSucc 1), (6385229490542975, .negSucc 0), (6535836875800105, .negSucc 0), (6560453564802550, .ofNat 2), (6583734034290425, .negSucc 0), (6739023514426015, .negSucc 0), (6856413875996650, .negSucc 3), (6954026698840945, .ofNat 1), (6958013116069750, .ofNat 4), (7170214057354135, .ofNat 1), (7632670214709050, .negSucc 0), (7749199530964150, .ofNat 1), (7777875176031625, .negSucc 1), (7869955299104150, .negSucc 0), (7990107288403450, .ofNat 1), (8090059495538555, .negSucc 0), (8327989744434995, .ofNat 1), (8341563935814365, .negSucc 0), (8444550191120050, .negSucc 1), (8586890980013285, .ofNat 1), (8891816844823150, .negSucc 0), (9168246384040450, .negSucc 0), (9292951439326450, .negSucc 0), (9547041252281750, .negSucc 3), (9581851484072350, .negSucc 0), (10967768134927625, .negSucc 1), (11488812354440750, .ofNat 4), (11768417735839450, .ofNat 1), (11914935782580775, .negSucc 3), (12134275282031350, .ofNat 1), (12677302558426975, .ofNat 6), (13430583456599750, .negSucc 3), (14106513974747950, .negSucc 0), (14526718607777075, .negSucc 1), (14545058450646850, .negSucc 0), (14748308624945525, .negSucc 1), (15048798138621625, .ofNat 2), (15182059296849725, .ofNat 6), (15407029042725875, .negSucc 1), (16900912618284325, .ofNat 1), (17158941818563475, .negSucc 0), (17426329590873475, .ofNat 1), (17692380424321925, .negSucc 0), (18109570641392125, .negSucc 1), (18698646851765825, .ofNat 2), (19689023013536975, .ofNat 1), (19921203974353675, .ofNat 2), (20301116993232425, .ofNat 1), (20577249615651425, .ofNat 1), (21139877058623875, .ofNat 2), (21170343144162625, .ofNat 2), (21216956857588775, .ofNat 1), (24079399016105650, .negSucc 0), (24827981368937950, .negSucc 0), (25439513070547375, .negSucc 1), (25620098364150850, .ofNat 1), (26058639272215925, .negSucc 0), (26416578106041550, .ofNat 1), (26868752410212275, .negSucc 0), (28924024863364295, .negSucc 3), (29739149082470875, .ofNat 2), (29805482351984150, .negSucc 0), (29823217346163185, .negSucc 3), (30682067479497350, .ofNat 1), (30732077658263450, .negSucc 0), (31235852372656175, .ofNat 1), (31635914136891050, .ofNat 1), (32206915140718025, .ofNat 1), (35215665150464155, .negSucc 3), (36310452668095165, .negSucc 3), (36794474459996750, .ofNat 4), (38969983373943650, .negSucc 1), (40728027736677950, .negSucc 1), (46705851531046750, .ofNat 4), (48174254864715950, .ofNat 1), (49671900093670850, .ofNat 1), (52728962697461225, .negSucc 9), (54844594006410250, .ofNat 4), (55933902672604250, .ofNat 4), (61427556220075675, .ofNat 2), (64198724169853525, .negSucc 7), (68889751559137250, .ofNat 4), (70296310030889075, .negSucc 0), (72481687544802725, .negSucc 0), (74794158127601675, .ofNat 1), (75936053671534525, .negSucc 0), (77119365116024525, .ofNat 1), (78296760003292075, .negSucc 0), (81300048652092025, .ofNat 2), (81473479161421375, .negSucc 7), (85705431705028975, .ofNat 1), (87012779124340825, .negSucc 0), (88369849270988425, .ofNat 1), (89571842157887425, .ofNat 1), (89717839615252975, .negSucc 0), (92356459012536775, .ofNat 1), (103420099818746375, .negSucc 1), (105532288360001150, .ofNat 2), (106562196865026350, .negSucc 1), (109875011275338050, .negSucc 1), (112284679803210350, .negSucc 1), (121441601014194125, .negSucc 7), (123853641632195125, .negSucc 1), (129741924238552150, .negSucc 1), (130627876392374650, .ofNat 2), (133775351935087450, .negSucc 1), (134469668057811850, .negSucc 1), (136350953663217125, .ofNat 2), (152541592738089625, .negSucc 1), (163290909415183375, .ofNat 2), (169634585032751650, .negSucc 1), (172222184588073550, .ofNat 2), (194264599411699250, .negSucc 3), (200372159300644450, .negSucc 0), (201113629551674875, .ofNat 2), (206601345600146350, .negSucc 0), (235959150201129775, .ofNat 2), (236521615362618250, .negSucc 3), (243294667823962825, .ofNat 2), (283595147488842875, .ofNat 2), (287285689385365475, .ofNat 2), (296216850713407925, .ofNat 2), (375619438286807225, .ofNat 2), (381349123016448575, .negSucc 1), (389118923298644875, .negSucc 1), (430157327268762625, .ofNat 8), (443681209879998425, .ofNat 1), (457474408114609775, .ofNat 1), (467027955320370850, .ofNat 12), (468261755155996375, .ofNat 2), (523726434017226125, .ofNat 8), (547404587013347875, .negSucc 1), (568617271218702650, .ofNat 12), (622624460273588950, .ofNat 1), (641980661111109850, .ofNat 1), (662462543415900550, .negSucc 0), (683057233884788650, .negSucc 0), (770684615101304450, .ofNat 1), (793350601969860050, .negSucc 0), (794643722306526350, .ofNat 1), (818014351253897150, .negSucc 0), (981429698608048025, .negSucc 0), (1011940466440422575, .negSucc 0), (1034133329637964025, .negSucc 3), (1044225622035632225, .ofNat 1), (1076688594741403175, .ofNat 1), (1207679875302780250, .negSucc 3), (1214813772636515275, .negSucc 0), (1250541685817577475, .ofNat 1), (1252580003910189325, .negSucc 0), (1259081100555698725, .negSucc 3), (1289418629418123925, .ofNat 1), (1446290911963052750, .negSucc 3), (1588341096547671025, .negSucc 1), (1659995582106212575, .negSucc 1), (1781292147457691750, .negSucc 3), (1789162131223016375, .negSucc 1), (1903640109983147375, .ofNat 4), (1942518885327846350, .negSucc 3), (1963489387792535575, .ofNat 1), (2024530508656552225, .ofNat 1), (2066809262267417150, .ofNat 4), (2214625053197465125, .negSucc 1), (2279757613768886125, .ofNat 4), (2404450057757247850, .negSucc 3), (2475165409234790650, .ofNat 4), (2674148295313299125, .ofNat 2), (2755393947509967050, .ofNat 2), (2807812938547416625, .ofNat 2), (2841053862976598150, .ofNat 2), (3202501305061045375, .ofNat 2), (3354755469596848450, .ofNat 2), (3459048385750118350, .ofNat 2), (3809964898666183250, .negSucc 3), (3944289755084888875, .ofNat 2), (4301291817511659775, .ofNat 6), (4576506223592137975, .negSucc 5), (4638719844152574250, .negSucc 3), (5023127499073937750, .ofNat 4), (5324139413605334525, .ofNat 6), (5480723406162750725, .negSucc 5), (6101229455200641325, .negSucc 1), (6115773197233414750, .ofNat 4), (6290904982305324475, .negSucc 1), (7428387111250164425, .negSucc 1), (7659321425589547775, .negSucc 1), (11122639462235147875, .negSucc 7), (13542069222445418375, .negSucc 7), (15846864590832430750, .ofNat 4), (16860812402707876750, .negSucc 3), (19035155533783502225, .ofNat 8), (19615250471177548250, .ofNat 4), (20192138864810134250, .negSucc 3), (23175739425317122525, .ofNat 8), (25376967921150956075, .ofNat 1), (26165889203673783725, .ofNat 1), (27000691084064204675, .negSucc 0), (27840090806884853525, .negSucc 0), (31411613263887037825, .ofNat 1), (32335435018997360425, .negSucc 0), (32388140101106323975, .ofNat 1), (33340681703525775775, .negSucc 0), (35089485879700382375, .negSucc 1), (37334656034567441375, .ofNat 2), (43433768900464571125, .negSucc 1), (44711164629222440125, .ofNat 2), (46262620821623709125, .ofNat 2), (49222694272421382125, .negSucc 3), (57263876375534455375, .ofNat 2), (58948018298881198375, .negSucc 3), (70129520387623429250, .ofNat 4), (72602020268154629875, .negSucc 1), (85384303145905188250, .ofNat 4), (98514806665511309750, .ofNat 4), (119944041684516562750, .ofNat 4), (155286795144023307625, .negSucc 7), (189065242680218631125, .negSucc 7), (409754641562952852250, .negSucc 3), (435972434984303670250, .ofNat 4), (507194333611876604750, .negSucc 3), (522111019218662042750, .ofNat 4), (645887529371508911375, .ofNat 2), (687214079703916202375, .negSucc 1), (799479644204284910125, .ofNat 2), (822992498570567891125, .negSucc 1), (907313849175109887125, .ofNat 2), (965367534608100984125, .negSucc 1), (1123073167283441053375, .ofNat 2), (1156102971127037380375, .negSucc 1), (1813349027165691527750, .negSucc 3), (2207794124201262724750, .negSucc 3), (4015272845866888382875, .ofNat 8), (4888686989302796033375, .ofNat 8), (16700806116606158994125, .negSucc 1), (17769392632344118947125, .ofNat 2), (20672259371567938390375, .negSucc 1), (21280234605896112613375, .ofNat 2)])

def upr295 : Tr := .node (.node (.node (.node (.node (.leaf [(181, .ofNat 1)]) .nil) .nil) .nil) (.node (.node (.node .nil (.leaf [(19, .negSucc 0), (70, .negSucc 0), (155, .ofNat 1)])) (.node (.leaf [(91586, .negSucc 0)]) .nil)) (.node .nil (.node (.leaf [(911335, .ofNat 1), (1358405, .ofNat 1), (1839865, .negSucc 0), (3669413, .negSucc 0), (4020191, .negSucc 0), (4164629, .negSucc 0), (28096630, .ofNat 1), (38551190, .negSucc 0), (46392110, .ofNat 1), (54233030, .negSucc 0), (157361762, .negSucc 0), (328991935, .negSucc 1), (490384205, .negSucc 1), (1516760633, .ofNat 1), (5588065490, .negSucc 0), (16968490265, .ofNat 1), (44913494755, .negSucc 0), (52322785865, .negSucc 0), (54683212295, .negSucc 0), (69249784595, .ofNat 1), (83008019945, .negSucc 0), (128021142530, .negSucc 0), (1179064950095, .negSucc 0), (1654599432730, .negSucc 0), (1760467534570, .ofNat 1), (2048063332430, .negSucc 0), (2108297279870, .ofNat 1), (16213771606555, .ofNat 2), (19740639638495, .ofNat 2)]) .nil)))) (.node (.node (.node (.node .nil (.leaf [(19708824899890, .ofNat 1), (19771936616530, .negSucc 0), (43640969421185, .negSucc 0), (43780716793745, .ofNat 1), (737799229781170, .ofNat 1), (740161814875090, .negSucc 0), (15420003902426453, .ofNat 1), (15469381930889381, .negSucc 0), (125794768677689485, .negSucc 0), (126197589436202845, .ofNat 1)])) .nil) (.node (.node (.leaf [(7, .ofNat 1), (62, .negSucc 0)]) .nil) .nil)) (.node (.node upr294 .nil) .nil))

def upr296 : Tr := .node (.leaf [(2, .negSucc 0)]) (.leaf [(19972666937510, .ofNat 1), (20992096471570, .negSucc 0), (44225191075915, .negSucc 0), (46482499329905, .ofNat 1), (747676148021030, .ofNat 1), (785838460024210, .negSucc 0), (3880978768335965, .negSucc 0), (4079068707445255, .ofNat 1), (5784855145255495, .negSucc 0), (6080121280908965, .ofNat 1), (6603451639194695, .negSucc 0), (6929093772259885, .ofNat 1), (7835183551168835, .ofNat 1), (8235100975408345, .negSucc 0), (11104596308982910, .ofNat 1), (11122875897776590, .negSucc 0), (15626431493639527, .ofNat 1), (16424023814505989, .negSucc 0), (17120242189376389, .ofNat 1), (17735340711150391, .ofNat 1), (17994080449069823, .negSucc 0), (18640574357419637, .negSucc 0), (30269457560428765, .negSucc 0), (30319284967190485, .ofNat 1), (31356982981761535, .negSucc 0), (31408600594754215, .ofNat 1), (32863982494179802, .negSucc 0), (32918080821521098, .ofNat 1), (34044724380198238, .negSucc 0), (34100766360018862, .ofNat 1), (63074576487176170, .ofNat 1), (65340728935817230, .ofNat 1), (66293980601836190, .negSucc 0), (68675800264177610, .negSucc 0), (110835116324468665, .negSucc 0), (111017565131605585, .ofNat 1), (118847293408165195, .negSucc 0), (119042931285697555, .ofNat 1), (119651307687942770, .negSucc 0), (125758457886142390, .ofNat 1), (127478783237585615, .negSucc 0), (133985457434127805, .ofNat 1), (139665133650175805, .negSucc 0), (144683042643595295, .negSucc 0), (146793814189780135, .ofNat 1), (152067843442107565, .ofNat 1), (164172724502061010, .ofNat 1), (172552302680986070, .negSucc 0), (197563787112649690, .negSucc 0), (207647686277118830, .ofNat 1), (211549587911636450, .negSucc 0), (211897825647516050, .ofNat 1), (230954849723238370, .ofNat 1), (242743069873251590, .negSucc 0), (268100909820940490, .ofNat 1), (268542238280830010, .negSucc 0), (277733277838459310, .ofNat 1), (278190462410680190, .negSucc 0), (300105229363019150, .negSucc 0), (300599241034848350, .ofNat 1), (321597542978759491, .negSucc 0), (322126933753456459, .ofNat 1), (349302807947120650, .negSucc 0), (349877805138921850, .ofNat 1), (357350658746422390, .negSucc 0), (375590276754457730, .ofNat 1), (437858449398503350, .negSucc 0), (438579220526254150, .ofNat 1), (468431230375766425, .ofNat 1), (469202328219499825, .negSucc 0), (536253606566706350, .negSucc 0), (537136348734401150, .ofNat 1), (537914448493501135, .ofNat 1), (565370264850304445, .negSucc 0), (617229784195938235, .ofNat 1), (648733953032254145, .negSucc 0), (664518722160970975, .ofNat 1), (665612605148592775, .negSucc 0), (670135194269875798, .ofNat 1), (704339720435018786, .negSucc 0), (773456217597195725, .ofNat 1), (774729425664755525, .negSucc 0), (791276458652792435, .ofNat 1), (831664184242013545, .negSucc 0), (969543709382400275, .ofNat 1), (971139702593848475, .negSucc 0), (1184833053079640230, .negSucc 0), (1186783440144313270, .ofNat 1), (1187418700254849775, .ofNat 1), (1189373343626173975, .negSucc 0), (1229112504171720490, .ofNat 1), (1289724868659997070, .negSucc 0), (1401033335369283365, .ofNat 2), (1458377012721885970, .negSucc 0), (1472543803387737055, .negSucc 1), (1532814372700624790, .ofNat 1), (1533267955548404810, .ofNat 1), (1591864183148980790, .ofNat 1), (1611527841541812670, .negSucc 0), (1673114892810926530, .negSucc 0), (1748120790083850070, .ofNat 1), (1837347029528563490, .negSucc 0), (2088332707437233695, .ofNat 2), (2194923782408136365, .negSucc 1), (2477098081709510525, .ofNat 2), (2481175702640100725, .negSucc 1), (2623558903247774795, .ofNat 1), (2627877617462407955, .negSucc 0), (2721606259237381085, .negSucc 0), (2855819352032850655, .ofNat 1), (3229263385312747505, .ofNat 1), (3394088968122812035, .negSucc 0), (3395093330142896365, .negSucc 0), (3524842119829886035, .negSucc 0), (3568383077699728055, .ofNat 1), (3692278272736817575, .ofNat 2), (3698356236010716175, .negSucc 1), (3704754405509908745, .ofNat 1), (3870838892328525155, .negSucc 0), (4068411279670390585, .ofNat 1), (4764385115228152910, .negSucc 0), (5007565202959839370, .ofNat 1), (5466892374306881510, .negSucc 0), (5745929298285679570, .ofNat 1), (6459222803163291907, .negSucc 0), (6788909495141914649, .ofNat 1), (10927274179314784165, .ofNat 1), (10945261873155765085, .negSucc 0), (11319870856415914135, .ofNat 1), (11338504814706271615, .negSucc 0), (11420233916727481195, .negSucc 1), (11439033085478581555, .ofNat 2), (21084552162209831890, .negSucc 0), (21940011580855664650, .negSucc 1), (21976127651955177850, .ofNat 2), (22160733688384374230, .ofNat 1), (24171158760305257225, .negSucc 0), (24210947585626869025, .ofNat 1), (32703036129954669950, .negSucc 1), (32756869518952057550, .ofNat 2), (37278558900918467650, .negSucc 0), (37339924186838724850, .ofNat 1), (42074546008995983350, .negSucc 0), (42143806104394774150, .ofNat 1), (46687222644893199185, .ofNat 1), (49070196024279685795, .negSucc 0), (52693659710016328715, .ofNat 1), (55383209039315619505, .negSucc 0), (72261408207937270435, .negSucc 0), (75949719535133559545, .ofNat 1), (76369401236100758450, .ofNat 1), (76495115058753294050, .negSucc 0), (82545380423462321225, .ofNat 2), (82681260699428605025, .negSucc 1), (93165066162776820275, .ofNat 2), (93318427802588428475, .negSucc 1), (101150643262443404870, .ofNat 1), (101317150185667436630, .negSucc 0), (104785922626277784850, .negSucc 0), (104958413685266147650, .ofNat 1), (126098313668910554650, .ofNat 1), (126305887655150787850, .negSucc 0), (147410704711543324450, .negSucc 0), (147653361625035428050, .ofNat 1), (169103674165651679425, .negSucc 0), (169382040487239436825, .ofNat 1), (191267008900046332145, .ofNat 1), (194187115906153909735, .negSucc 0), (201029512744629680515, .negSucc 0), (204098665610959904645, .ofNat 1), (214087406162703706850, .ofNat 2), (214439821472695125650, .negSucc 1), (232025971529615095025, .ofNat 1), (232407916017375041225, .negSucc 0), (232871980008781839805, .ofNat 1), (244758052851169028135, .negSucc 0), (248544107093581479085, .ofNat 1), (260800793084032264655, .negSucc 0), (279217694552587656725, .negSucc 0), (279677322664976744525, .ofNat 1), (294904665929689941505, .negSucc 0), (309956963508247770035, .ofNat 1), (326409417575560218425, .ofNat 1), (326946729312578447825, .negSucc 0), (343332681785939932975, .negSucc 0), (343897851384892530775, .ofNat 1), (353494996909098539155, .ofNat 1), (371537817185383088585, .negSucc 0), (393956990148980376475, .negSucc 0), (394605493847984162275, .ofNat 1), (427724732161750123030, .negSucc 1), (428428821892097090470, .ofNat 2), (447020584740475692490, .negSucc 0), (447756437917304478010, .ofNat 1), (474050685074558208025, .negSucc 0), (474831033260967778225, .ofNat 1), (545186277337139938870, .ofNat 1), (573013256799653105090, .negSucc 0), (731116226607809130850, .negSucc 0), (732319737623510501650, .ofNat 1), (825176300298880408150, .negSucc 0), (826534646251497509350, .ofNat 1), (894232407497133299525, .negSucc 1), (895704428653076361725, .ofNat 2), (947104764072446700995, .ofNat 1), (948663819903929271755, .negSucc 0), (1332912456457991144575, .negSucc 1), (1335106601199868539175, .ofNat 2), (3040946610104039406350, .ofNat 2), (3045952397980476701150, .negSucc 1), (3489333341319540477350, .ofNat 2), (3495077231225002580150, .negSucc 1), (4122704443938620711395, .ofNat 2), (4129490943857767941355, .negSucc 1), (4185592021868554775365, .negSucc 0), (4192482042801235813885, .ofNat 1), (5021123997001979666005, .ofNat 1), (5277408353654820391535, .negSucc 0), (6733524636658944399775, .negSucc 0), (6744608881242484123975, .ofNat 1), (7046218205737584724670, .ofNat 1), (7405865866454830825690, .negSucc 0), (7497064333105753082030, .negSucc 0), (7726380970064696771275, .negSucc 0), (7739099583426791427475, .ofNat 1), (7879723735769815351210, .ofNat 1), (8721809553422433510970, .ofNat 1), (8725788312470197858225, .ofNat 1), (8740152078411299718025, .negSucc 0), (8978319696396975750730, .negSucc 0), (9166981461461769499790, .negSucc 0), (9436584198247261362110, .ofNat 1), (13255190443483723711550, .negSucc 0), (13277010185863083735950, .ofNat 1), (13457559763231566821650, .ofNat 1), (13479712631448779670850, .negSucc 0), (15188911109247549989350, .ofNat 1), (15213914003686513468150, .negSucc 0), (15874125144251198861050, .negSucc 0), (15900255988815228361450, .ofNat 1), (19551014414406909486850, .negSucc 0), (19583197889974190345650, .ofNat 1), (29350778839142531075575, .ofNat 1), (29399093982982542558175, .negSucc 0), (29798882332869897962225, .negSucc 1), (29847935112493726414025, .ofNat 2), (33632588884762432119275, .negSucc 1), (33687952436734422679475, .ofNat 2), (35149848533699083192325, .ofNat 1), (35207709689519434228925, .negSucc 0), (43291531917615299578025, .ofNat 1), (43362795327799992908225, .negSucc 0), (69047390212916725904345, .negSucc 1), (72571654100811314665915, .ofNat 2), (84066784783170244169605, .negSucc 1), (88357657079272019156735, .ofNat 2), (122079292137886356167825, .negSucc 1), (122280250299571072728425, .ofNat 2), (123943098124724315803975, .ofNat 1), (124147124349946203609775, .negSucc 0), (142218473443781915907475, .ofNat 1), (142452583279122282581275, .negSucc 0), (148634344426208167752925, .negSucc 1), (148879015607503738938325, .ofNat 2), (1081273730364136297486450, .ofNat 2), (1083053645510486644166050, .negSucc 1), (1316475622060700914383050, .ofNat 2), (1318642709666461687739450, .negSucc 1), (4497363846239996602029950, .negSucc 0), (4504767083555190816697550, .ofNat 1), (4785123750097624259869550, .ofNat 1), (4793000677096573228677950, .negSucc 0), (5566837389085177851235450, .negSucc 0), (5576001116925643632467050, .ofNat 1), (5730559177074682788839050, .ofNat 1), (5739992411962297438483450, .negSucc 0), (9958448516674278190209175, .ofNat 1), (9974841399300779665544575, .negSucc 0), (10595631160930453718282575, .negSucc 0), (10613072927856697863501175, .ofNat 1), (12326568504402893813449925, .ofNat 1), (12346859616049639471891325, .negSucc 0), (12689095320665369032429325, .negSucc 0), (12709983197916515756641925, .ofNat 1), (44070624461776974576584825, .ofNat 2), (44143170358145157254961425, .negSucc 1), (53656998337861148558805925, .ofNat 2), (53745324634308849756735325, .negSucc 1)])

def upr297 : Tr := .node (.node (.node (.node (.node (.leaf [(14, .negSucc 0)]) .nil) .nil) (.node upr296 .nil)) .nil) .nil

def upr298 : Tr := .node (.node (.node (.node upr276 upr278) (.node upr279 upr280)) (.node (.node upr281 upr282) (.node upr283 upr284))) (.node (.node (.node upr286 upr288) (.node upr290 upr291)) (.node (.node upr292 upr293) (.node upr295 upr297)))

def upr299 : Tr := .node (.node (.node .nil (.node (.node (.leaf [(63, .negSucc 0)]) .nil) .nil)) (.node (.node (.node (.leaf [(9, .negSucc 0)]) .nil) .nil) (.node (.node (.leaf [(665, .ofNat 1), (2450, .ofNat 1), (5425, .negSucc 0), (63350, .negSucc 0), (140275, .ofNat 1)]) .nil) (.node (.leaf [(395485, .ofNat 1)]) .nil)))) .nil

def upr300 : Tr := .node (.leaf [(1169, .negSucc 0), (1211, .negSucc 0), (6623, .ofNat 1), (27029, .ofNat 1), (30227, .ofNat 1), (31313, .ofNat 1), (39878, .negSucc 0), (45758, .negSucc 0), (390773, .ofNat 1), (441047, .ofNat 1)]) (.leaf [(19972666937510, .negSucc 0), (20992096471570, .ofNat 1), (44225191075915, .ofNat 1), (46482499329905, .negSucc 0), (747676148021030, .negSucc 0), (785838460024210, .ofNat 1), (3880978768335965, .ofNat 1), (4079068707445255, .negSucc 0), (5784855145255495, .ofNat 1), (6080121280908965, .negSucc 0), (6603451639194695, .ofNat 1), (6929093772259885, .negSucc 0), (7835183551168835, .negSucc 0), (8235100975408345, .ofNat 1), (11104596308982910, .negSucc 0), (11122875897776590, .ofNat 1), (15626431493639527, .negSucc 0), (16424023814505989, .ofNat 1), (17120242189376389, .negSucc 0), (17735340711150391, .negSucc 0), (17994080449069823, .ofNat 1), (18640574357419637, .ofNat 1), (30269457560428765, .ofNat 1), (30319284967190485, .negSucc 0), (31356982981761535, .ofNat 1), (31408600594754215, .negSucc 0), (32863982494179802, .ofNat 1), (32918080821521098, .negSucc 0), (34044724380198238, .ofNat 1), (34100766360018862, .negSucc 0), (63074576487176170, .negSucc 0), (65340728935817230, .negSucc 0), (66293980601836190, .ofNat 1), (68675800264177610, .ofNat 1), (110835116324468665, .ofNat 1), (111017565131605585, .negSucc 0), (118847293408165195, .ofNat 1), (119042931285697555, .negSucc 0), (119651307687942770, .ofNat 1), (125758457886142390, .negSucc 0), (127478783237585615, .ofNat 1), (133985457434127805, .negSucc 0), (139665133650175805, .ofNat 1), (144683042643595295, .ofNat 1), (146793814189780135, .negSucc 0), (152067843442107565, .negSucc 0), (164172724502061010, .negSucc 0), (172552302680986070, .ofNat 1), (197563787112649690, .ofNat 1), (207647686277118830, .negSucc 0), (211549587911636450, .ofNat 1), (211897825647516050, .negSucc 0), (230954849723238370, .negSucc 0), (242743069873251590, .ofNat 1), (268100909820940490, .negSucc 0), (268542238280830010, .ofNat 1), (277733277838459310, .negSucc 0), (278190462410680190, .ofNat 1), (300105229363019150, .ofNat 1), (300599241034848350, .negSucc 0), (321597542978759491, .ofNat 1), (322126933753456459, .negSucc 0), (349302807947120650, .ofNat 1), (349877805138921850, .negSucc 0), (357350658746422390, .ofNat 1), (375590276754457730, .negSucc 0), (437858449398503350, .ofNat 1), (438579220526254150, .negSucc 0), (468431230375766425, .negSucc 0), (469202328219499825, .ofNat 1), (536253606566706350, .ofNat 1), (537136348734401150, .negSucc 0), (537914448493501135, .negSucc 0), (565370264850304445, .ofNat 1), (617229784195938235, .negSucc 0), (648733953032254145, .ofNat 1), (664518722160970975, .negSucc 0), (665612605148592775, .ofNat 1), (670135194269875798, .negSucc 0), (704339720435018786, .ofNat 1), (773456217597195725, .negSucc 0), (774729425664755525, .ofNat 1), (791276458652792435, .negSucc 0), (831664184242013545, .ofNat 1), (969543709382400275, .negSucc 0), (971139702593848475, .ofNat 1), (1184833053079640230, .ofNat 1), (1186783440144313270, .negSucc 0), (1187418700254849775, .negSucc 0), (1189373343626173975, .ofNat 1), (1229112504171720490, .negSucc 0), (1289724868659997070, .ofNat 1), (1401033335369283365, .negSucc 1), (1458377012721885970, .ofNat 1), (1472543803387737055, .ofNat 2), (1532814372700624790, .negSucc 0), (1533267955548404810, .negSucc 0), (1591864183148980790, .negSucc 0), (1611527841541812670, .ofNat 1), (1673114892810926530, .ofNat 1), (1748120790083850070, .negSucc 0), (1837347029528563490, .ofNat 1), (2088332707437233695, .negSucc 1), (2194923782408136365, .ofNat 2), (2477098081709510525, .negSucc 1), (2481175702640100725, .ofNat 2), (2623558903247774795, .negSucc 0), (2627877617462407955, .ofNat 1), (2721606259237381085, .ofNat 1), (2855819352032850655, .negSucc 0), (3229263385312747505, .negSucc 0), (3394088968122812035, .ofNat 1), (3395093330142896365, .ofNat 1), (3524842119829886035, .ofNat 1), (3568383077699728055, .negSucc 0), (3692278272736817575, .negSucc 1), (3698356236010716175, .ofNat 2), (3704754405509908745, .negSucc 0), (3870838892328525155, .ofNat 1), (4068411279670390585, .negSucc 0), (4764385115228152910, .ofNat 1), (5007565202959839370, .negSucc 0), (5466892374306881510, .ofNat 1), (5745929298285679570, .negSucc 0), (6459222803163291907, .ofNat 1), (6788909495141914649, .negSucc 0), (10927274179314784165, .negSucc 0), (10945261873155765085, .ofNat 1), (11319870856415914135, .negSucc 0), (11338504814706271615, .ofNat 1), (11420233916727481195, .ofNat 2), (11439033085478581555, .negSucc 1), (21084552162209831890, .ofNat 1), (21940011580855664650, .ofNat 2), (21976127651955177850, .negSucc 1), (22160733688384374230, .negSucc 0), (24171158760305257225, .ofNat 1), (24210947585626869025, .negSucc 0), (32703036129954669950, .ofNat 2), (32756869518952057550, .negSucc 1), (37278558900918467650, .ofNat 1), (37339924186838724850, .negSucc 0), (42074546008995983350, .ofNat 1), (42143806104394774150, .negSucc 0), (46687222644893199185, .negSucc 0), (49070196024279685795, .ofNat 1), (52693659710016328715, .negSucc 0), (55383209039315619505, .ofNat 1), (72261408207937270435, .ofNat 1), (75949719535133559545, .negSucc 0), (76369401236100758450, .negSucc 0), (76495115058753294050, .ofNat 1), (82545380423462321225, .negSucc 1), (82681260699428605025, .ofNat 2), (93165066162776820275, .negSucc 1), (93318427802588428475, .ofNat 2), (101150643262443404870, .negSucc 0), (101317150185667436630, .ofNat 1), (104785922626277784850, .ofNat 1), (104958413685266147650, .negSucc 0), (126098313668910554650, .negSucc 0), (126305887655150787850, .ofNat 1), (147410704711543324450, .ofNat 1), (147653361625035428050, .negSucc 0), (169103674165651679425, .ofNat 1), (169382040487239436825, .negSucc 0), (191267008900046332145, .negSucc 0), (194187115906153909735, .ofNat 1), (201029512744629680515, .ofNat 1), (204098665610959904645, .negSucc 0), (214087406162703706850, .negSucc 1), (214439821472695125650, .ofNat 2), (232025971529615095025, .negSucc 0), (232407916017375041225, .ofNat 1), (232871980008781839805, .negSucc 0), (244758052851169028135, .ofNat 1), (248544107093581479085, .negSucc 0), (260800793084032264655, .ofNat 1), (279217694552587656725, .ofNat 1), (279677322664976744525, .negSucc 0), (294904665929689941505, .ofNat 1), (309956963508247770035, .negSucc 0), (326409417575560218425, .negSucc 0), (326946729312578447825, .ofNat 1), (343332681785939932975, .ofNat 1), (343897851384892530775, .negSucc 0), (353494996909098539155, .negSucc 0), (371537817185383088585, .ofNat 1), (393956990148980376475, .ofNat 1), (394605493847984162275, .negSucc 0), (427724732161750123030, .ofNat 2), (428428821892097090470, .negSucc 1), (447020584740475692490, .ofNat 1), (447756437917304478010, .negSucc 0), (474050685074558208025, .ofNat 1), (474831033260967778225, .negSucc 0), (545186277337139938870, .negSucc 0), (573013256799653105090, .ofNat 1), (731116226607809130850, .ofNat 1), (732319737623510501650, .negSucc 0), (825176300298880408150, .ofNat 1), (826534646251497509350, .negSucc 0), (894232407497133299525, .ofNat 2), (895704428653076361725, .negSucc 1), (947104764072446700995, .negSucc 0), (948663819903929271755, .ofNat 1), (1332912456457991144575, .ofNat 2), (1335106601199868539175, .negSucc 1), (3040946610104039406350, .negSucc 1), (3045952397980476701150, .ofNat 2), (3489333341319540477350, .negSucc 1), (3495077231225002580150, .ofNat 2), (4122704443938620711395, .negSucc 1), (4129490943857767941355, .ofNat 2), (4185592021868554775365, .ofNat 1), (4192482042801235813885, .negSucc 0), (5021123997001979666005, .negSucc 0), (5277408353654820391535, .ofNat 1), (6733524636658944399775, .ofNat 1), (6744608881242484123975, .negSucc 0), (7046218205737584724670, .negSucc 0), (7405865866454830825690, .ofNat 1), (7497064333105753082030, .ofNat 1), (7726380970064696771275, .ofNat 1), (7739099583426791427475, .negSucc 0), (7879723735769815351210, .negSucc 0), (8721809553422433510970, .negSucc 0), (8725788312470197858225, .negSucc 0), (8740152078411299718025, .ofNat 1), (8978319696396975750730, .ofNat 1), (9166981461461769499790, .ofNat 1), (9436584198247261362110, .negSucc 0), (13255190443483723711550, .ofNat 1), (13277010185863083735950, .negSucc 0), (13457559763231566821650, .negSucc 0), (13479712631448779670850, .ofNat 1), (15188911109247549989350, .negSucc 0), (15213914003686513468150, .ofNat 1), (15874125144251198861050, .ofNat 1), (15900255988815228361450, .negSucc 0), (19551014414406909486850, .ofNat 1), (19583197889974190345650, .negSucc 0), (29350778839142531075575, .negSucc 0), (29399093982982542558175, .ofNat 1), (29798882332869897962225, .ofNat 2), (29847935112493726414025, .negSucc 1), (33632588884762432119275, .ofNat 2), (33687952436734422679475, .negSucc 1), (35149848533699083192325, .negSucc 0), (35207709689519434228925, .ofNat 1), (43291531917615299578025, .negSucc 0), (43362795327799992908225, .ofNat 1), (69047390212916725904345, .ofNat 2), (72571654100811314665915, .negSucc 1), (84066784783170244169605, .ofNat 2), (88357657079272019156735, .negSucc 1), (122079292137886356167825, .ofNat 2), (122280250299571072728425, .negSucc 1), (123943098124724315803975, .negSucc 0), (124147124349946203609775, .ofNat 1), (142218473443781915907475, .negSucc 0), (142452583279122282581275, .ofNat 1), (148634344426208167752925, .ofNat 2), (148879015607503738938325, .negSucc 1), (1081273730364136297486450, .negSucc 1), (1083053645510486644166050, .ofNat 2), (1316475622060700914383050, .negSucc 1), (1318642709666461687739450, .ofNat 2), (4497363846239996602029950, .ofNat 1), (4504767083555190816697550, .negSucc 0), (4785123750097624259869550, .negSucc 0), (4793000677096573228677950, .ofNat 1), (5566837389085177851235450, .ofNat 1), (5576001116925643632467050, .negSucc 0), (5730559177074682788839050, .negSucc 0), (5739992411962297438483450, .ofNat 1), (9958448516674278190209175, .negSucc 0), (9974841399300779665544575, .ofNat 1), (10595631160930453718282575, .ofNat 1), (10613072927856697863501175, .negSucc 0), (12326568504402893813449925, .negSucc 0), (12346859616049639471891325, .ofNat 1), (12689095320665369032429325, .ofNat 1), (12709983197916515756641925, .negSucc 0), (44070624461776974576584825, .negSucc 1), (44143170358145157254961425, .ofNat 2), (53656998337861148558805925, .negSucc 1), (53745324634308849756735325, .ofNat 2)])

def upr301 : Tr := .node (.node (.node .nil (.node (.node (.leaf [(3, .ofNat 1)]) .nil) .nil)) (.node (.node (.node .nil (.leaf [(266, .ofNat 1)])) .nil) .nil)) (.node (.node .nil (.node (.node (.leaf [(133, .negSucc 0)]) .nil) .nil)) (.node (.node upr300 .nil) .nil))

def upr302 : Tr := .node (.leaf [(987070, .ofNat 1), (1020530, .ofNat 1), (1388590, .ofNat 1), (1488970, .ofNat 1), (1689730, .ofNat 1), (2185655, .negSucc 0), (2259745, .negSucc 0), (3074735, .negSucc 0), (3297005, .negSucc 0), (3741545, .negSucc 0), (8423555, .ofNat 3), (12555865, .ofNat 3), (17006045, .negSucc 0), (31034150, .ofNat 1), (37159003, .negSucc 0), (38494057, .negSucc 0), (46258450, .ofNat 1), (62653850, .negSucc 0), (68718475, .negSucc 0), (74608630, .negSucc 1), (102429425, .negSucc 0), (111209090, .negSucc 1), (138733525, .ofNat 1), (239197175, .ofNat 1), (259699790, .ofNat 2), (328200775, .negSucc 0), (356332270, .negSucc 1), (394953475, .ofNat 1), (428806630, .ofNat 2), (461706175, .negSucc 0), (501280990, .negSucc 1), (575049535, .negSucc 0), (789021455, .ofNat 1), (802454450, .negSucc 0), (949500395, .negSucc 0), (1109979335, .ofNat 1), (1196111350, .negSucc 0), (1339679845, .ofNat 1), (1454509546, .negSucc 0), (1620049550, .ofNat 1), (1776863425, .ofNat 1), (2118603550, .negSucc 0), (2648532275, .ofNat 1), (2906921150, .ofNat 1), (3040903355, .negSucc 3), (3498159350, .negSucc 0), (3587252575, .negSucc 0), (4089397550, .ofNat 1), (4099703230, .ofNat 1), (4532667265, .negSucc 3), (6184955525, .negSucc 0), (8486334325, .ofNat 1), (9077914295, .negSucc 0), (10212368425, .negSucc 0), (11203328150, .negSucc 1), (11865735770, .negSucc 0), (11938402525, .ofNat 1), (14019560989, .ofNat 1), (16699300450, .negSucc 1), (16731221290, .ofNat 2), (20055304990, .negSucc 0), (24807369475, .ofNat 2), (30188942035, .ofNat 1), (36977022425, .ofNat 2), (37047704285, .negSucc 1), (42364592690, .ofNat 1), (44408175335, .ofNat 1), (47573302525, .negSucc 0), (51651014170, .negSucc 1), (52438896790, .ofNat 1), (54781034650, .ofNat 1), (68281470670, .ofNat 1), (75164675450, .negSucc 0), (81847325770, .negSucc 0), (86350180175, .negSucc 0), (90452406050, .ofNat 1), (93807312385, .negSucc 0), (105740136650, .negSucc 0), (114370102805, .ofNat 1), (116114700035, .negSucc 0), (118480479775, .ofNat 1), (142578204475, .negSucc 0), (151194685055, .negSucc 0), (156841349245, .ofNat 1), (166675929175, .ofNat 1), (181233364205, .ofNat 1), (267387772310, .negSucc 0), (289686056450, .ofNat 2), (415139650415, .negSucc 2), (421363536650, .ofNat 1), (431796197350, .ofNat 2), (483624424045, .negSucc 1), (505442067235, .negSucc 2), (577836549850, .ofNat 1), (640082263135, .ofNat 1), (641447696425, .negSucc 1), (767250924685, .negSucc 0), (956120151275, .negSucc 1), (1089892119925, .negSucc 0), (1183311444490, .negSucc 1), (1230109679575, .ofNat 1), (1279495217525, .negSucc 0), (1529461869950, .negSucc 0), (1781774193850, .negSucc 0), (1862154984550, .negSucc 0), (2232768944525, .ofNat 1), (2358197811550, .ofNat 1), (2620189627085, .ofNat 1), (2826713933050, .negSucc 0), (3063566691325, .negSucc 0), (3386665569175, .ofNat 1), (3676951189390, .ofNat 2), (3686665001425, .ofNat 1), (3945357143525, .ofNat 1), (4123343180075, .ofNat 1), (4309763311525, .negSucc 0), (4476772595510, .ofNat 2), (5221723725575, .negSucc 0), (6259152280325, .ofNat 1), (9653330205050, .ofNat 1), (10895257161950, .negSucc 0), (10898208074635, .negSucc 1), (14086227069425, .negSucc 0), (14941202217550, .negSucc 0), (14987522024825, .ofNat 1), (15293617961090, .negSucc 1), (16272166769810, .ofNat 2), (17173962211525, .ofNat 1), (17435933182675, .negSucc 0), (17948727424075, .ofNat 1), (18930441741190, .negSucc 1), (19487189774710, .ofNat 2), (28181496243775, .ofNat 1), (33084090624575, .ofNat 1), (33864439770985, .ofNat 1), (36031226418865, .negSucc 0), (39547514065850, .ofNat 1), (40151292906550, .negSucc 0), (41917406712635, .ofNat 1), (43150205929715, .negSucc 0), (46071589869550, .ofNat 1), (48150007457650, .ofNat 1), (60976257698650, .negSucc 0), (73090745983150, .ofNat 1), (87569495431525, .negSucc 0), (88906434293075, .ofNat 1), (102015663282575, .negSucc 0), (106617873656225, .negSucc 0), (124763725472050, .ofNat 1), (132746623648450, .negSucc 0), (135018856332725, .ofNat 1), (149865413799815, .ofNat 4), (154432551046550, .ofNat 1), (158974442898950, .negSucc 0), (161843794676975, .negSucc 0), (182464586271835, .ofNat 4), (249607538159150, .negSucc 0), (364229585652275, .ofNat 1), (387534498070475, .negSucc 0), (393451055292925, .ofNat 1), (444069594326575, .negSucc 0), (450843415152025, .ofNat 1), (464102809108225, .negSucc 0), (552135735051950, .ofNat 2), (672237949422550, .ofNat 2), (1038197716583650, .ofNat 1), (1222586270472175, .negSucc 1), (1488526888007075, .negSucc 1), (2298866372435225, .negSucc 0), (3226033472920150, .negSucc 0), (3432448411481350, .ofNat 1), (3993184534203650, .negSucc 0), (4110624880672850, .ofNat 1), (5085127972062425, .ofNat 1), (5410495450961825, .negSucc 0), (6294371878945675, .ofNat 1), (6479490600091075, .negSucc 0), (10173520144002775, .negSucc 0), (14276652577771850, .negSucc 1), (17382152692211650, .negSucc 1), (31612587850780525, .ofNat 2), (38489052389897225, .ofNat 2), (131486880420471275, .negSucc 0), (139899953803441475, .ofNat 1), (162754472869881025, .negSucc 0), (167541114088069225, .ofNat 1)]) .nil

def upr303 : Tr := .node (.node (.node (.node (.node (.leaf [(1, .ofNat 1)]) (.leaf [(2147, .ofNat 1)])) .nil) .nil) .nil) (.node .nil (.node (.node .nil upr302) .nil))

def upr304 : Tr := .node (.node .nil (.node (.node (.node .nil (.leaf [(291410, .ofNat 1), (645265, .negSucc 0)])) .nil) .nil)) (.node (.node (.node (.node (.leaf [(7, .ofNat 1)]) .nil) .nil) .nil) (.node (.node (.node .nil (.leaf [(127, .ofNat 1)])) .nil) .nil))

def upr305 : Tr := .node (.node (.node (.node (.node (.leaf [(1, .ofNat 1)]) .nil) .nil) .nil) (.node .nil (.node .nil (.node (.leaf [(245, .ofNat 1), (266, .ofNat 1), (589, .negSucc 0), (2170, .negSucc 1), (4805, .ofNat 1), (88445, .negSucc 0)]) .nil)))) (.node (.node .nil (.node .nil (.node (.leaf [(1839865, .negSucc 0), (69249784595, .ofNat 1)]) .nil))) (.node (.node (.node .nil (.leaf [(13425358628290, .negSucc 0), (14586289315990, .ofNat 1), (29727579819785, .ofNat 1), (32298212056835, .negSucc 0)])) (.node (.leaf [(501, .ofNat 1), (519, .ofNat 1), (26671, .ofNat 1), (41134, .ofNat 1), (46426, .ofNat 1), (378841, .ofNat 1), (434701, .ofNat 1)]) .nil)) .nil))

def upr306 : Tr := .node (.node (.node .nil (.node (.node (.leaf [(19, .ofNat 1)]) .nil) .nil)) .nil) (.node (.node .nil (.node (.node (.leaf [(2, .negSucc 0)]) .nil) .nil)) (.node (.node (.node (.leaf [(166, .ofNat 1), (178, .ofNat 1), (1501, .ofNat 1), (36239, .ofNat 1), (37541, .ofNat 1), (160153, .ofNat 1), (1418498, .ofNat 1), (6268846, .ofNat 1), (13672457, .negSucc 0), (60423439, .negSucc 0)]) .nil) .nil) .nil))

def upr307 : Tr := .node .nil (.node (.node (.node (.node .nil (.leaf [(84396499, .ofNat 1)])) .nil) .nil) .nil)

def upr308 : Tr := .node (.node (.node (.node (.node (.leaf [(1, .ofNat 1)]) .nil) .nil) (.node (.node .nil (.leaf [(8874292700917, .ofNat 1), (9193129564423, .ofNat 1), (9327247536719, .negSucc 0), (9662358226661, .negSucc 0), (17035074430906, .negSucc 0), (17063116346794, .ofNat 1), (17647113033214, .negSucc 0), (17676162443086, .ofNat 1), (50277536833339, .negSucc 0), (52843764273473, .ofNat 1), (166700371216723, .negSucc 0), (166974781393627, .ofNat 1), (172930279232149, .ofNat 1), (181458150424007, .negSucc 0), (205186704373897, .negSucc 0), (215659686629579, .ofNat 1), (215723503577381, .ofNat 1), (223967713905179, .ofNat 1), (226734297049567, .negSucc 0), (235399302032353, .negSucc 0), (245952274779307, .ofNat 1), (258505981986449, .negSucc 0), (302728010545054, .ofNat 1), (318179621273978, .negSucc 0), (347365171435894, .ofNat 1), (365095117865858, .negSucc 0), (2966496134829289, .negSucc 0), (3117909753350123, .ofNat 1), (3348143860445971, .negSucc 0), (3519037249210697, .ofNat 1), (5244915805695265, .negSucc 0), (5253549609348985, .ofNat 1), (5919688364739835, .negSucc 0), (5929432930510915, .ofNat 1), (13603067968463890, .negSucc 0), (13625460361836610, .ofNat 1), (30121079073027185, .ofNat 1), (30170662229781065, .negSucc 0), (46454968564729490, .ofNat 1), (46531439397091010, .negSucc 0), (52431525516267110, .ofNat 1), (52517834527382390, .negSucc 0), (193221096780804190, .negSucc 0), (193539163471131310, .ofNat 1), (221711493718241590, .negSucc 0), (222076459253523910, .ofNat 1), (427846714300352135, .ofNat 1), (428551004828933615, .negSucc 0), (490932593233249235, .ofNat 1), (491740731204231515, .negSucc 0), (1893414605855990665, .ofNat 1), (1896531408974983585, .negSucc 0), (2137007499671080435, .ofNat 1), (2140525287914440315, .negSucc 0)])) .nil)) (.node (.node (.node (.leaf [(10430, .ofNat 1), (23095, .negSucc 0)]) .nil) .nil) .nil)) (.node (.node (.node .nil (.node (.leaf [(151, .ofNat 1)]) .nil)) .nil) (.node .nil (.node .nil (.node (.leaf [(1, .negSucc 0)]) .nil))))

def upr309 : Tr := .node (.node (.node .nil (.node (.node (.leaf [(7, .ofNat 1)]) .nil) .nil)) (.node (.node .nil (.node (.leaf [(2905, .negSucc 0), (3115, .negSucc 0), (25730, .ofNat 1), (27590, .ofNat 1), (96775, .negSucc 0), (105070, .negSucc 1), (232655, .ofNat 1), (688541, .ofNat 1), (713279, .ofNat 1), (857150, .ofNat 1), (1048705, .ofNat 2), (1124515, .ofNat 2), (2502325, .ofNat 1), (3042907, .ofNat 1), (3863650, .ofNat 1), (4142950, .ofNat 1), (8555225, .negSucc 0), (9173675, .negSucc 0), (22163450, .negSucc 0), (24823715, .negSucc 0), (34935775, .ofNat 1), (99902950, .negSucc 0), (107124850, .negSucc 0), (109704805, .negSucc 0), (219867190, .ofNat 1), (221213675, .ofNat 1), (237205025, .ofNat 1), (881513675, .ofNat 1), (903339325, .negSucc 0), (957071990, .ofNat 2), (971671130, .ofNat 1), (2119230835, .negSucc 0), (3895721725, .ofNat 1), (4229640730, .ofNat 2), (7807692550, .negSucc 0), (8961361115, .ofNat 2), (9365633045, .negSucc 0), (22793425025, .negSucc 0), (33015540950, .ofNat 1), (34504963850, .negSucc 0), (39603434605, .ofNat 2), (73105840675, .negSucc 0), (100732233175, .negSucc 0), (145907390650, .ofNat 1), (201884621650, .ofNat 1), (318226436675, .negSucc 0), (323080650725, .negSucc 0), (853687558850, .negSucc 0), (892199779550, .ofNat 1), (1406355542725, .negSucc 0), (1890308166025, .ofNat 1), (3772748243950, .negSucc 0), (8228426434025, .ofNat 1), (8353942540175, .ofNat 1), (36364336176175, .ofNat 1)]) .nil)) .nil)) (.node (.node (.node (.node .nil (.leaf [(14, .negSucc 0)])) .nil) (.node .nil (.node (.leaf [(3395, .negSucc 0), (3686, .negSucc 0), (30070, .ofNat 2), (628463, .ofNat 1), (1225595, .ofNat 1), (5126935, .negSucc 0)]) .nil))) .nil)

def upr310 : Tr := .node (.leaf [(659435, .ofNat 2), (707105, .ofNat 2), (945770, .negSucc 0), (977830, .negSucc 0), (1330490, .negSucc 0), (1406930, .negSucc 0), (1426670, .negSucc 0), (1619030, .negSucc 0), (2094205, .ofNat 1), (2165195, .ofNat 1), (2946085, .ofNat 1), (3115345, .ofNat 1), (3159055, .ofNat 1), (3584995, .ofNat 1), (5840710, .negSucc 1), (6262930, .negSucc 1), (8071105, .negSucc 2), (12030515, .negSucc 2), (14159845, .ofNat 1), (14737975, .negSucc 1), (16294495, .ofNat 1), (23850890, .ofNat 4), (29735650, .negSucc 0), (29754025, .ofNat 2), (35604233, .ofNat 1), (36883427, .ofNat 1), (44322950, .negSucc 0), (52167850, .ofNat 1), (52812685, .negSucc 1), (60032350, .ofNat 1), (65843225, .ofNat 1), (70586558, .negSucc 1), (71486930, .ofNat 2), (73122602, .negSucc 1), (98143675, .ofNat 1), (106555990, .ofNat 2), (115514525, .negSucc 0), (130536350, .ofNat 4), (132928775, .negSucc 0), (194573050, .ofNat 2), (229188925, .negSucc 0), (238056035, .negSucc 3), (248833690, .negSucc 1), (255264905, .negSucc 3), (263535650, .negSucc 3), (289044775, .negSucc 1), (314468525, .ofNat 1), (341422970, .ofNat 2), (378428225, .negSucc 0), (410864930, .negSucc 1), (418502875, .negSucc 1), (430840325, .negSucc 1), (442387925, .ofNat 1), (454374550, .negSucc 3), (480306890, .ofNat 2), (550988885, .ofNat 1), (568027775, .negSucc 1), (583543225, .ofNat 2), (593690125, .negSucc 1), (623444150, .ofNat 2), (644577850, .negSucc 1), (690739889, .negSucc 1), (691016375, .negSucc 1), (750246350, .negSucc 3), (756008005, .negSucc 0), (768878950, .ofNat 1), (866203625, .negSucc 1), (909772345, .ofNat 1), (940449650, .negSucc 3), (1006115075, .ofNat 6), (1060856125, .negSucc 1), (1063536685, .negSucc 0), (1146064850, .ofNat 1), (1151786650, .negSucc 1), (1283626295, .negSucc 0), (1348911550, .negSucc 0), (1380483475, .negSucc 3), (1393651406, .ofNat 1), (1427279525, .ofNat 2), (1552265050, .negSucc 0), (1661259775, .ofNat 6), (1702517675, .negSucc 0), (1942036075, .negSucc 1), (2029959050, .ofNat 1), (2082424225, .ofNat 4), (2537715025, .negSucc 0), (2544831170, .ofNat 2), (2550384725, .ofNat 2), (2785292650, .negSucc 0), (2913668905, .ofNat 4), (2986875575, .ofNat 1), (3351792850, .ofNat 1), (3437158325, .ofNat 1), (3706739750, .ofNat 4), (3918293050, .negSucc 0), (3928167530, .negSucc 0), (4343015915, .ofNat 4), (5031103150, .ofNat 2), (5258398250, .ofNat 4), (5320408975, .ofNat 10), (5634983305, .negSucc 1), (5926170775, .ofNat 1), (6120430750, .ofNat 4), (7672089250, .ofNat 4), (7930420925, .ofNat 8), (8131257575, .negSucc 0), (8207780875, .negSucc 1), (8698085245, .ofNat 1), (8911304950, .negSucc 1), (9396154250, .ofNat 4), (9785072675, .ofNat 1), (10734569650, .ofNat 2), (10741203025, .negSucc 1), (10821288625, .ofNat 2), (11369261470, .ofNat 1), (11438887775, .negSucc 0), (11643596125, .negSucc 1), (12227139350, .ofNat 2), (13432968479, .negSucc 0), (13552382375, .negSucc 1), (13931016890, .negSucc 0), (14714015150, .negSucc 1), (15351130375, .ofNat 2), (16000584950, .ofNat 2), (16031170190, .negSucc 1), (16988197625, .negSucc 1), (17200890950, .ofNat 2), (17867709125, .ofNat 2), (19216170890, .ofNat 1), (19601506750, .ofNat 4), (20805770125, .negSucc 1), (22397550875, .ofNat 2), (22677969650, .ofNat 2), (23769404225, .negSucc 1), (24317340950, .ofNat 2), (24528828905, .negSucc 5), (24902990735, .ofNat 2), (27430708375, .ofNat 2), (28925806385, .negSucc 0), (29217340250, .ofNat 4), (30847251685, .ofNat 1), (35429866675, .negSucc 1), (35497591135, .ofNat 2), (40592015590, .negSucc 0), (42550092685, .negSucc 0), (43403336375, .negSucc 7), (45582787775, .ofNat 1), (47123622350, .negSucc 11), (49489883870, .ofNat 2), (50215504225, .negSucc 1), (50244800690, .negSucc 0), (52488941150, .negSucc 0), (53845540675, .negSucc 1), (56853609470, .negSucc 0), (64695539125, .negSucc 7), (65424505370, .negSucc 0), (70240871050, .negSucc 11), (72019709950, .ofNat 1), (78422751470, .ofNat 1), (82737201925, .ofNat 1), (86667786550, .negSucc 0), (89882320235, .ofNat 1), (90369369650, .negSucc 1), (95845699250, .negSucc 3), (101315863150, .ofNat 1), (104345163775, .ofNat 4), (109584742855, .negSucc 0), (111256344385, .ofNat 1), (113523137525, .negSucc 0), (125890135255, .ofNat 1), (135967154750, .negSucc 3), (136612589225, .ofNat 1), (144868547605, .ofNat 1), (150278949695, .negSucc 0), (151079537875, .ofNat 4), (155533357325, .ofNat 4), (158256852250, .negSucc 3), (159702040925, .negSucc 0), (164029212550, .ofNat 4), (173650378255, .negSucc 0), (198378307750, .negSucc 3), (200103604225, .ofNat 2), (205058026775, .ofNat 2), (207295179875, .negSucc 1), (212229762625, .ofNat 2), (214322135125, .ofNat 2), (217255341730, .ofNat 4), (220569346510, .negSucc 1), (225063338150, .negSucc 3), (242957702750, .negSucc 3), (249456911375, .ofNat 4), (256199999410, .ofNat 1), (270838932350, .ofNat 4), (274411918025, .negSucc 1), (277565300950, .negSucc 1), (291618642875, .negSucc 1), (301070128375, .ofNat 2), (312699508625, .ofNat 2), (316614526550, .negSucc 3), (350425887125, .ofNat 2), (363207542075, .negSucc 5), (382969061125, .ofNat 2), (384429550750, .ofNat 4), (397769790565, .ofNat 3), (403733263150, .negSucc 0), (413729410850, .negSucc 1), (439266252875, .ofNat 2), (463389092495, .ofNat 2), (484293863585, .ofNat 3), (498354534475, .ofNat 6), (506838960250, .negSucc 3), (532955524535, .negSucc 0), (537977770375, .ofNat 2), (553659288350, .negSucc 0), (573017632250, .ofNat 4), (599714778775, .negSucc 5), (613300578485, .negSucc 0), (614608880675, .ofNat 2), (701075023075, .ofNat 6), (726334402675, .ofNat 2), (735148375535, .ofNat 1), (755476940750, .negSucc 3), (846156364025, .negSucc 1), (916115124025, .ofNat 2), (918684052370, .negSucc 5), (960128445710, .negSucc 3), (1044289939175, .ofNat 1), (1119897287075, .negSucc 1), (1122286269125, .ofNat 8), (1133800505390, .ofNat 2), (1178640655325, .negSucc 0), (1225959852775, .ofNat 1), (1338133049750, .negSucc 3), (1465467649450, .ofNat 1), (1672841797375, .ofNat 8), (1707222972350, .ofNat 1), (1784240550050, .ofNat 1), (1836043021750, .ofNat 4), (1920667639975, .negSucc 7), (1963520353550, .negSucc 0), (2034228973105, .ofNat 4), (2125998701215, .ofNat 2), (2139347649775, .negSucc 0), (2209475500750, .negSucc 3), (2259528447050, .negSucc 0), (2336693700950, .ofNat 2), (2430505559650, .ofNat 4), (2510558261935, .negSucc 0), (2582907979750, .ofNat 4), (2708441383550, .ofNat 1), (2862881953925, .negSucc 7), (2935383984575, .ofNat 1), (2963008895875, .ofNat 2), (3244964080925, .negSucc 0), (3523103859290, .negSucc 1), (3532411235675, .negSucc 0), (3780279438775, .negSucc 0), (3906485193625, .negSucc 3), (3950818360825, .negSucc 0), (4065523833875, .negSucc 1), (4129438486775, .ofNat 1), (4289459934610, .negSucc 1), (4347795068575, .ofNat 1), (4892410037375, .ofNat 2), (5003241561325, .ofNat 1), (5174107480675, .negSucc 1), (5360061079625, .ofNat 2), (5381833739225, .negSucc 1), (5541758065375, .negSucc 1), (5719296240875, .negSucc 1), (5997263063575, .negSucc 0), (6433247566550, .negSucc 3), (6450242994125, .negSucc 3), (7076143936750, .negSucc 3), (7494527795650, .ofNat 2), (7540424908625, .ofNat 2), (7832626793950, .negSucc 1), (8085515865875, .negSucc 1), (8854907234705, .ofNat 6), (8989979655335, .negSucc 3), (9249425175550, .negSucc 0), (9902485723375, .negSucc 1), (9919090256950, .ofNat 4), (9940249812250, .negSucc 3), (10439388661450, .ofNat 1), (10442216104985, .ofNat 2), (10547459830250, .negSucc 3), (13496845183675, .ofNat 1), (14245048183075, .ofNat 2), (14316047313050, .ofNat 1), (14360429053075, .negSucc 0), (14653717627990, .ofNat 2), (14816598776750, .negSucc 3), (15591322971910, .negSucc 1), (15668604431375, .ofNat 8), (16455386386775, .negSucc 0), (16706396229425, .ofNat 1), (17197734644825, .negSucc 0), (17343673615175, .ofNat 2), (18138373049090, .ofNat 2), (18671826185810, .negSucc 1), (21879185984075, .ofNat 2), (21963699854675, .negSucc 1), (22866216930725, .ofNat 2), (23355089624125, .ofNat 8), (26222387687125, .negSucc 1), (26757937613050, .ofNat 2), (27002354141525, .negSucc 0), (28470020917450, .negSucc 3), (31403355953375, .negSucc 1), (31699819050325, .negSucc 0), (32447517604835, .negSucc 0), (32623342443650, .ofNat 2), (34095072177950, .negSucc 3), (34523643723515, .ofNat 1), (34600297429250, .ofNat 4), (37892806364350, .negSucc 0), (38471322492050, .ofNat 1), (38677247364875, .negSucc 1), (40163540322985, .negSucc 0), (41344757982865, .ofNat 1), (41992439996150, .negSucc 1), (44143908285050, .negSucc 0), (46135362794150, .negSucc 0), (47474826705250, .negSucc 3), (50771026284650, .ofNat 1), (54539713172875, .negSucc 1), (57130723662250, .ofNat 4), (58424949845150, .ofNat 1), (59249719000325, .negSucc 3), (63040760602925, .ofNat 6), (66786620619250, .negSucc 3), (70032555774650, .negSucc 0), (72237401125225, .negSucc 1), (73339307714575, .negSucc 1), (74833559934875, .ofNat 2), (75496231251175, .ofNat 6), (76614944307625, .negSucc 1), (83905499806775, .ofNat 1), (85186499803825, .negSucc 0), (90053945006375, .negSucc 1), (92983259991475, .ofNat 2), (97747225488325, .ofNat 1), (99062702407025, .ofNat 2), (102156874758475, .ofNat 1), (105122830561625, .ofNat 2), (105274330077875, .ofNat 2), (112421558201725, .negSucc 0), (119543485912550, .negSucc 0), (126503745252125, .negSucc 1), (127192371612950, .ofNat 1), (129369531799975, .negSucc 0), (143594894393965, .negSucc 3), (147884659942625, .ofNat 2), (147970938032050, .negSucc 0), (152322792568450, .ofNat 1), (155072087786725, .ofNat 1), (174830084754185, .negSucc 3), (182968864650250, .ofNat 4), (193787075858950, .negSucc 1), (202529349957850, .negSucc 1), (232255433800250, .ofNat 4), (239163708110650, .ofNat 1), (262206719365675, .negSucc 9), (272727175610750, .ofNat 4), (278144009872750, .ofNat 4), (305462447413025, .ofNat 2), (319242708198575, .negSucc 7), (342569905231750, .ofNat 4), (348989854035025, .negSucc 0), (371319665515225, .ofNat 1), (376988668042175, .negSucc 0), (404282920634075, .ofNat 2), (405145343154125, .negSucc 7), (425489276572325, .ofNat 1), (431979673932275, .negSucc 0), (444684281530475, .ofNat 1), (514279889129125, .negSucc 1), (524783225431450, .ofNat 2), (529033821451450, .negSucc 1), (558361022483050, .negSucc 1), (603895888852375, .negSucc 7), (615890307575375, .negSucc 1), (644110838568050, .negSucc 1), (649576725471950, .ofNat 2), (668680905367550, .negSucc 1), (678036024481375, .ofNat 2), (758547647298875, .negSucc 1), (812001061080125, .ofNat 2), (843546426042950, .negSucc 1), (856413851376650, .ofNat 2), (966024755557750, .negSucc 3), (994758481580150, .negSucc 0), (1000083110434625, .ofNat 2), (1171432033213925, .ofNat 2), (1176157345994750, .negSucc 3), (1410241154898625, .ofNat 2), (1426245428257825, .ofNat 2), (1867852800523675, .ofNat 2), (1896344956619725, .negSucc 1), (1934982049744625, .negSucc 1), (2139054815877875, .ofNat 8), (2202679494927475, .ofNat 1), (2322402371524550, .ofNat 12), (2328537720879125, .ofNat 2), (2604348408988375, .ofNat 8), (2722093392013625, .negSucc 1), (2827578272615950, .ofNat 12), (3091052992881650, .ofNat 1), (3288831323134850, .negSucc 0), (3826105683400150, .ofNat 1), (3938632207841350, .negSucc 0), (4872361111306675, .negSucc 0), (5142462394090075, .negSucc 3), (5184114888160075, .ofNat 1), (6005461931120750, .negSucc 3), (6031009038822425, .negSucc 0), (6208382206781825, .ofNat 1), (6261066175078175, .negSucc 3), (7192009398138250, .negSucc 3), (7898386140251075, .negSucc 1), (8254704311991725, .negSucc 1), (8857878978135250, .negSucc 3), (8897014256339125, .negSucc 1), (9466281955052125, .ofNat 4), (9659615478311050, .negSucc 3), (9747849845090525, .ofNat 1), (10277677551199450, .ofNat 4), (11012725077785375, .negSucc 1), (11336611499168375, .ofNat 4), (11956672941595550, .negSucc 3), (12308321056239950, .ofNat 4), (13297808561767375, .ofNat 2), (13679303097530350, .ofNat 2), (13962486298719875, .ofNat 2), (15925163667306125, .ofNat 2), (16654865968688150, .ofNat 2), (18945914083489750, .negSucc 3), (19613874880156625, .ofNat 2), (21389148559117325, .ofNat 6), (22757714577655925, .negSucc 5), (23067085908182750, .negSucc 3), (24978640107993250, .ofNat 4), (26475490084961575, .ofNat 6), (27254139481674175, .negSucc 5), (30289885430245775, .negSucc 1), (30412068517864250, .ofNat 4), (36878631787809475, .negSucc 1), (55309845953413625, .negSucc 7), (67341008860985125, .negSucc 7), (78802126270432250, .ofNat 4), (83844211601890250, .negSucc 3), (94656625691008675, .ofNat 8), (97541279260384750, .ofNat 4), (100409987564062750, .negSucc 3), (115246617659685575, .ofNat 8), (125985337306644025, .ofNat 1), (134046399250996225, .negSucc 0), (155944662289551275, .ofNat 1), (160531025632501475, .negSucc 0), (174490422455957125, .negSucc 1), (185655039975614125, .ofNat 2), (215984261219423375, .negSucc 1), (222336401034710375, .ofNat 2), (230051368628197375, .ofNat 2), (244771004837776375, .negSucc 3), (284757605582736125, .ofNat 2), (293132383049925125, .negSucc 3), (348734936756347750, .ofNat 4), (361030002866899625, .negSucc 1), (424592801904104750, .ofNat 4), (489887207015949250, .ofNat 4), (596448935625868250, .ofNat 4), (772198788531912875, .negSucc 7), (940169775644803375, .negSucc 7), (2037597836421176750, .negSucc 3), (2167971757134590750, .ofNat 4), (2522138792304234250, .negSucc 3), (2596315392727908250, .ofNat 4), (3211822146538424125, .ofNat 2), (3417327785773817125, .negSucc 1), (3975593753080520375, .ofNat 2), (4092516751199783375, .negSucc 1), (4511823780646891375, .ofNat 2), (4800508890798022375, .negSucc 1), (5584735897245090125, .ofNat 2), (5748984083897511125, .negSucc 1), (9017289078985563250, .negSucc 3), (10978756734948994250, .negSucc 3), (19966854389182318625, .ofNat 8), (24310104198815630125, .ofNat 8), (83048544074779252375, .negSucc 1), (88362332746437271375, .ofNat 2), (102797495615367741125, .negSucc 1), (105820790281022970125, .ofNat 2)]) .nil

def upr311 : Tr := .node (.node (.node (.node (.node (.leaf [(3, .ofNat 1), (266, .negSucc 0), (278, .ofNat 1), (589, .ofNat 1), (1083, .negSucc 0), (2603, .ofNat 1), (6878, .ofNat 1)]) (.leaf [(1, .negSucc 0)])) .nil) .nil) (.node .nil (.node (.node (.leaf [(28417, .negSucc 0), (29503, .negSucc 0), (30227, .negSucc 0), (31313, .negSucc 0), (32399, .negSucc 0)]) .nil) .nil))) (.node (.node (.node (.node (.leaf [(38, .negSucc 0)]) .nil) .nil) .nil) (.node (.node (.node .nil (.leaf [(188389121, .negSucc 0), (205673123, .ofNat 1)])) upr310) .nil))

def upr312 : Tr := .node (.node (.node .nil (.node (.node (.leaf [(2, .negSucc 0)]) (.leaf [(4163, .negSucc 0)])) .nil)) (.node .nil (.node (.node (.leaf [(21, .negSucc 1), (543, .ofNat 2)]) .nil) .nil))) (.node (.node .nil (.node (.node (.leaf [(19, .ofNat 2)]) .nil) .nil)) .nil)

def upr313 : Tr := .node .nil (.node (.node (.node (.node (.leaf [(543, .negSucc 0)]) .nil) .nil) .nil) .nil)

def upr314 : Tr := .node (.node (.node (.node (.node (.leaf [(2, .ofNat 1)]) .nil) .nil) (.node .nil (.node (.leaf [(46, .negSucc 0)]) .nil))) (.node (.node (.node .nil (.leaf [(7630, .ofNat 1), (16895, .negSucc 0)])) .nil) (.node (.node (.leaf [(181, .ofNat 1)]) .nil) .nil))) (.node (.node .nil (.node (.node .nil (.leaf [(168886721, .negSucc 0), (174867457, .ofNat 1)])) (.node (.leaf [(7514215, .negSucc 0)]) .nil))) (.node (.node (.node (.leaf [(4441921, .ofNat 1)]) .nil) .nil) .nil))

def upr315 : Tr := .node (.node .nil (.node (.node (.node .nil (.leaf [(1, .negSucc 3), (361, .ofNat 4)])) (.node (.leaf [(43, .ofNat 1), (59, .negSucc 0), (71, .ofNat 1), (83, .negSucc 0), (101, .negSucc 0), (109, .ofNat 1), (1503, .ofNat 1), (1557, .ofNat 1), (2014, .negSucc 3), (3002, .negSucc 3), (8183, .negSucc 0), (8477, .negSucc 0), (15523, .negSucc 1), (21299, .ofNat 2), (25631, .negSucc 1), (29963, .ofNat 2), (139278, .ofNat 2), (211589, .ofNat 1), (219191, .ofNat 1), (245051, .negSucc 0), (320306, .negSucc 1), (1000073, .negSucc 1), (1198763, .ofNat 1), (1304103, .ofNat 2), (2532253, .negSucc 0), (2694277, .ofNat 1), (3087329, .ofNat 2), (3134423, .negSucc 0), (3226607, .ofNat 1), (3973979, .ofNat 1), (4081379, .negSucc 0), (4892249, .ofNat 1), (7217918, .negSucc 0), (8282198, .ofNat 1), (70729913, .ofNat 1), (79829507, .negSucc 0), (99256342, .ofNat 4), (120846878, .ofNat 4), (914143333, .ofNat 2), (972633997, .negSucc 1), (1131526703, .ofNat 2), (1164805127, .negSucc 1)]) .nil)) .nil)) (.node (.node .nil (.node (.node (.leaf [(63, .ofNat 1)]) .nil) .nil)) (.node (.node (.node .nil (.leaf [(47, .ofNat 1)])) .nil) .nil))

def upr316 : Tr := .node (.node (.node (.node (.node .nil (.leaf [(65409369130, .negSucc 0), (144835031645, .ofNat 1)])) .nil) .nil) .nil) .nil

def upr317 : Tr := .node (.node (.node (.node (.node (.leaf [(6, .ofNat 1), (3439, .ofNat 1)]) .nil) .nil) (.node (.node (.leaf [(2, .ofNat 1)]) .nil) .nil)) (.node (.node (.node (.leaf [(47, .ofNat 1)]) .nil) .nil) .nil)) (.node (.node (.node .nil (.node (.leaf [(817, .ofNat 1)]) .nil)) .nil) .nil)

def upr318 : Tr := .node (.node (.node (.node upr299 upr301) (.node upr303 upr304)) (.node (.node upr305 upr306) (.node upr307 upr308))) (.node (.node (.node upr309 upr311) (.node upr312 upr313)) (.node (.node upr314 upr315) (.node upr316 upr317)))

end BP.EL
