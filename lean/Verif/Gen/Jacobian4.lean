import Verif.Lemmas.JTree
import Verif.Gen.Jacobian3

/-!
# Generated by tools/gen_jacobian.py
-/

namespace BP.EL

def jac88 : JTree := .node (.node (.node (.node (.node (.leaf (.atom 1277)) (.leaf (.adef 43991 [(11735599, .negSucc 0), (13811521, .ofNat 1), (31200157, .ofNat 1), (33836659, .negSucc 0)] 0))) (.node (.leaf (.adef 30449 [(20872123, .negSucc 0), (21014117, .ofNat 1), (21782989, .ofNat 1), (21829109, .negSucc 0)] 0)) .nil)) (.node (.node (.leaf (.adef 12119 [(14436343, .ofNat 1), (57135137, .ofNat 1)] 0)) (.leaf (.trans [(1237, .negSucc 0)] 0))) (.node (.leaf (.adef 25747 [(1377707389, .ofNat 4), (1980942883, .ofNat 2)] 1)) .nil))) (.node (.node (.node (.leaf (.atom 35393)) (.leaf (.adef 6361 [(28111, .ofNat 1), (3983081, .negSucc 0), (154429811, .ofNat 1), (162159799, .negSucc 0), (44444869753, .ofNat 1), (45345910711, .ofNat 1), (378991469639, .ofNat 1)] 0))) (.node (.leaf (.mult 10271 2637 (.negSucc 0) 0)) .nil)) (.node (.node (.leaf (.adef 29683 [(100871803, .ofNat 1), (101583397, .negSucc 0), (125174171, .ofNat 1), (141329317, .ofNat 1), (146747147, .negSucc 0), (147033947, .ofNat 1)] 0)) .nil) (.node (.leaf (.adef 33029 [(20259119, .ofNat 1), (21875111, .negSucc 0), (22529503, .negSucc 0), (22777369, .ofNat 1)] 0)) .nil)))) (.node (.node (.node (.node (.leaf (.atom 11579)) (.leaf (.adef 44797 [(2787773, .ofNat 2), (3329849, .ofNat 2), (4125799, .negSucc 1), (503084069, .ofNat 2), (733409381, .ofNat 2)] 0))) (.node (.leaf (.adef 37907 [(10823333, .negSucc 0), (27267307, .ofNat 1), (27481801, .negSucc 0), (29034253, .ofNat 1), (29084927, .ofNat 1), (32944931, .ofNat 1), (32953783, .ofNat 1), (33226337, .negSucc 0), (33230203, .ofNat 1), (37385951, .negSucc 0), (866584211, .negSucc 0), (866719393, .negSucc 0), (884833267, .negSucc 0), (885524597, .negSucc 0), (1200340483, .negSucc 0), (1200527729, .negSucc 0), (1230406267, .ofNat 1), (1231367597, .ofNat 1), (1596040477, .negSucc 0), (1622005423, .ofNat 1), (1623457709, .ofNat 1), (1657388893, .ofNat 1), (1657658969, .ofNat 1), (2355400631, .negSucc 0), (2357509573, .negSucc 0), (2416185757, .ofNat 1), (2416579481, .ofNat 1)] 0)) .nil)) (.node (.node (.leaf (.adef 29287 [(1165477, .ofNat 1), (220945511, .ofNat 1), (320846767, .negSucc 0)] 0)) .nil) (.node (.leaf (.mult 10303 3405 (.negSucc 0) 0)) .nil))) (.node (.node (.node (.leaf (.atom 13037)) (.leaf (.adef 46751 [(23412619, .negSucc 0), (23482757, .negSucc 0), (23611541, .ofNat 1), (26539417, .ofNat 1), (26931131, .negSucc 0)] 0))) (.node (.leaf (.adef 25391 [(3357049, .negSucc 0), (3548893, .ofNat 1), (5335907, .ofNat 1), (6414791, .negSucc 0), (7725847, .ofNat 1), (10378651, .negSucc 0), (11801203, .ofNat 1), (12823483, .negSucc 0)] 0)) .nil)) (.node (.node (.leaf (.adef 23929 [(404055548713, .negSucc 3), (422511778861, .negSucc 3), (424934184149, .negSucc 3), (460319246297, .ofNat 4), (615141664103, .ofNat 2), (700798561207, .negSucc 1), (709578293839, .negSucc 1), (713646550151, .negSucc 1), (972408433109, .ofNat 4), (988734758773, .negSucc 3), (1033897648681, .negSucc 3), (1053382697177, .negSucc 3)] 1)) .nil) (.node (.leaf (.adef 42899 [(5054827, .ofNat 1), (24710969729, .negSucc 0)] 0)) .nil))))

def jac89 : JTree := .node (.node (.node (.node (.node (.leaf (.atom 16763)) (.leaf (.adef 16631 [(44279, .negSucc 0), (15343521317, .negSucc 0), (311167272499, .negSucc 0)] 0))) (.node (.leaf (.adef 13687 [(37397, .ofNat 1), (12397783, .negSucc 0), (2997629917, .ofNat 1), (3135229807, .negSucc 0), (3735229501, .ofNat 1), (3799328123, .ofNat 1), (3972599311, .ofNat 1), (5329733653, .ofNat 1), (5879275313, .negSucc 0), (7655492987, .ofNat 1), (8001092683, .ofNat 1), (8225880791, .negSucc 0), (8301053249, .negSucc 0), (10369859033, .negSucc 0), (11883327857, .negSucc 0), (12603515737, .ofNat 1), (13788384713, .negSucc 0), (1063514619623, .negSucc 0), (1082548396511, .negSucc 0), (651519853467983, .negSucc 0)] 0)) .nil)) (.node (.node (.leaf (.adef 22861 [(213567, .negSucc 3), (11599227, .negSucc 1), (56341017, .negSucc 1), (64597023, .negSucc 0), (95087669931, .ofNat 2)] 0)) (.leaf (.trans [(46447, .ofNat 1)] 0))) (.node (.leaf (.adef 19913 [(119149643, .negSucc 0), (188297717, .ofNat 1), (233470871, .ofNat 1), (5981610493, .ofNat 1), (6048165269, .ofNat 1), (8822764877, .ofNat 1), (8920931941, .ofNat 1), (11185348547, .ofNat 1), (11312558381, .ofNat 1), (15756031547, .negSucc 0), (15931342051, .negSucc 0), (16462737959, .ofNat 1), (17590971263, .ofNat 1), (25945344367, .ofNat 1), (33683269721, .ofNat 1), (46352420999, .negSucc 0), (83735952953, .ofNat 1), (84721271423, .ofNat 1), (178992778039, .ofNat 1), (193686705167, .ofNat 1), (1151725451203, .ofNat 1), (1573649538949, .ofNat 1), (1592141625457, .ofNat 1), (2936916850261, .ofNat 1), (3090213943633, .negSucc 0), (4239943757107, .ofNat 1), (4289767688551, .ofNat 1), (4986915934523, .ofNat 1), (16136802255113, .ofNat 1)] 0)) .nil))) (.node (.node (.node (.leaf (.atom 17099)) (.leaf (.adef 22109 [(33367057, .ofNat 1), (2635056913, .ofNat 2)] 0))) (.node (.leaf (.adef 5333 [(26349, .ofNat 4), (51723387, .negSucc 1), (60764877, .negSucc 1), (68642451, .negSucc 1), (102553891911, .ofNat 3)] 0)) .nil)) (.node (.node (.leaf (.adef 36013 [(11240360563, .ofNat 1)] 0)) .nil) (.node (.leaf (.adef 9181 [(4355171, .ofNat 1), (4368851, .ofNat 1), (5680043, .ofNat 1), (1070536151, .ofNat 1), (1085635027, .ofNat 1)] 0)) .nil)))) (.node (.node (.node (.node (.leaf (.atom 2161)) (.leaf (.adef 27883 [(9038521, .ofNat 1), (8497198631, .ofNat 1)] 0))) (.node (.leaf (.adef 38651 [(750092603, .negSucc 0), (750574487, .ofNat 1), (806892047, .negSucc 0), (807409811, .ofNat 1), (843684049, .ofNat 1), (844224901, .negSucc 0), (943528963, .negSucc 0), (982334041, .negSucc 0), (982792733, .ofNat 1), (993434429, .ofNat 1), (1136181917, .ofNat 1), (1136545631, .ofNat 1), (6967572120431, .ofNat 1), (7593803266829, .ofNat 1), (7908374406439, .negSucc 0), (10711975670149, .negSucc 0)] 0)) .nil)) (.node (.node (.leaf (.adef 4973 [(291612517, .negSucc 0), (352820783, .negSucc 0), (93118480903, .negSucc 0), (108650277869, .negSucc 0), (111437393291, .negSucc 0), (172084918397, .negSucc 0), (543875674783, .ofNat 1), (149307660725503, .ofNat 1), (180140061129889, .ofNat 1), (3229246626772201, .ofNat 1), (3896094024403063, .ofNat 1)] 0)) .nil) (.node (.leaf (.adef 41651 [(7377067, .negSucc 0), (8831363, .ofNat 1)] 0)) .nil))) (.node (.node (.node (.leaf (.atom 1973)) (.leaf (.atom 313))) (.node (.leaf (.adef 10289 [(11598481339, .ofNat 1)] 0)) .nil)) (.node (.node (.leaf (.adef 30307 [(20749643, .negSucc 0), (20865989, .ofNat 1), (21050327, .ofNat 1), (21101629, .negSucc 0)] 0)) .nil) (.node (.leaf (.adef 43633 [(43627, .ofNat 1), (11965873, .ofNat 1), (14111501, .ofNat 1), (18309101, .ofNat 1), (22776067, .negSucc 0), (26606287, .negSucc 0), (30543397, .ofNat 1), (69164717, .negSucc 0)] 0)) .nil))))

def jac90 : JTree := .node (.leaf (.adef 25121 [(8657861, .ofNat 1), (8668169, .ofNat 1), (8685349, .ofNat 1), (8704247, .ofNat 1), (9561527, .ofNat 1), (9635971, .ofNat 1), (15807983, .ofNat 1), (18684607, .negSucc 0), (20378627, .ofNat 1), (20882831, .ofNat 1), (20977963, .ofNat 1), (22885319, .ofNat 1), (27243361, .ofNat 1), (28482499, .ofNat 1), (29642111, .ofNat 1), (35465323, .negSucc 0), (35615819, .negSucc 0), (35634631, .negSucc 0), (37353581, .ofNat 1), (39747559, .ofNat 1), (40555061, .ofNat 1), (50608109, .ofNat 1), (596140109, .ofNat 1), (618137899, .ofNat 1), (773044031, .negSucc 0), (801569641, .negSucc 0), (853926149, .negSucc 0), (885436339, .negSucc 0), (1757202211, .ofNat 1), (1801453259, .ofNat 1), (1822043621, .ofNat 1), (1842928103, .ofNat 1), (1892262107, .ofNat 1), (1991949457, .negSucc 0), (2051342431, .negSucc 0), (2350954747, .ofNat 1), (3076905883, .ofNat 1), (3133192787, .ofNat 1), (3159716641, .ofNat 1), (3279794627, .ofNat 1), (3318501757, .ofNat 1), (3581827867, .negSucc 0), (3692547097, .negSucc 0), (5849342867, .ofNat 1), (6812139899, .ofNat 1), (6959673113, .ofNat 1), (7280752471, .ofNat 1), (7854617123, .ofNat 1), (7905377341, .ofNat 1), (8076426409, .ofNat 1), (8920088167, .negSucc 0), (8981917807, .ofNat 1), (9327178873, .ofNat 1), (9862544123, .ofNat 1), (10013073709, .negSucc 0), (10024467307, .negSucc 0), (10263483617, .ofNat 1), (10643188763, .ofNat 1), (10737021137, .ofNat 1), (10945686263, .ofNat 1), (10948909849, .ofNat 1), (11291253223, .ofNat 1), (11319223063, .ofNat 1), (12037004081, .ofNat 1), (12232769807, .ofNat 1), (12765817279, .ofNat 1), (12788875643, .ofNat 1), (12826043749, .ofNat 1), (13086405793, .ofNat 1), (13225324711, .ofNat 1), (13235073407, .ofNat 1), (13518417299, .negSucc 0), (13576485211, .negSucc 0), (13582706773, .negSucc 0), (13830541363, .ofNat 1), (15476721983, .ofNat 1), (16842541561, .ofNat 1), (16936119901, .ofNat 1), (20080533821, .ofNat 1), (20908494847, .ofNat 1), (21145414153, .ofNat 1), (21405194917, .negSucc 0), (23807205473, .negSucc 0), (23809814701, .ofNat 1), (23856214411, .negSucc 0), (27431524643, .negSucc 0), (27465703679, .negSucc 0), (29941843517, .ofNat 1), (31614064621, .negSucc 0), (35944614929, .ofNat 1), (37378421209, .ofNat 1), (85111039667, .ofNat 1), (88251668437, .ofNat 1), (136305111001, .negSucc 0), (137160710263, .negSucc 0), (137242195907, .negSucc 0), (146897235349, .negSucc 0), (152317797539, .negSucc 0), (193677887321, .ofNat 1), (243877514029, .ofNat 1), (246451153621, .ofNat 1), (247217233873, .negSucc 0), (262439972051, .ofNat 1), (263137515887, .negSucc 0), (264400543369, .negSucc 0), (264482029013, .negSucc 0), (268462617431, .negSucc 0), (269586501557, .negSucc 0), (270494648143, .ofNat 1), (270585509669, .negSucc 0), (274614940273, .ofNat 1), (280074854989, .ofNat 1), (281339778737, .ofNat 1), (290100995167, .ofNat 1), (292346276779, .negSucc 0), (302872808737, .negSucc 0), (311031383693, .ofNat 1), (317567799629, .negSucc 0), (322056365041, .negSucc 0), (323171169697, .ofNat 1), (323881706297, .negSucc 0), (325388043889, .ofNat 1), (336969285287, .negSucc 0), (350518876619, .ofNat 1), (359683757813, .ofNat 1), (364572474421, .ofNat 1), (385268838601, .negSucc 0), (393396526429, .negSucc 0), (400306167629, .negSucc 0), (406707497683, .negSucc 0), (419454434929, .ofNat 1), (423503775313, .negSucc 0), (424308798163, .negSucc 0), (425865369217, .ofNat 1), (429976599649, .negSucc 0), (491573402459, .negSucc 0), (640937720911, .negSucc 0), (661454397601, .ofNat 1), (676143455387, .negSucc 0), (31029726382289, .ofNat 1), (32151298197353, .ofNat 1), (32174734735879, .ofNat 1), (33337692964783, .ofNat 1), (36745104403547, .ofNat 1), (39484692698989, .ofNat 1), (40911869913253, .ofNat 1), (44877923387281, .negSucc 0), (46269116410903, .ofNat 1), (46396413531487, .negSucc 0)] 0)) .nil

def jac91 : JTree := .node (.node (.node (.node (.node (.node (.leaf (.trans [(181541, .negSucc 0), (354071, .negSucc 0)] 0)) (.leaf (.adef 9859 [(30288059, .negSucc 0), (910672769, .ofNat 1), (1375298149, .negSucc 0)] 0))) (.node (.leaf (.adef 8527 [(8629919, .ofNat 1), (10449589, .negSucc 0), (11653907, .negSucc 0), (12429101, .ofNat 1), (14121619, .negSucc 0), (15333973, .negSucc 0), (18828211, .ofNat 1), (26271503, .negSucc 0)] 0)) .nil)) (.node (.node (.leaf (.adef 17189 [(3037, .ofNat 1), (8491054151, .negSucc 0), (12330312847, .ofNat 1)] 0)) .nil) (.node (.leaf (.adef 40283 [(77274761, .ofNat 1), (3185107147, .negSucc 0), (3568275761, .ofNat 1), (96974138839969, .negSucc 0), (189134852805739, .negSucc 0), (519808404387359, .negSucc 0), (582341392027117, .ofNat 1)] 0)) .nil))) (.node (.node (.node (.leaf (.atom 28579)) (.leaf (.adef 45329 [(13109246323, .ofNat 1), (17053815739, .ofNat 1)] 0))) (.node (.leaf (.adef 15877 [(1549063, .negSucc 0), (3452023, .ofNat 1), (3454811, .ofNat 1), (4679513, .negSucc 0), (123424507, .negSucc 0), (137306789, .ofNat 1), (308746693, .negSucc 0), (661271297, .ofNat 1)] 0)) .nil)) (.node (.node (.leaf (.adef 29669 [(99606541, .ofNat 1), (101397151, .negSucc 0), (124911973, .ofNat 1), (112564011163, .ofNat 1), (112629467393, .negSucc 0)] 0)) .nil) (.node (.leaf (.adef 14177 [(8775433, .negSucc 0), (11804371, .ofNat 1), (18262319, .negSucc 0), (26584357, .negSucc 0)] 0)) .nil)))) (.node (.node (.node (.node (.leaf (.atom 47939)) (.leaf (.adef 27691 [(7797649, .negSucc 0), (9343237, .ofNat 1)] 0))) (.node (.leaf (.adef 37699 [(4011151, .ofNat 1), (5894423, .ofNat 1), (29387703661, .negSucc 0)] 0)) .nil)) (.node (.node (.leaf (.adef 15287 [(5998747, .ofNat 1), (7208423, .negSucc 0), (17110657, .ofNat 1)] 0)) (.leaf (.trans [] 0))) (.node (.leaf (.adef 16187 [(17125985267, .ofNat 1), (18826928467, .negSucc 0), (19042263341, .ofNat 1), (32917152899, .negSucc 0)] 0)) .nil))) (.node (.node (.node (.leaf (.atom 6733)) (.leaf (.adef 46511 [(22348247, .negSucc 0), (23824289, .negSucc 0), (23986177, .ofNat 1), (24076967, .ofNat 1), (24510029, .negSucc 0), (30010249, .negSucc 0)] 0))) (.node (.leaf (.adef 39461 [(1786273, .negSucc 0), (2909693, .negSucc 0), (3191983, .ofNat 1), (3795107, .ofNat 1), (5192063, .ofNat 1), (7290259, .negSucc 0), (102927949, .negSucc 0), (324629873, .negSucc 0), (400647587, .negSucc 0), (528688753, .ofNat 2)] 0)) .nil)) (.node (.node (.leaf (.adef 36241 [(5988107, .negSucc 0), (9310853, .negSucc 0)] 0)) .nil) (.node (.leaf (.adef 3559 [(3872593, .ofNat 2), (4999381, .ofNat 2)] 0)) .nil))))) (.node (.node (.node (.node (.node (.leaf (.atom 47591)) (.leaf (.adef 21323 [(128136487, .ofNat 1), (128702803, .negSucc 0), (53903807609, .negSucc 0), (54019126831, .ofNat 1)] 0))) (.node (.leaf (.adef 30557 [(5432279, .ofNat 1), (7131221, .ofNat 1)] 0)) .nil)) (.node (.node (.leaf (.adef 4057 [(1726001, .ofNat 1), (8943049429, .negSucc 0)] 0)) (.leaf (.trans [] 0))) (.node (.leaf (.adef 32363 [(2480923, .negSucc 0), (2988593, .ofNat 1)] 0)) .nil))) (.node (.node (.node .nil (.leaf (.adef 45817 [(16977, .negSucc 1), (117649089, .ofNat 2), (162722367, .ofNat 1), (6382598931, .ofNat 1), (9268512507, .negSucc 0), (264916482093, .negSucc 1)] 0))) jac90) (.node (.node (.leaf (.adef 8329 [(8550121, .negSucc 0), (10907779, .negSucc 0), (11597483, .ofNat 1), (13804283, .ofNat 1), (15139643, .ofNat 1)] 0)) .nil) (.node (.leaf (.adef 20563 [(22302373, .negSucc 0), (32218751, .negSucc 0), (2986117429, .negSucc 0), (6713636843, .ofNat 1)] 0)) .nil)))) (.node (.node (.node (.node (.leaf (.atom 8039)) (.leaf (.adef 14593 [(45053, .ofNat 1), (45061, .ofNat 1), (1462269703, .negSucc 0), (1613042363, .ofNat 1), (374564268731, .negSucc 0), (391473603979, .negSucc 0), (507371461529, .ofNat 1), (616658739481, .negSucc 0), (785751936337, .ofNat 1), (792932553943, .ofNat 1), (1135118306599, .ofNat 1), (1317092997391, .ofNat 1)] 0))) (.node (.leaf (.adef 38447 [(3434339, .ofNat 1), (3370948497947, .ofNat 1), (4895134200259, .negSucc 0)] 0)) .nil)) (.node (.node (.leaf (.adef 7307 [(188602529, .negSucc 0), (197217413, .negSucc 0), (792073771, .negSucc 0), (828253687, .negSucc 0)] 0)) .nil) (.node (.leaf (.adef 41603 [(32298612821, .negSucc 0), (54580179383, .negSucc 0), (1722554791889, .ofNat 1), (1921524326347, .negSucc 0), (3344395934239, .negSucc 0), (3746727000557, .ofNat 1)] 0)) .nil))) (.node (.node (.node (.leaf (.atom 5443)) (.leaf (.atom 367))) (.node (.leaf (.adef 13907 [(40063, .ofNat 1), (8427479, .negSucc 0), (10410277, .ofNat 1), (11647553, .negSucc 0), (14719219, .negSucc 0), (17531903, .ofNat 1), (19731053, .ofNat 1), (22383497, .ofNat 1), (24301793, .negSucc 0), (28833589, .ofNat 1), (44101139, .ofNat 1)] 0)) .nil)) (.node (.node (.leaf (.adef 36749 [(17945437, .ofNat 1), (26046011, .ofNat 1)] 0)) .nil) (.node (.leaf (.adef 33599 [(1466357, .ofNat 1), (1599187, .negSucc 0), (2165803, .negSucc 0), (2907503, .negSucc 0)] 0)) .nil)))))

def jac92 : JTree := .node (.node (.node (.node (.node (.leaf (.atom 5407)) (.leaf (.adef 27427 [(705773701, .negSucc 0), (731817011, .negSucc 0), (3694505327, .negSucc 0), (5868102073, .ofNat 1), (8440515227, .ofNat 1), (9767675063, .ofNat 1), (10212976079, .ofNat 1), (125618455727, .ofNat 1), (130253823097, .ofNat 1), (151177506367, .ofNat 1), (156756012137, .ofNat 1), (172381438499, .negSucc 0), (178742377189, .negSucc 0), (186578340973, .ofNat 1), (193463150603, .ofNat 1), (272871472613, .ofNat 1), (283039227959, .ofNat 1), (322604191541, .negSucc 0), (334761596929, .negSucc 0), (336769059647, .ofNat 1), (349317771221, .ofNat 1), (392152224509, .negSucc 0), (407054399489, .negSucc 0), (497028707251, .ofNat 1), (508004057503, .ofNat 1), (574243335511, .ofNat 1), (613416597769, .ofNat 1), (697114685011, .negSucc 0), (51841329032203, .negSucc 0), (53794980191807, .negSucc 0), (60237611182363, .ofNat 1), (62526700383223, .ofNat 1), (71139888008911, .ofNat 1), (73820809337459, .ofNat 1), (82661787292831, .negSucc 0), (85803017512651, .negSucc 0), (156157029980411, .ofNat 1), (192723906387809, .ofNat 1), (203144646917123, .ofNat 1), (278767687886951, .negSucc 0)] 0))) (.node (.leaf (.adef 37507 [(5751917, .negSucc 0), (6144731, .ofNat 1), (8867077, .ofNat 1), (9637757, .ofNat 1), (50254969, .negSucc 0), (1497047873, .negSucc 0), (6930046999, .ofNat 1), (7265323951, .ofNat 1)] 0)) .nil)) (.node (.node (.leaf (.adef 5503 [(1268569, .ofNat 1), (1348163, .negSucc 0)] 0)) .nil) (.node (.leaf (.adef 41221 [(11231587, .negSucc 0), (13279003, .ofNat 1), (18077263, .negSucc 0), (22558519, .negSucc 0), (26344559, .ofNat 1), (30228953, .ofNat 1), (68892049, .ofNat 1)] 0)) .nil))) (.node (.node (.node (.leaf (.atom 12899)) (.leaf (.adef 46099 [(729486433, .negSucc 0), (729890603, .ofNat 1), (780217139, .negSucc 0), (780908323, .ofNat 1), (815759633, .ofNat 1), (816120409, .negSucc 0), (1100711131, .ofNat 1), (1168245143, .negSucc 0), (1182188059, .ofNat 1), (1185320071, .negSucc 0), (1190628283, .ofNat 1), (6998332924817, .ofNat 1), (7587395854571, .ofNat 1), (7896742790131, .negSucc 0), (10712979049513, .negSucc 0)] 0))) (.node (.leaf (.adef 19259 [(14393143, .ofNat 1), (1175492869, .negSucc 0), (1214649217, .ofNat 1), (1683724001, .negSucc 0), (1763605091, .ofNat 1), (3009129181, .ofNat 1), (12779190899, .ofNat 1), (19201351837, .ofNat 1)] 0)) .nil)) (.node (.node (.leaf (.adef 12253 [(107539273, .negSucc 0), (107947597, .ofNat 1), (45119387143, .ofNat 1), (124780287613, .negSucc 0)] 0)) .nil) (.node (.leaf (.adef 42643 [(95426294189, .negSucc 0), (102631390753, .ofNat 1)] 0)) .nil)))) (.node (.node (.node (.node .nil (.leaf (.adef 11959 [(5076263, .negSucc 0), (550230853, .ofNat 1), (3055945001939, .negSucc 0)] 0))) (.node (.leaf (.adef 13751 [(318832313, .negSucc 0), (330597343, .negSucc 0), (336253277, .negSucc 0), (348661147, .negSucc 0), (725332313, .ofNat 1), (752097343, .ofNat 1), (822230531, .negSucc 0), (846746573, .negSucc 0), (1741081921, .negSucc 0), (1854783509, .ofNat 1), (2395775923, .ofNat 1), (4723709791, .ofNat 1), (4765453981, .ofNat 1), (4878117799, .ofNat 1), (5209607849, .ofNat 1), (5452832207, .ofNat 1), (5867053061, .ofNat 1), (5987967313, .ofNat 1), (34697693941, .ofNat 1), (35978051651, .ofNat 1), (47916329233, .negSucc 0), (49684459463, .negSucc 0), (49805914919, .ofNat 1), (68780265947, .negSucc 0), (80639654941, .negSucc 0), (105051390397, .negSucc 0), (114234012391, .ofNat 1), (125049705317, .negSucc 0), (127535952881, .negSucc 0), (141633843149, .ofNat 1), (172652154599, .negSucc 0), (172998719767, .ofNat 1), (175290967127, .negSucc 0), (175642829191, .ofNat 1), (12650062239847, .ofNat 1), (13116854204417, .ofNat 1), (13260399613919, .ofNat 1), (13749713252809, .ofNat 1), (16096945683947, .ofNat 1), (16873587519619, .ofNat 1)] 0)) .nil)) (.node (.node (.leaf (.adef 23203 [(83012491, .ofNat 1), (128469433, .negSucc 0), (128563663, .ofNat 1), (134489557, .ofNat 1), (136578457, .negSucc 0)] 0)) .nil) (.node (.leaf (.adef 16253 [(56914483, .ofNat 2), (4955880179, .ofNat 1), (6924683357, .ofNat 1), (15580545613, .ofNat 1), (19808120177, .ofNat 1), (473302340947, .negSucc 1), (709811947087, .negSucc 0), (987030100087, .ofNat 1)] 1)) .nil))) (.node (.node (.node (.leaf (.atom 3469)) .nil) (.node (.leaf (.adef 25579 [(2189129, .negSucc 0), (282767731, .negSucc 0), (13969156259, .ofNat 1), (54896372177, .negSucc 0), (76336235177, .ofNat 1)] 0)) .nil)) (.node (.node (.leaf (.adef 15671 [(33925097, .ofNat 1), (34472003, .negSucc 0), (34546597, .negSucc 0), (34690819, .ofNat 1)] 0)) .nil) (.node (.leaf (.adef 2879 [(130813, .negSucc 0), (236488799, .ofNat 1), (331759111, .ofNat 1)] 0)) .nil))))

def jac93 : JTree := .node (.node (.node (.node (.node (.node (.node (.node (.leaf (.atom 373)) (.leaf (.adef 27067 [(1915413751, .ofNat 1), (4005717571, .ofNat 1), (4758132319, .ofNat 1), (5313957203, .ofNat 1), (5326653341, .ofNat 1), (5421466943, .ofNat 1), (6816947407, .ofNat 1), (9101028583, .ofNat 1), (11940687893, .ofNat 1), (12056390077, .ofNat 1), (1248249675227, .ofNat 1), (1386243341999, .negSucc 0), (1485759187901, .ofNat 1), (451136150457491, .ofNat 1)] 0))) (.node (.leaf (.adef 7681 [(37087, .ofNat 1), (1409277553, .negSucc 0)] 0)) .nil)) (.node (.node (.leaf (.adef 2221 [(86881, .negSucc 0), (127117, .negSucc 0)] 0)) .nil) (.node (.leaf (.adef 25639 [(25633, .ofNat 1), (18255487, .ofNat 1), (1154354359, .negSucc 0), (1551882301, .negSucc 0), (2019580867, .ofNat 1), (2834971411, .negSucc 0), (4395180011, .negSucc 0), (4545155759, .negSucc 0), (6441299581, .negSucc 0), (564749920963, .negSucc 0), (570232384669, .ofNat 1), (966797259403, .negSucc 0)] 0)) .nil))) (.node (.node (.node (.leaf (.atom 1231)) (.leaf (.adef 9901 [(22303, .ofNat 1), (4061779, .ofNat 1), (7578827, .ofNat 1), (7625999, .ofNat 1), (10120717, .ofNat 1), (348762881, .negSucc 0), (744618773, .negSucc 0)] 0))) (.node (.leaf (.adef 8693 [(38699, .ofNat 1), (7521959, .negSucc 0), (12633163, .negSucc 0), (14807701, .negSucc 0), (19890907, .ofNat 1), (21352777, .ofNat 1), (23402803, .negSucc 0), (27888689, .negSucc 0), (44449651, .negSucc 0)] 0)) .nil)) (.node (.node (.leaf (.adef 23293 [(15176111, .ofNat 1), (131164753, .negSucc 0), (131574241, .ofNat 1)] 0)) .nil) (.node (.leaf (.adef 20327 [(295792441, .ofNat 1), (308698859, .ofNat 1), (450590286517, .negSucc 0)] 0)) .nil)))) (.node (.node (.node (.node (.leaf (.atom 5857)) (.leaf (.adef 44579 [(44563, .negSucc 0), (30961603, .negSucc 0)] 0))) (.node (.leaf (.adef 37589 [(495599831, .negSucc 0), (752824531, .negSucc 0)] 0)) .nil)) (.node (.node (.leaf (.adef 10949 [(6578501, .ofNat 1), (28058753, .ofNat 1)] 0)) (.leaf (.trans [] 0))) (.node (.leaf (.adef 19997 [(45246732623, .negSucc 0), (46139450011, .negSucc 0), (143011099457, .ofNat 1), (174874506251, .ofNat 1), (6950247675961, .ofNat 1), (7087375963277, .ofNat 1), (9537561064357, .negSucc 0), (9725737007849, .negSucc 0), (22981367436031, .ofNat 1), (28101701886133, .ofNat 1), (31536458192947, .negSucc 0), (38562898798321, .negSucc 0)] 0)) .nil))) (.node (.node (.node (.leaf (.atom 9623)) (.leaf (.adef 34981 [(20273389, .ofNat 1), (21591571, .negSucc 0), (22615891, .ofNat 1), (22799827, .negSucc 0)] 0))) (.node (.leaf (.adef 31573 [(38525699, .ofNat 2), (56490053, .negSucc 1), (4664057759, .ofNat 1), (15484936633, .negSucc 0), (19670450257, .ofNat 1), (623327562493, .ofNat 1), (683066601643, .ofNat 1), (949839318643, .negSucc 0), (99188861434501, .ofNat 1)] 1)) .nil)) (.node (.node (.leaf (.adef 36109 [(23058151, .negSucc 0), (25996253, .negSucc 0)] 0)) .nil) (.node (.leaf (.adef 42703 [(3615317, .negSucc 0), (4535309, .ofNat 1)] 0)) .nil))))) jac87) (.node jac88 jac89)) (.node jac91 (.node (.node (.node (.node (.node (.node (.leaf (.trans [(87809, .ofNat 1), (108371, .ofNat 1)] 0)) (.leaf (.adef 9377 [(44119, .ofNat 1), (9313189, .ofNat 1), (11343587, .ofNat 1), (23602091, .negSucc 0), (25874389, .ofNat 1)] 0))) (.node (.leaf (.adef 30497 [(6175061, .ofNat 1), (6537871, .ofNat 1), (1268028439, .negSucc 0), (79193981621, .ofNat 1), (87059483221, .negSucc 0)] 0)) .nil)) (.node (.node (.leaf (.adef 8273 [(4045339, .negSucc 0), (61129571, .negSucc 0)] 0)) (.leaf (.trans [] 0))) (.node (.leaf (.adef 32213 [(140579343, .ofNat 2), (156796407, .ofNat 1), (271541602989, .negSucc 1)] 0)) .nil))) (.node (.node (.node (.leaf (.atom 16903)) (.leaf (.adef 34537 [(34780951, .negSucc 0), (38844863, .negSucc 0), (53305331, .ofNat 1), (9429792343, .ofNat 1)] 0))) (.node (.leaf (.adef 25057 [(1201393, .ofNat 1), (2325937, .negSucc 0), (300199457, .negSucc 0), (14245317503, .ofNat 1), (51450368659, .ofNat 1), (71544389659, .negSucc 0), (3596391342611, .negSucc 0)] 0)) .nil)) (.node (.node (.leaf (.adef 23563 [(8014099, .ofNat 1), (12637357, .negSucc 0), (12809339, .ofNat 1)] 0)) .nil) (.node (.leaf (.adef 42403 [(12798763, .negSucc 0), (12808423, .ofNat 1), (12909269, .negSucc 0)] 0)) .nil)))) (.node (.node (.node (.node (.leaf (.atom 2699)) (.leaf (.adef 34273 [(314137763, .ofNat 1), (374820007, .negSucc 0)] 0))) (.node (.leaf (.adef 38069 [(582919, .negSucc 0), (3570379, .ofNat 1), (4108043, .ofNat 1), (220390229, .negSucc 0), (5081073882491, .negSucc 0), (7378498529827, .ofNat 1)] 0)) .nil)) (.node (.node (.leaf (.adef 4111 [(4687619, .ofNat 1), (54757909, .ofNat 1), (79827541, .ofNat 1), (86278991, .negSucc 0), (125290327, .ofNat 1), (154650521, .negSucc 0), (215049521, .ofNat 1)] 0)) .nil) (.node (.leaf (.adef 26153 [(2331233, .negSucc 0), (251609263, .ofNat 1), (302457539, .negSucc 0), (14768438651, .negSucc 0), (51837375193, .ofNat 1), (72082542193, .negSucc 0)] 0)) .nil))) (.node (.node (.node (.leaf (.atom 48679)) (.leaf (.adef 47119 [(23002613, .negSucc 0), (23127187, .ofNat 1), (23183729, .negSucc 0), (31898323, .negSucc 0), (32023697, .ofNat 1), (32544653, .negSucc 0)] 0))) (.node (.leaf (.adef 31771 [(1954039, .ofNat 1), (2270419, .ofNat 1), (2495029, .negSucc 0), (2797547, .ofNat 1), (90284549, .negSucc 0), (332020411, .negSucc 0), (455619007, .ofNat 1)] 0)) .nil)) (.node (.node (.leaf (.adef 36469 [(2335387, .negSucc 1), (5123609, .ofNat 2), (92014903, .negSucc 1), (22811177971, .negSucc 1)] 0)) .nil) (.node (.leaf (.adef 43037 [(42979, .ofNat 4), (2378353301, .negSucc 3), (2442038371, .negSucc 3), (2499687611, .negSucc 3), (17943041471, .ofNat 4), (126806888477, .negSucc 1), (147655089539, .negSucc 3), (153057225599, .negSucc 3), (155718046501, .negSucc 3), (158990554357, .negSucc 3), (314028529501, .ofNat 4), (321270937019, .negSucc 3), (17699126919127, .ofNat 4), (18328799967427, .negSucc 3), (18582603559739, .ofNat 4), (31464673900787, .negSucc 1)] 1)) .nil))))) jac92))

def jac94 : JTree := .node (.node (.node (.node (.node (.leaf (.atom 277)) (.leaf (.adef 14411 [(5306635541, .ofNat 1), (5550484697, .ofNat 1), (5922019109, .ofNat 1), (6048705497, .ofNat 1), (8895259796675870603, .ofNat 1), (10978239126121021457, .ofNat 1), (11571841567801845779, .ofNat 1), (15879598933100532023, .negSucc 0)] 0))) (.node (.leaf (.trans [(356353, .ofNat 1)] 0)) .nil)) (.node (.node (.leaf (.atom 49003)) .nil) (.node (.leaf (.adef 8863 [(13922681, .ofNat 1), (862706641, .ofNat 1), (3080865407, .ofNat 1), (4220838749, .negSucc 0)] 0)) .nil))) (.node (.node (.node .nil (.leaf (.adef 27967 [(5733151, .negSucc 0), (7650967, .negSucc 0)] 0))) (.node (.leaf (.adef 18869 [(9865847, .negSucc 0), (10551551, .negSucc 0), (14196433, .ofNat 1), (15524879, .ofNat 1), (17017409, .negSucc 0), (19359871, .negSucc 0), (68765507, .negSucc 0), (1528377865717, .negSucc 0)] 0)) .nil)) (.node (.node (.leaf (.adef 3061 [(292822789, .negSucc 0), (349711943, .negSucc 0), (68873386253, .negSucc 0), (70098128527, .negSucc 0), (91165622303, .negSucc 0), (108688659779, .negSucc 0), (109991548289, .negSucc 0), (543113203423, .ofNat 1), (5624593954483, .negSucc 0), (21782585663251, .negSucc 0), (94396091688269, .ofNat 1), (113889117574547, .ofNat 1)] 0)) .nil) (.node (.leaf (.adef 32887 [(56829967, .ofNat 4), (4964658577, .ofNat 1), (6928774267, .negSucc 1), (15561423817, .negSucc 1), (19799515807, .negSucc 1), (475296792469, .negSucc 3), (711240096601, .negSucc 1), (989016015601, .ofNat 2)] 1)) .nil)))) (.node (.node (.node (.node (.leaf (.atom 5413)) (.leaf (.adef 21401 [(56798383, .ofNat 1), (60700949, .ofNat 1)] 0))) (.node (.leaf (.adef 24509 [(6583237, .negSucc 0), (8057531, .ofNat 1), (9607452331, .ofNat 1), (2658429435583, .ofNat 1)] 0)) .nil)) (.node (.node (.leaf (.adef 857 [(194177, .negSucc 0), (20616833, .negSucc 0), (6828615389, .ofNat 1), (7158985061, .ofNat 1), (7670429453, .ofNat 1), (12647496683, .ofNat 1)] 0)) .nil) (.node (.leaf (.adef 14033 [(32710583189, .negSucc 0), (32776243237, .ofNat 1), (34228074247, .negSucc 0), (34908599371, .negSucc 0), (35879502719, .negSucc 0), (36592861667, .negSucc 0), (40556446471, .negSucc 0), (40637855543, .ofNat 1), (176029725593, .ofNat 1), (176383070569, .negSucc 0), (22307144034977, .negSucc 0), (29060100745409, .negSucc 0), (3499354760907059, .ofNat 1), (3628482242859349, .ofNat 1), (3668190846866443, .ofNat 1), (3803548442691773, .ofNat 1), (4452857420554759, .ofNat 1), (4667697889609343, .ofNat 1), (5981033941063319, .ofNat 1), (5993039687747527, .negSucc 0)] 0)) .nil))) (.node (.node (.node (.leaf (.atom 12959)) (.leaf (.adef 46171 [(44560507, .negSucc 0), (49629971, .negSucc 0), (50179369, .ofNat 1), (62616053, .ofNat 1), (63507277, .negSucc 0)] 0))) (.node (.leaf (.adef 31481 [(117681, .ofNat 8), (504793269, .negSucc 3), (681582303, .negSucc 3), (739360359, .negSucc 3), (1351398697659, .ofNat 6)] 1)) .nil)) (.node (.node (.leaf (.adef 8377 [(6963787, .ofNat 1), (12515249, .ofNat 1), (2767824421, .ofNat 2), (3303577051, .ofNat 1), (3794410651, .ofNat 1)] 0)) .nil) (.node (.leaf (.adef 11399 [(42649, .ofNat 1), (11048489, .ofNat 1), (2430671891, .negSucc 0), (2461027651, .negSucc 0), (4119778601, .negSucc 0), (4119888067, .negSucc 0), (8064763757, .negSucc 0), (8199709703, .negSucc 0), (8533877479, .negSucc 0), (8569877527, .negSucc 0), (11107035677, .ofNat 1), (11955092729, .negSucc 0), (12419292049, .negSucc 0), (13499479453, .negSucc 0)] 0)) .nil))))

def jac95 : JTree := .node (.leaf (.adef 30391 [(8931203, .ofNat 1), (8961361, .ofNat 1), (10326781, .negSucc 0), (11400413, .negSucc 0), (11455159, .ofNat 1), (12009709, .negSucc 0), (19069361, .ofNat 2), (19133911, .ofNat 2), (25638937, .ofNat 1), (25684933, .ofNat 1), (28101539, .ofNat 1), (30351499, .ofNat 1), (30391769, .ofNat 1), (33839339, .ofNat 1), (37043519, .ofNat 1), (50673067, .ofNat 1), (51154813, .ofNat 1), (269980769, .negSucc 0), (279943159, .negSucc 0), (647722249, .negSucc 0), (671623439, .negSucc 0), (954588191, .ofNat 1), (984985543, .ofNat 1), (1047589637, .negSucc 0), (1060881803, .negSucc 0), (1079951531, .negSucc 0), (1094908351, .negSucc 0), (1607524229, .negSucc 0), (1610891143, .ofNat 1), (1767182629, .ofNat 1), (1770883943, .negSucc 0), (4191733723, .ofNat 1), (4213726343, .ofNat 1), (4313775577, .ofNat 2), (4443988007, .ofNat 1), (4509990491, .negSucc 0), (4620826387, .ofNat 1), (4724718769, .ofNat 1), (4811300987, .negSucc 0), (4844455543, .ofNat 1), (4944905807, .ofNat 1), (5162717363, .ofNat 1), (5174405503, .ofNat 1), (5295482567, .ofNat 1), (5309322709, .ofNat 1), (5373078449, .negSucc 0), (49061525911, .ofNat 1), (50871914321, .ofNat 1), (70310032123, .ofNat 1), (87174387497, .ofNat 1), (89468079023, .ofNat 1), (113030274289, .negSucc 0), (119660865439, .negSucc 0), (125138488967, .ofNat 1), (127254800579, .ofNat 1), (130830215533, .negSucc 0), (135502303229, .negSucc 0), (139302794723, .negSucc 0), (140906402339, .ofNat 1), (145617214849, .negSucc 0), (145726591289, .ofNat 1), (147247498513, .negSucc 0), (147899101211, .ofNat 1), (148833917879, .negSucc 0), (152152099873, .negSucc 1), (152909970757, .negSucc 0), (154987137647, .ofNat 1), (157766568503, .negSucc 1), (159334128689, .ofNat 1), (166918509931, .ofNat 1), (167182849279, .negSucc 0), (172478324251, .ofNat 2), (177621025333, .ofNat 2), (188838934237, .ofNat 1), (191654168263, .ofNat 1), (684302701601, .ofNat 1), (982986489049, .ofNat 1), (996550802747, .ofNat 1), (1244433856579, .ofNat 1), (1382005685623, .negSucc 0), (1638987202579, .negSucc 1), (1870611425359, .ofNat 2), (1974465869359, .ofNat 1), (3846785986423, .negSucc 0), (4483276630111, .negSucc 0), (5256330253807, .ofNat 1), (7575668327779, .ofNat 1), (11044011451171, .ofNat 1), (11556869684077, .ofNat 1), (11983322439947, .ofNat 1), (14315281333289, .negSucc 0), (14705880497177, .ofNat 1), (14843520496879, .negSucc 0), (17248045011553, .ofNat 1), (18215902949989, .negSucc 0), (21598455286729, .ofNat 1), (22600438729667, .ofNat 1), (23049782337431, .ofNat 1), (25144660296097, .ofNat 1), (26778996590531, .ofNat 1), (29915221649749, .ofNat 1), (41004267585629, .ofNat 1), (43441489745453, .negSucc 0), (59544485101813, .negSucc 0), (130122340249327, .negSucc 0), (142027830706303, .ofNat 1), (349035126708613, .negSucc 0), (538857153685093, .negSucc 0), (1556255742849817, .ofNat 1), (1877771152331197, .ofNat 1), (1980303629184917, .ofNat 1), (1988678748532771, .ofNat 1), (2259922011805649, .negSucc 0), (2446221657869149, .ofNat 1), (2726811695175509, .negSucc 0), (2875704576330349, .negSucc 0), (2887866534062987, .negSucc 0), (3061220315680973, .ofNat 1), (3552289008907253, .negSucc 0), (4006581597196103, .ofNat 1), (4445361378538981, .negSucc 0), (5818170943432591, .negSucc 0), (32199732218342197, .ofNat 1), (35397791466013397, .negSucc 0), (49711489546103317, .ofNat 1), (54648806657326517, .negSucc 0), (254077505883635327, .ofNat 1), (263453059606278697, .ofNat 1), (323308433917323427, .ofNat 1), (368959504817402119, .negSucc 0), (382574246692583009, .negSucc 0), (469493429835767819, .negSucc 0)] 0)) .nil

def jac96 : JTree := .node (.node (.node (.node (.node (.leaf (.trans [(67519, .negSucc 0), (98431, .negSucc 0)] 0)) (.leaf (.adef 27109 [(43961, .ofNat 1), (11990681, .ofNat 1), (14136641, .ofNat 1), (18514901, .negSucc 0), (20302883, .ofNat 1)] 0))) jac95) (.node (.node (.leaf (.adef 13121 [(5515401, .negSucc 1), (235577943, .ofNat 1)] 0)) .nil) (.node (.leaf (.adef 19759 [(7075799, .ofNat 1), (11679667, .negSucc 0), (65095841, .ofNat 1), (97857701, .ofNat 1), (112849489, .negSucc 0), (113081429, .negSucc 0), (153743881, .negSucc 0), (160987397, .ofNat 1), (163780649, .ofNat 1)] 0)) .nil))) (.node (.node (.node (.leaf (.atom 2113)) (.leaf (.adef 12619 [(43129927, .negSucc 0), (52109857, .negSucc 0), (2058629653, .negSucc 0), (2344060391, .ofNat 1), (15289710211, .ofNat 1)] 0))) (.node (.leaf (.adef 19031 [(27161467, .ofNat 1), (113591351, .negSucc 0), (45082044209, .negSucc 0), (82121272279, .ofNat 1)] 0)) .nil)) (.node (.node (.leaf (.adef 11057 [(377519191, .ofNat 1), (755013765751, .negSucc 0)] 0)) .nil) (.node (.leaf (.adef 26449 [(1508497, .ofNat 1), (288048353, .negSucc 0), (316657153, .ofNat 1)] 0)) .nil)))) (.node (.node (.node (.node (.leaf (.atom 10433)) (.leaf (.adef 34141 [(148315059, .ofNat 2), (166174101, .ofNat 1), (273378929877, .negSucc 1)] 0))) (.node (.leaf (.adef 37799 [(16664423, .ofNat 1), (37579709, .ofNat 1), (43198933, .ofNat 1), (39958920517, .negSucc 0), (55348700501, .negSucc 0)] 0)) .nil)) (.node (.node (.leaf (.adef 1913 [(10551, .ofNat 2), (17864361, .negSucc 0)] 0)) (.leaf (.trans [(47459, .ofNat 1)] 0))) (.node (.leaf (.adef 20089 [(27367279, .ofNat 1), (119913623, .negSucc 0), (45423646733, .negSucc 0), (86691981367, .ofNat 1)] 0)) .nil))) (.node (.node (.node (.leaf (.atom 10093)) (.leaf (.adef 35141 [(21107257, .negSucc 0), (21248749, .ofNat 1), (21915053, .ofNat 1), (22280393, .negSucc 0)] 0))) (.node (.leaf (.adef 19391 [(116566129, .negSucc 0), (181209143, .ofNat 1), (224732567, .ofNat 1), (448403029, .ofNat 1), (5840436281, .ofNat 1), (5905420273, .ofNat 1), (8618389127, .ofNat 1), (8714282191, .ofNat 1), (9360367657, .negSucc 0), (10766242009, .ofNat 1), (10889339693, .ofNat 1), (15382197563, .negSucc 0), (15553348579, .negSucc 0), (16105777477, .ofNat 1), (16921835783, .ofNat 1), (20494808777, .ofNat 1), (24961095011, .ofNat 1), (32952917563, .ofNat 1), (44630433587, .negSucc 0), (52262063999, .ofNat 1), (80594656333, .ofNat 1), (81553272959, .ofNat 1), (85768174813, .ofNat 1), (92816570881, .negSucc 0), (109694952113, .ofNat 1), (144597971851, .ofNat 1), (172224822389, .ofNat 1), (186435212581, .ofNat 1), (851278228477, .negSucc 0), (860750030741, .negSucc 0), (870330340807, .negSucc 0), (880014127631, .negSucc 0), (1434860472839, .negSucc 0), (1453352847137, .negSucc 0), (1537784267347, .ofNat 1), (1555189355393, .ofNat 1), (3023001700981, .negSucc 0), (3325374413891, .negSucc 0), (3396455751973, .negSucc 0), (4143310592821, .ofNat 1), (4190205782999, .ofNat 1), (4878450368711, .ofNat 1), (15785826339341, .ofNat 1), (24090895295783, .ofNat 1), (26483589432583, .negSucc 0), (228789422614633, .negSucc 0), (232475915695061, .negSucc 0), (309790869782087, .ofNat 1), (313571172167767, .ofNat 1)] 0)) .nil)) (.node (.node (.leaf (.adef 23879 [(6417533, .negSucc 0), (7869223, .ofNat 1), (276618887, .negSucc 0), (9688794023, .negSucc 0)] 0)) .nil) (.node (.leaf (.adef 26861 [(6007423, .ofNat 1), (1348682341, .ofNat 1)] 0)) .nil))))

def jac97 : JTree := .node (.node (.leaf (.atom 3413)) (.leaf (.adef 7937 [(45121, .ofNat 1), (260404607, .negSucc 0), (437458667, .negSucc 0), (56380956631, .negSucc 0), (57136187993, .negSucc 0), (70747925317, .negSucc 0), (259187054449, .negSucc 0), (277357750801, .negSucc 0), (354498127639, .negSucc 0)] 0))) (.node (.leaf (.adef 31121 [(8929429, .ofNat 1), (8957813, .ofNat 1), (11396881, .ofNat 1), (11449861, .ofNat 1), (19053869, .ofNat 2), (19102927, .ofNat 2), (25577609, .ofNat 1), (25753927, .ofNat 1), (28127629, .ofNat 1), (30295121, .ofNat 1), (30448147, .ofNat 1), (34033409, .ofNat 1), (37142141, .ofNat 1), (50644729, .ofNat 1), (51230381, .ofNat 1), (1104498319, .ofNat 1), (1114993457, .ofNat 1), (1243581517, .ofNat 1), (1266739907, .ofNat 1), (1520367763, .ofNat 1), (1539789677, .ofNat 1), (1787864207, .ofNat 1), (2083941323, .ofNat 1), (2206934993, .ofNat 1), (2485016981, .ofNat 1), (3222116699, .ofNat 1), (3417088249, .ofNat 1), (3505745039, .ofNat 1), (3819762917, .ofNat 1), (4442140771, .ofNat 1), (4507452749, .negSucc 0), (4636484081, .ofNat 1), (5072032991, .ofNat 1), (5294668441, .ofNat 1), (5317463969, .ofNat 1), (5553615427, .ofNat 1), (5881872973, .ofNat 1), (6121937681, .ofNat 1), (6344619131, .ofNat 2), (6418404607, .ofNat 1), (6581013847, .ofNat 1), (7587134761, .ofNat 1), (8579594671, .ofNat 1), (9035814043, .ofNat 1), (13118582417, .negSucc 0), (15282334511, .ofNat 1), (64777332979, .ofNat 1), (67167640469, .ofNat 1), (79092880879, .ofNat 1), (86772936869, .ofNat 1), (89974890259, .ofNat 1), (90070944539, .ofNat 1), (95433112939, .ofNat 1), (100644074579, .ofNat 1), (101069719477, .ofNat 1), (105469117297, .ofNat 1), (110841885629, .ofNat 1), (114613436239, .ofNat 1), (116457133249, .ofNat 1), (120754444439, .ofNat 1), (124323215563, .ofNat 1), (144396627293, .ofNat 1), (149206270253, .ofNat 2), (153527644163, .ofNat 1), (153663233813, .ofNat 1), (154712036683, .ofNat 2), (155579013851, .ofNat 1), (179119611821, .ofNat 1), (190741098803, .ofNat 1), (192406977821, .ofNat 1), (195275404679, .ofNat 1), (196858897351, .ofNat 1), (203624682161, .ofNat 1), (236194680577, .ofNat 1), (244061984017, .ofNat 2), (250013429467, .ofNat 2), (257610830219, .ofNat 1), (283196592619, .negSucc 0), (444590594993, .negSucc 0), (485268230177, .ofNat 1), (1122905294389, .ofNat 1), (1235696673737, .ofNat 1), (1428473645063, .ofNat 1), (1516653166597, .negSucc 0), (1546591626161, .ofNat 2), (1632013962811, .negSucc 0), (1641814582949, .ofNat 2), (1830289664537, .ofNat 1), (2093931703169, .negSucc 0), (2120457656129, .negSucc 0), (2450944962247, .ofNat 1), (10370499415489, .ofNat 1), (11400491569889, .negSucc 1), (12532781964289, .ofNat 1), (12912866024249, .ofNat 1), (13389355545439, .ofNat 1), (15258864901153, .ofNat 1), (15821922646583, .ofNat 1), (16431358128949, .ofNat 1), (19416593757053, .ofNat 1), (27668786509097, .ofNat 1), (29065277006383, .ofNat 1), (30027904761397, .ofNat 1), (32398932915931, .ofNat 1), (38459497544539, .ofNat 1), (43551001233329, .ofNat 1), (44772494933423, .ofNat 1), (49145897644057, .ofNat 1), (139916650490293, .ofNat 1), (153813093323093, .negSucc 0), (193172649301361, .ofNat 1), (212358447906961, .negSucc 0)] 0)) .nil)

def jac98 : JTree := .node (.node jac94 (.node (.node (.node (.node (.node (.leaf (.atom 2081)) (.leaf (.adef 14533 [(88603, .ofNat 1), (97403, .negSucc 0), (973127, .ofNat 1), (1324321, .ofNat 1)] 0))) (.node (.leaf (.adef 7691 [(1787371, .negSucc 0), (23429093, .ofNat 1), (31294633, .ofNat 1), (34155557, .ofNat 1), (14480087521, .negSucc 0)] 0)) .nil)) (.node (.node (.leaf (.adef 15061 [(405359, .ofNat 4), (927018047, .ofNat 2)] 1)) (.leaf (.trans [(601, .ofNat 1)] 0))) (.node (.leaf (.adef 40609 [(115840917, .ofNat 2), (151253073, .ofNat 1), (260604974727, .negSucc 1)] 0)) .nil))) (.node (.node (.node (.leaf (.atom 12853)) (.leaf (.adef 5843 [(22371, .ofNat 2), (50373927, .negSucc 0)] 0))) (.node (.leaf (.adef 8741 [(928919, .ofNat 1), (2770297, .ofNat 1), (2828323, .ofNat 1), (340937053, .negSucc 1), (559910401, .ofNat 1)] 0)) .nil)) (.node (.node (.leaf (.adef 29723 [(1612133345681, .ofNat 1), (1660793600327, .negSucc 0), (2062165666458211, .negSucc 0), (2994580809118667, .ofNat 1)] 0)) .nil) (.node (.leaf (.adef 6907 [(122853079, .ofNat 1), (123252671, .negSucc 0), (123466687, .ofNat 1), (153371651, .ofNat 1), (153799973, .negSucc 0), (154088747, .ofNat 1), (197049757, .negSucc 0), (197188309, .ofNat 1), (197356207, .ofNat 1), (197672047, .ofNat 1), (197718239, .ofNat 1), (197773853, .negSucc 0)] 0)) .nil)))) (.node (.node (.node (.node (.leaf (.atom 28541)) (.leaf (.adef 27739 [(23854847, .negSucc 0), (200695151, .ofNat 1), (3398633233, .ofNat 1), (5065043909, .negSucc 0), (3661791556261, .ofNat 1)] 0))) (.node (.leaf (.adef 15787 [(34088357, .negSucc 0), (34489937, .ofNat 1), (34831471, .ofNat 1), (34971659, .negSucc 0)] 0)) .nil)) (.node (.node (.leaf (.adef 863 [(884839, .negSucc 0), (1169717, .ofNat 1), (21543941, .negSucc 0)] 0)) .nil) (.node (.leaf (.adef 32603 [(5709919, .ofNat 1), (7491793, .ofNat 1)] 0)) .nil))) (.node (.node (.node (.leaf (.atom 3911)) (.leaf (.adef 47251 [(25048781, .negSucc 0), (25232411, .ofNat 1), (25386979, .negSucc 0), (33120869, .negSucc 0), (33154073, .ofNat 1), (33612167, .negSucc 0)] 0))) (.node (.leaf (.adef 19429 [(5374456343, .ofNat 1), (5937126383, .ofNat 1), (7045964609, .ofNat 1)] 0)) .nil)) (.node (.node (.leaf (.adef 36527 [(2907701, .negSucc 0), (482489017, .ofNat 1), (700648049, .negSucc 0)] 0)) .nil) (.node (.leaf (.adef 43151 [(37622569, .ofNat 1), (1131076319, .negSucc 0), (1209205009, .ofNat 1), (110477962349, .negSucc 0), (120586098461, .ofNat 1), (518794858177, .negSucc 0), (554630426447, .ofNat 1)] 0)) .nil)))))) (.node jac96 (.node (.node (.node (.node (.node (.leaf (.atom 2663)) (.leaf (.adef 27361 [(1205747, .ofNat 1), (2339839, .negSucc 0), (183030091, .negSucc 0), (31369029617, .ofNat 1), (43620252617, .negSucc 0)] 0))) (.node (.leaf (.adef 15739 [(37339, .negSucc 0), (23566681807, .ofNat 1), (1016386102271, .negSucc 0)] 0)) .nil)) (.node (.node (.leaf (.adef 22811 [(52053, .ofNat 2), (55013859, .negSucc 1), (64353573, .negSucc 0), (142903791, .negSucc 0), (92847803337, .ofNat 2)] 0)) (.leaf (.trans [] 0))) (.node (.leaf (.adef 40949 [(40939, .ofNat 1), (11109481, .negSucc 0), (13116221, .ofNat 1), (18260969, .negSucc 0), (22692907, .negSucc 0), (26531377, .ofNat 1), (29549623, .ofNat 1), (30448909, .ofNat 1), (32028107, .negSucc 0), (38012827, .ofNat 1), (69047687, .ofNat 1)] 0)) .nil))) (.node (.node (.node (.leaf (.atom 35461)) (.leaf (.adef 45863 [(12193679, .negSucc 0), (27598943, .ofNat 1), (38649811, .negSucc 0), (1867441757, .ofNat 1), (1867969861, .ofNat 1), (1909369801, .ofNat 1), (1909639877, .ofNat 1), (2711811829, .negSucc 0), (2712578717, .negSucc 0), (2783530249, .ofNat 1), (2783923973, .ofNat 1), (157606537313, .ofNat 1)] 0))) (.node (.leaf (.adef 39023 [(9793769, .ofNat 1), (1349367449, .negSucc 0)] 0)) .nil)) (.node (.node (.leaf (.adef 15581 [(47112991, .ofNat 1), (17528243731, .negSucc 0), (28901693941, .negSucc 0)] 0)) .nil) (.node (.leaf (.adef 42533 [(11738852533, .ofNat 1)] 0)) .nil)))) (.node (.node jac97 (.node (.node (.leaf (.adef 4943 [(288817949, .negSucc 0), (370733503, .negSucc 0), (503609729, .ofNat 1), (90772946873, .ofNat 1), (109214277221, .negSucc 0), (534464470967, .ofNat 1), (746932209863, .ofNat 1), (979521299743, .negSucc 0), (147570369586801, .negSucc 0), (177550600799677, .ofNat 1)] 0)) .nil) (.node (.leaf (.adef 26263 [(6020489, .negSucc 0), (7519433, .negSucc 0), (8792803, .negSucc 0), (70119961, .ofNat 1), (70260713, .negSucc 0), (22474984019, .negSucc 0)] 0)) .nil))) (.node (.node (.node (.leaf (.atom 48889)) (.leaf (.atom 673))) (.node (.leaf (.adef 31973 [(25845233, .negSucc 0), (27267883, .ofNat 1), (31036073, .ofNat 1), (8518862593, .negSucc 0)] 0)) .nil)) (.node (.node (.leaf (.adef 36787 [(1478317, .negSucc 0), (1809989, .ofNat 1)] 0)) .nil) (.node (.leaf (.adef 43541 [(47845529, .negSucc 0), (48190357, .negSucc 0), (48377741, .ofNat 1), (65931127, .ofNat 1), (66224869, .negSucc 0)] 0)) .nil))))))

def jac99 : JTree := .node (.node (.node (.node (.node (.leaf (.atom 47527)) (.leaf (.adef 43793 [(92584111, .negSucc 0), (108443977, .ofNat 1), (507034751, .negSucc 0), (1017672713, .negSucc 0), (196049214371, .negSucc 0), (275028303019, .negSucc 0)] 0))) (.node (.leaf (.trans [(798899, .ofNat 1)] 0)) .nil)) (.node (.node (.leaf (.adef 7583 [(741971, .negSucc 0), (46339369, .ofNat 1), (50941769, .negSucc 0)] 0)) .nil) (.node (.leaf (.adef 40231 [(15530003, .ofNat 1), (18589643, .negSucc 0)] 0)) .nil))) (.node (.node (.node (.leaf (.atom 1471)) (.leaf (.adef 34471 [(435431, .ofNat 1), (7888939, .ofNat 1), (146578727, .negSucc 0), (156621233, .ofNat 1)] 0))) (.node (.leaf (.adef 24917 [(9880933, .negSucc 0), (12809161, .negSucc 0), (17207647, .ofNat 1), (17864167, .ofNat 1), (19385207, .negSucc 0), (19617583, .negSucc 0), (68477089, .negSucc 0), (6214795397, .negSucc 1), (1524819360791, .negSucc 0)] 0)) .nil)) (.node (.node (.leaf (.adef 601 [(5111597, .ofNat 1), (6142511, .ofNat 1)] 0)) .nil) (.node (.leaf (.adef 41969 [(5436239, .negSucc 0), (6629137, .negSucc 0), (10599331, .ofNat 1), (151354529311, .negSucc 0), (186796816909, .negSucc 0), (196897074823, .negSucc 0), (270194381851, .ofNat 1)] 0)) .nil)))) (.node (.node (.node (.node (.leaf (.atom 823)) (.leaf (.adef 27551 [(44617, .negSucc 0), (9151111, .ofNat 1), (125777009803, .ofNat 1)] 0))) (.node (.leaf (.adef 24671 [(5775479, .ofNat 1), (1337810437, .ofNat 1), (45266773367, .ofNat 1)] 0)) .nil)) (.node (.node (.leaf (.adef 3373 [(1504333, .negSucc 0), (1796827, .ofNat 2)] 0)) (.leaf (.trans [] 0))) (.node (.leaf (.adef 41333 [(27569879, .ofNat 1), (27743717, .ofNat 1), (31218101, .ofNat 1), (31350997, .ofNat 1), (34438373, .ofNat 1), (37406153, .ofNat 1), (884695061, .ofNat 1), (1091124319, .ofNat 1), (1241507737, .ofNat 1), (1274634679, .ofNat 1), (1797894599, .ofNat 1), (1946383973, .ofNat 1), (3510660173, .ofNat 1), (3761629649, .ofNat 1), (4090059401, .ofNat 1), (38907435583, .negSucc 0), (39675078731, .negSucc 0), (122974518097, .ofNat 1), (150373699771, .ofNat 1), (510151313509, .negSucc 0), (556374299857, .ofNat 1)] 0)) .nil))) (.node (.node (.node (.leaf (.atom 7537)) (.leaf (.adef 46351 [(23518387, .negSucc 0), (25054873, .negSucc 0), (25424011, .ofNat 1), (26527829, .ofNat 1), (26928613, .negSucc 0), (33103351, .negSucc 0)] 0))) (.node (.leaf (.adef 19273 [(294981113, .ofNat 1), (368925613, .ofNat 1), (380688623, .ofNat 1), (486270491, .ofNat 1), (509694143, .negSucc 0), (598020619, .negSucc 0), (65087201921, .negSucc 0), (70070588917, .negSucc 0), (77946594467, .ofNat 1), (111268544611, .ofNat 1), (547889582891, .negSucc 0), (771821304359, .negSucc 0), (999032691377, .ofNat 1), (96291292779479, .ofNat 1), (116476926710207, .negSucc 0)] 0)) .nil)) (.node (.node (.leaf (.adef 11213 [(4959259, .negSucc 0), (428350129, .negSucc 0), (529911917, .ofNat 1), (829247417, .negSucc 0), (947956813, .ofNat 1), (1903813259, .ofNat 1), (1926412643, .negSucc 0), (1952217229, .negSucc 0), (2033039821, .ofNat 1), (2366557003, .ofNat 1), (2417300201, .negSucc 0), (3128897977, .ofNat 1)] 0)) .nil) (.node (.leaf (.adef 42737 [(22307961089, .ofNat 1), (23387224361, .ofNat 1)] 0)) .nil))))

def jac100 : JTree := .node (.node (.node (.node (.node (.leaf (.atom 797)) (.leaf (.adef 21247 [(2679151, .ofNat 1), (2795407, .negSucc 0), (83122477, .negSucc 0), (268028641, .negSucc 0), (347925407, .ofNat 1), (372707641, .ofNat 1), (507214943, .ofNat 1), (8455305613, .ofNat 1)] 0))) (.node (.leaf (.adef 12301 [(110915513, .negSucc 0), (111280021, .ofNat 1), (46535928983, .ofNat 1), (128632349509, .negSucc 0)] 0)) .nil)) (.node (.node (.leaf (.adef 4051 [(24403949, .negSucc 0), (25589701, .negSucc 0), (33934949, .ofNat 1), (37305349, .negSucc 0), (4796077127, .ofNat 1), (5028112223, .ofNat 1)] 0)) (.leaf (.trans [] 0))) (.node (.leaf (.adef 19853 [(8448149, .negSucc 0), (10573117, .ofNat 1), (11140471, .ofNat 1), (30463267, .negSucc 0)] 0)) .nil))) (.node (.node (.node (.leaf (.trans [(217799, .negSucc 0), (36238627, .ofNat 1), (39837827, .negSucc 0)] 0)) (.leaf (.adef 45691 [(2953549, .ofNat 1), (4078979, .ofNat 1)] 0))) (.node (.leaf (.adef 13829 [(38917, .ofNat 1), (12515693, .negSucc 0), (3746973827, .ofNat 1), (4019038321, .ofNat 1), (4082637311, .ofNat 1), (4270042181, .negSucc 0), (5035069733, .ofNat 1), (5554228993, .negSucc 0), (7778208521, .ofNat 1), (8129348089, .ofNat 1), (8361719269, .negSucc 0), (8438133091, .negSucc 0), (10536085139, .negSucc 0), (12079563763, .negSucc 0), (12805546771, .ofNat 1), (14016079867, .negSucc 0), (1084980178757, .negSucc 0), (220179548216011, .ofNat 2), (398215500715159, .ofNat 2), (653977028099203, .negSucc 0)] 0)) .nil)) (.node (.node (.leaf (.adef 8297 [(8587673, .negSucc 0), (11606887, .ofNat 1), (14073277, .ofNat 1), (15286511, .ofNat 1), (18077789, .negSucc 0), (26189173, .ofNat 1)] 0)) .nil) (.node (.leaf (.adef 33149 [(21818281, .negSucc 0), (21976949, .ofNat 1), (23359507, .ofNat 1), (23399107, .negSucc 0)] 0)) .nil)))) (.node (.node (.node (.node (.leaf (.atom 1783)) (.leaf (.adef 21683 [(51032353, .ofNat 1), (51112903, .negSucc 0), (1841981941, .ofNat 1), (3549471001, .negSucc 0)] 0))) (.node (.leaf (.adef 31033 [(19565597, .ofNat 1), (21152987, .negSucc 0), (21373117, .negSucc 0), (21650053, .ofNat 1)] 0)) .nil)) (.node (.node (.leaf (.adef 5531 [(1291583, .ofNat 1), (1370009, .negSucc 0)] 0)) .nil) (.node (.leaf (.adef 41521 [(3610913, .negSucc 0), (4594813, .negSucc 0), (6115609, .ofNat 1)] 0)) .nil))) (.node (.node (.node (.leaf (.atom 6173)) (.leaf (.adef 47513 [(101414729, .ofNat 1), (902627531, .negSucc 0), (963881477, .negSucc 0), (1013040977, .ofNat 1)] 0))) (.node (.leaf (.adef 19463 [(10092931, .negSucc 0), (10625677, .ofNat 1), (14265001, .negSucc 0), (17061383, .negSucc 0), (68926681, .ofNat 1)] 0)) .nil)) (.node (.node (.leaf (.adef 18049 [(36217, .ofNat 1), (70392407, .negSucc 0), (70664999, .negSucc 0), (70906663, .ofNat 1), (78378073, .ofNat 1), (78721609, .negSucc 0), (79766371, .ofNat 1), (94224517, .negSucc 0), (97812857, .ofNat 1), (106789159, .ofNat 1), (107097253, .ofNat 1)] 0)) .nil) (.node (.leaf (.adef 16433 [(35650229, .negSucc 0), (36064219, .ofNat 1), (36469163, .ofNat 1), (36599197, .negSucc 0)] 0)) .nil))))

def jac101 : JTree := .node (.node (.node (.node (.leaf (.atom 11593)) (.leaf (.adef 44887 [(12015767, .negSucc 0), (12022121, .ofNat 1), (27657073, .ofNat 1), (27924107, .negSucc 0), (38145823, .negSucc 0), (1826777749, .ofNat 1), (1827833957, .ofNat 1), (1866697793, .ofNat 1), (1867102907, .ofNat 1), (2652761453, .negSucc 0), (2654295229, .negSucc 0), (2721321857, .ofNat 1), (2721912443, .ofNat 1)] 0))) (.node (.leaf (.adef 18587 [(2172545939, .negSucc 0), (5170964059, .ofNat 1), (6559917647, .ofNat 1), (6857554699, .ofNat 1), (6959931929, .negSucc 0), (7732277291, .ofNat 1), (9149903513, .negSucc 0), (13748387447, .ofNat 1), (14255708017, .ofNat 1), (100911093589, .negSucc 0), (104634750179, .negSucc 0), (159504822067, .ofNat 1), (178542331603, .negSucc 0), (178700013253, .negSucc 0), (804262242733, .ofNat 1), (1700592838687, .negSucc 0), (5872443023221, .ofNat 1), (5986559023513, .negSucc 0), (6168835164419, .ofNat 1), (6207465260543, .negSucc 0), (6373143967121, .ofNat 1), (6876372677183, .ofNat 1), (9792426754157, .negSucc 0), (10031214838607, .negSucc 0), (10647885913673, .negSucc 0), (12993626954843, .negSucc 0), (13141273039787, .negSucc 0), (13473096584173, .negSucc 0), (13871279841641, .negSucc 0), (15016795315369, .negSucc 0), (15570920603759, .negSucc 0), (16036310022017, .negSucc 0), (16628055779287, .negSucc 0), (17119480551179, .negSucc 0), (17278798798601, .negSucc 0), (19027310590037, .negSucc 0), (19108565156069, .negSucc 0), (28691108179949, .negSucc 0), (28716447051899, .negSucc 0), (39371718682313, .ofNat 1), (39406490254463, .ofNat 1), (60827384944481, .negSucc 0), (71106853301873, .ofNat 1), (75071171905139, .negSucc 0), (97577235672701, .negSucc 0), (100007616562103, .ofNat 1), (123426134159957, .ofNat 1), (130099887005279, .ofNat 1), (178531136533523, .negSucc 0), (1553254596471337, .negSucc 0), (1706947109322167, .ofNat 1), (1763480362503053, .ofNat 1), (1818792864511451, .negSucc 0), (2306695769850383, .ofNat 1), (2391813694937113, .ofNat 1), (2935223227575283, .ofNat 1), (3165391046125571, .negSucc 0), (3282195143768581, .negSucc 0), (4027895418366871, .negSucc 0), (28165874476373279, .ofNat 1), (34761402394732301, .ofNat 1), (36640980084807047, .ofNat 1), (50281026131693339, .negSucc 0)] 0)) .nil)) (.node (.node (.leaf (.adef 29333 [(228381, .negSucc 3), (23147721, .negSucc 1), (53528571, .negSucc 1), (62827911, .negSucc 0), (91714209471, .ofNat 2)] 0)) .nil) (.node (.leaf (.adef 20143 [(28702099, .ofNat 1), (31149127, .negSucc 0), (41442293, .ofNat 1), (9237905879, .negSucc 0)] 0)) .nil))) (.node (.node (.node (.leaf (.atom 13049)) (.leaf (.adef 46831 [(871476671, .ofNat 1), (930412223, .ofNat 1), (975870649, .negSucc 0), (1308814559, .negSucc 0)] 0))) (.node (.leaf (.adef 39749 [(2934287, .ofNat 1), (3199373, .negSucc 0), (128638271, .ofNat 1), (136504549, .negSucc 0)] 0)) .nil)) (.node (.node (.leaf (.adef 30029 [(5496209, .ofNat 4), (2160323183, .ofNat 2)] 1)) .nil) (.node (.leaf (.adef 33461 [(520437, .negSucc 3), (26617761, .ofNat 2), (147791313, .negSucc 1), (162902133, .negSucc 0), (277139034603, .ofNat 2)] 0)) .nil)))

def jac102 : JTree := .node (.node (.node (.node (.node (.node .nil (.leaf (.adef 44029 [(258868546907, .ofNat 1)] 0))) (.node (.leaf (.adef 11243 [(2333831, .ofNat 1), (4097029, .ofNat 1), (4122737, .ofNat 1), (405285511, .ofNat 1), (719478787, .ofNat 1)] 0)) .nil)) (.node (.node (.leaf (.adef 1297 [(25129717, .negSucc 0), (26350733, .negSucc 0), (29165131, .ofNat 1), (48089341, .ofNat 1)] 0)) (.leaf (.trans [(1123, .negSucc 0)] 0))) (.node (.leaf (.adef 40493 [(8903057, .ofNat 1), (8903611, .negSucc 0), (14112053, .negSucc 0), (14113147, .negSucc 0), (18065471, .ofNat 1), (18080893, .ofNat 1), (930537677, .ofNat 1), (213629510867, .negSucc 0), (221759704073, .ofNat 1)] 0)) .nil))) (.node (.node (.node (.leaf (.atom 12821)) (.leaf (.adef 28151 [(709178003, .negSucc 0), (735346933, .negSucc 0), (3718494179, .negSucc 0), (5883830297, .negSucc 0), (8490251893, .ofNat 1), (9832152599, .ofNat 1), (10285981063, .ofNat 1), (125910195899, .ofNat 1), (130556328589, .ofNat 1), (151367876279, .ofNat 1), (156953406769, .ofNat 1), (172781782463, .negSucc 0), (179157493993, .negSucc 0), (186813289301, .ofNat 1), (193706768611, .ofNat 1), (274108877041, .ofNat 1), (284420990383, .ofNat 1), (324069279329, .negSucc 0), (337293513709, .negSucc 0), (338296223779, .ofNat 1), (351023097277, .ofNat 1), (394566493591, .negSucc 0), (409644078629, .negSucc 0), (500649423557, .ofNat 1), (511912586351, .ofNat 1), (617885167583, .ofNat 1), (702478210787, .negSucc 0), (52076763351007, .negSucc 0), (54201850078547, .negSucc 0), (60608461564337, .ofNat 1), (62924495105203, .ofNat 1), (71462965587859, .ofNat 1), (74379141438839, .ofNat 1), (83170691195069, .negSucc 0), (86348896109911, .negSucc 0), (156920967577939, .ofNat 1), (193666733220841, .ofNat 1), (204138453174427, .ofNat 1), (280131450490399, .negSucc 0)] 0))) (.node (.leaf (.adef 19087 [(27528607, .ofNat 1), (30922301, .negSucc 0), (41226041, .ofNat 1), (9189701123, .negSucc 0)] 0)) .nil)) (.node (.node (.leaf (.adef 35837 [(57976033, .ofNat 1), (59632541, .negSucc 0), (64320497, .negSucc 0), (64679171, .ofNat 1)] 0)) .nil) (.node (.leaf (.adef 33049 [(3069043, .negSucc 0), (3811849, .ofNat 1), (330249649, .negSucc 0), (407583331, .negSucc 0)] 0)) .nil)))) jac101) (.node (.node (.node (.node (.node (.leaf (.atom 47681)) (.leaf (.adef 44357 [(7276249, .negSucc 0), (8543033, .ofNat 1)] 0))) (.node (.leaf (.adef 7703 [(37423, .ofNat 1), (504015899, .ofNat 1), (918202393, .ofNat 1), (949132157, .ofNat 1), (1594465217, .ofNat 1), (1766607637, .ofNat 1), (1790271611, .ofNat 1), (2216773759, .ofNat 1), (2626170083, .ofNat 1), (2810281667, .ofNat 1), (3591893813, .ofNat 1), (93500718083, .ofNat 1), (103026487141, .ofNat 1), (118977752983, .ofNat 1), (131099099441, .ofNat 1), (172740178319, .ofNat 1), (190338792313, .ofNat 1), (2097284940248671, .ofNat 1), (2668752226419971, .ofNat 1), (3045579380685287, .negSucc 0), (3874680130720603, .ofNat 1), (3875437522561387, .negSucc 0), (5626629785209091, .negSucc 0)] 0)) .nil)) (.node (.node (.leaf (.adef 6971 [(14685829, .ofNat 1), (55330267, .ofNat 1)] 0)) (.leaf (.trans [(46771, .negSucc 0)] 0))) (.node (.leaf (.adef 41149 [(3799673, .negSucc 0), (6634207, .negSucc 0), (327264143, .ofNat 1), (403898717, .ofNat 1)] 0)) .nil))) (.node (.node (.node (.leaf (.atom 17137)) (.leaf (.adef 28433 [(9872451059, .ofNat 1), (10328099323, .ofNat 1), (157548487747337, .ofNat 1), (194441198119403, .ofNat 1), (204954794028641, .ofNat 1), (281251684057517, .negSucc 0)] 0))) (.node (.leaf (.adef 25247 [(7261273, .ofNat 4), (655416679, .ofNat 2), (2684347157, .ofNat 1), (8572433671, .ofNat 2)] 1)) .nil)) (.node (.node (.leaf (.adef 6823 [(783103, .ofNat 1), (1288471, .ofNat 1)] 0)) .nil) (.node (.leaf (.adef 20743 [(798739, .ofNat 1), (1218647, .ofNat 1), (2462923, .ofNat 1)] 0)) .nil)))) (.node (.node (.node (.node (.leaf (.atom 16843)) (.leaf (.adef 21713 [(4213361, .negSucc 0), (11968529, .ofNat 1), (13108489, .negSucc 0), (15602897, .negSucc 0), (126596797, .ofNat 1), (126788099, .ofNat 1), (24652651651, .negSucc 0), (29519214379, .negSucc 0), (37035121283, .negSucc 0), (58078248479, .negSucc 0)] 0))) (.node (.leaf (.adef 7727 [(1183979, .ofNat 1), (1195373, .ofNat 1)] 0)) .nil)) (.node (.node (.leaf (.adef 29483 [(70144831, .ofNat 1), (72828857, .ofNat 1)] 0)) .nil) (.node (.leaf (.adef 41687 [(35669143, .ofNat 4), (967041281, .negSucc 1), (1045113623, .negSucc 3), (472751854969, .negSucc 0), (1299681276611, .ofNat 1), (1685716864379, .ofNat 2), (60262251561637, .negSucc 1)] 1)) .nil))) (.node (.node (.node (.leaf (.atom 12109)) (.leaf (.atom 1709))) (.node (.leaf (.adef 19597 [(45178769, .negSucc 0), (64458377, .ofNat 1), (82425179, .negSucc 0), (2114198351, .negSucc 0), (3070140247, .ofNat 1), (17322856753, .negSucc 0), (24712586441, .ofNat 1)] 0)) .nil)) (.node (.node (.leaf (.adef 30319 [(1358243, .negSucc 0), (2080153, .ofNat 1), (2846341, .ofNat 1), (86997353, .negSucc 0), (98424379, .ofNat 1)] 0)) .nil) (.node (.leaf (.adef 43711 [(13056773, .negSucc 0), (13172711, .ofNat 1), (13238279, .negSucc 0)] 0)) .nil)))))

def jac103 : JTree := .node (.node (.node (.node (.node (.leaf (.atom 1069)) (.leaf (.adef 27211 [(5715907, .negSucc 0), (7600759, .ofNat 1)] 0))) (.node (.leaf (.adef 18379 [(26904859, .ofNat 1), (30853267, .negSucc 0), (41045831, .ofNat 1), (9149530493, .negSucc 0)] 0)) .nil)) (.node (.node (.leaf (.adef 22787 [(6992539, .ofNat 1), (137485507, .negSucc 0), (4121004973, .negSucc 1)] 0)) (.leaf (.trans [] 0))) (.node (.leaf (.adef 40739 [(11323181, .negSucc 0), (37542577, .ofNat 1), (847125893, .ofNat 1), (1696732139, .ofNat 1), (1734765667, .ofNat 1), (2463915283, .negSucc 0), (2528987683, .ofNat 1), (136130073019, .ofNat 1), (186806131903, .negSucc 0), (3794378184907, .ofNat 1), (4682897633233, .ofNat 1)] 0)) .nil))) (.node (.node (.node (.leaf (.atom 11689)) (.leaf (.adef 34591 [(7026911, .ofNat 2), (7332617, .negSucc 0)] 0))) (.node (.leaf (.adef 25073 [(3580799, .negSucc 0), (4080487, .negSucc 0), (4501681, .negSucc 0), (4744231, .negSucc 0), (843170483, .negSucc 0)] 0)) .nil)) (.node (.node (.leaf (.adef 12227 [(4964672879, .negSucc 0), (5355249139, .negSucc 0), (22740785269271, .ofNat 1), (28065934476149, .ofNat 1), (29583482695103, .ofNat 1), (40596290356211, .negSucc 0)] 0)) .nil) (.node (.leaf (.adef 20521 [(42467, .ofNat 1), (10813843, .ofNat 1), (11473201, .negSucc 0), (13534219, .ofNat 1), (14396423, .negSucc 0), (18406243, .ofNat 1), (26678087, .negSucc 0), (69249029, .negSucc 0)] 0)) .nil)))) (.node (.node (.node (.node (.leaf (.atom 911)) (.leaf (.adef 27773 [(173385299, .ofNat 1), (33660926833, .ofNat 1), (46807253833, .negSucc 0)] 0))) (.node (.leaf (.adef 38237 [(2099567, .negSucc 0), (2860189, .negSucc 0), (3328471, .ofNat 1), (4441511, .ofNat 1), (5134319, .negSucc 0), (93770819, .negSucc 0), (98544851, .negSucc 0), (495854831, .ofNat 1)] 0)) .nil)) (.node (.node (.leaf (.adef 23039 [(24157421, .ofNat 1), (131349571, .negSucc 0), (141676153, .ofNat 1)] 0)) .nil) (.node (.leaf (.adef 41479 [(23417113, .negSucc 0), (26190469, .negSucc 0)] 0)) .nil))) (.node (.node (.node (.leaf (.atom 6101)) (.leaf (.adef 47381 [(26222521, .negSucc 0), (27748487, .ofNat 1), (27916109, .negSucc 0), (9573870527, .negSucc 0), (10041212987, .negSucc 0), (1490814851149, .ofNat 1), (1563588039169, .ofNat 1), (1638881741549, .negSucc 0), (1718882721569, .negSucc 0)] 0))) (.node (.leaf (.adef 39953 [(27312589, .ofNat 2), (27500867, .ofNat 2), (30836777, .ofNat 1), (30992539, .ofNat 1), (34464811, .ofNat 1), (37413301, .ofNat 1), (1035959609, .ofNat 1), (1270307351, .ofNat 1), (1273949749, .ofNat 1), (1295255069, .ofNat 1), (1776123049, .ofNat 1), (2058587879, .ofNat 1), (3713040479, .ofNat 1), (3734176673, .ofNat 1), (4040530951, .ofNat 1), (160283708617, .ofNat 1), (162617403349, .ofNat 1), (165825842393, .ofNat 1), (195825347147, .ofNat 1), (507936073501, .negSucc 0), (553958344873, .ofNat 1)] 0)) .nil)) (.node (.node (.leaf (.adef 36599 [(10586117, .negSucc 0), (10593883, .ofNat 1), (27363643, .negSucc 0), (36817051, .ofNat 1), (1582793701, .ofNat 1), (1583057753, .ofNat 1), (1617552683, .ofNat 1), (1618497949, .ofNat 1), (2298459197, .negSucc 0), (2298842641, .negSucc 0), (2358111467, .ofNat 1), (2359489501, .ofNat 1), (231764118613, .ofNat 1)] 0)) .nil) (.node (.leaf (.adef 43207 [(3843811, .ofNat 1), (5273113, .ofNat 1), (7133377, .ofNat 1), (330952121, .negSucc 0), (408450299, .negSucc 0)] 0)) .nil))))

def jac104 : JTree := .node (.node (.node (.node (.leaf (.atom 47969)) (.leaf (.adef 34211 [(134331, .ofNat 2), (691984809, .negSucc 0)] 0))) (.node (.leaf (.adef 37879 [(506864909, .negSucc 3), (518981431, .ofNat 4), (1040430893, .ofNat 4), (1064572073, .negSucc 3), (2296804511, .ofNat 4), (2347832807, .negSucc 3), (36581698067, .negSucc 3), (37033987583, .negSucc 3), (37088254219, .ofNat 4), (39030648341, .ofNat 2), (49361587963, .negSucc 3), (49539404039, .ofNat 4), (51117700663, .ofNat 4), (112317113747, .ofNat 1), (137270006707, .negSucc 3), (140252019737, .negSucc 3), (150739352879, .negSucc 3), (154706034799, .ofNat 4), (187889941249, .negSucc 3), (192514841833, .ofNat 4), (197107358531, .negSucc 3), (200916355819, .negSucc 3), (295200921269, .negSucc 3), (301820644001, .negSucc 3), (334669261837, .negSucc 3), (341992241587, .ofNat 4), (453191705677, .negSucc 3), (463953641563, .negSucc 3), (10247486983619, .negSucc 3), (10284401677807, .ofNat 4), (10321011152093, .negSucc 3), (10612056738719, .ofNat 4), (10649832569581, .negSucc 3), (10781505178369, .negSucc 3), (11322477540137, .negSucc 1), (13520574521011, .negSucc 3), (13629671829643, .ofNat 2), (13687740465439, .negSucc 3), (13707797382827, .ofNat 4), (19045520616527, .negSucc 1), (22839702701731, .ofNat 4), (22921978545743, .negSucc 3), (23652259461631, .negSucc 3), (31078699224071, .ofNat 1), (40919572774603, .negSucc 3), (41710322256947, .negSucc 3), (43051978155353, .negSucc 3), (43883935263697, .negSucc 3), (55713177942607, .negSucc 3), (57179261293967, .ofNat 4), (3953858306997751, .negSucc 1), (3967932890872949, .ofNat 2), (5037518852517419, .ofNat 2)] 1)) .nil)) (.node (.node (.leaf (.adef 13331 [(87753, .ofNat 2), (237520053, .negSucc 0)] 0)) .nil) (.node (.leaf (.adef 7853 [(3196309, .negSucc 0), (23454077, .ofNat 1), (31261297, .ofNat 1), (6489858761, .ofNat 1)] 0)) .nil))) (.node (.node (.node (.leaf (.atom 13003)) (.leaf (.adef 46723 [(23307191, .negSucc 0), (24783779, .negSucc 0), (25015009, .ofNat 1), (26070103, .ofNat 1), (26443427, .negSucc 0), (32448107, .negSucc 0)] 0))) (.node (.leaf (.adef 31657 [(1844321, .negSucc 0), (9011885677, .ofNat 1)] 0)) .nil)) (.node (.node (.leaf (.adef 5741 [(21927, .ofNat 2), (49614309, .negSucc 0)] 0)) .nil) (.node (.leaf (.adef 26927 [(1459646467, .negSucc 3), (1486222039, .negSucc 3), (1554108883, .negSucc 3), (1581193951, .ofNat 4), (3727383827, .ofNat 4), (3790384963, .negSucc 3), (3963520111, .negSucc 3), (4037770031, .negSucc 3), (114701289907, .negSucc 3), (124252680271, .ofNat 4), (259701950909, .negSucc 1), (272945002193, .negSucc 1), (455852312593, .negSucc 3), (476674487221, .negSucc 3), (481710842993, .negSucc 3), (521823803429, .ofNat 4), (695086160341, .ofNat 2), (801102841687, .negSucc 1), (1090669911391, .negSucc 1), (1146286734907, .negSucc 1), (72279585753691, .ofNat 4), (78298441683223, .negSucc 3), (78828580565743, .negSucc 3), (85392783509179, .ofNat 4), (119389902577651, .ofNat 2), (121473632626777, .ofNat 2), (130207394742823, .negSucc 1), (132479924120821, .negSucc 1)] 1)) .nil)))

def jac105 : JTree := .node (.node (.node (.node (.node (.node .nil (.leaf (.adef 14489 [(9119413, .negSucc 0), (11087581, .ofNat 1), (24294157, .ofNat 1), (26340161, .negSucc 0)] 0))) (.node (.leaf (.adef 8539 [(37181, .ofNat 1), (7894889, .negSucc 0), (9885121, .ofNat 1), (12210329, .ofNat 1), (14711677, .ofNat 1), (17387759, .negSucc 0), (19842871, .negSucc 0), (20967767, .ofNat 1), (22768021, .negSucc 0), (27029731, .ofNat 1), (44353483, .negSucc 0)] 0)) .nil)) (.node (.node (.leaf (.adef 28961 [(22958451, .ofNat 2), (50170041, .ofNat 2), (61758819, .ofNat 1), (90964297701, .negSucc 1)] 0)) (.leaf (.trans [(15451, .ofNat 1)] 0))) (.node (.leaf (.adef 32117 [(40459, .negSucc 0), (141032201, .negSucc 0), (1323443203, .negSucc 0)] 0)) .nil))) (.node (.node (.node (.leaf (.atom 12763)) (.leaf (.adef 14657 [(28111, .ofNat 1), (12989953, .negSucc 0), (483149627, .negSucc 0), (506064289, .ofNat 1), (619139701, .negSucc 0), (1101981103, .ofNat 1), (2530567241, .negSucc 0), (3358519657, .negSucc 0), (4376307289, .negSucc 0), (135106604603, .ofNat 1), (145645204547, .ofNat 1), (378091466149, .ofNat 1)] 0))) (.node (.leaf (.adef 7759 [(3179861, .negSucc 0), (6482542613, .negSucc 0)] 0)) .nil)) (.node (.node (.leaf (.adef 11059 [(293626781, .ofNat 1), (335412973, .negSucc 0), (341271679, .ofNat 1), (348583921, .ofNat 1), (351160397, .ofNat 1), (352646329, .negSucc 0), (376521943, .ofNat 1), (508234559, .negSucc 0), (534889607, .negSucc 0), (16368411073, .ofNat 1), (540473281873, .negSucc 0), (543244880339, .ofNat 1), (553102593617, .negSucc 0), (756783073529, .negSucc 0), (992301280901, .ofNat 1)] 0)) .nil) (.node (.leaf (.adef 32999 [(3389, .ofNat 1), (1690397, .ofNat 1), (2516161, .ofNat 1), (3020179, .negSucc 0), (60855126361, .ofNat 1)] 0)) .nil)))) jac104) (.node (.node (.node (.node (.node (.leaf (.atom 1699)) (.leaf (.adef 33911 [(2569453, .ofNat 1), (5149591, .ofNat 1), (701744339, .ofNat 1), (800100193, .ofNat 1)] 0))) (.node (.leaf (.adef 37379 [(6633113, .negSucc 0), (7797479, .ofNat 1)] 0)) .nil)) (.node (.node (.leaf (.adef 22859 [(55393047, .ofNat 2), (64509381, .ofNat 1), (93487765221, .negSucc 1)] 0)) (.leaf (.trans [(46199, .ofNat 1)] 0))) (.node (.leaf (.adef 41051 [(2361511, .negSucc 0), (2605789, .ofNat 1)] 0)) .nil))) (.node (.node (.node (.leaf (.atom 28723)) (.leaf (.adef 22091 [(45971, .ofNat 1), (86682481, .ofNat 1), (86994409, .ofNat 1), (87098449, .negSucc 0), (112777843, .ofNat 1), (1237539187591, .ofNat 1)] 0))) (.node (.leaf (.adef 39103 [(2713121, .ofNat 1), (79368533, .negSucc 0), (239545633, .ofNat 1)] 0)) .nil)) (.node (.node (.leaf (.adef 5581 [(11758348039, .ofNat 1)] 0)) .nil) (.node (.leaf (.adef 33211 [(4259417, .ofNat 1), (8928833, .ofNat 1)] 0)) .nil)))) (.node (.node (.node (.node (.leaf (.atom 5693)) (.leaf (.adef 45191 [(7678498879, .ofNat 1), (8049986071, .ofNat 1)] 0))) (.node (.leaf (.adef 15817 [(34368793, .ofNat 1), (34842697, .negSucc 0), (34949339, .negSucc 0), (35084597, .ofNat 1)] 0)) .nil)) (.node (.node (.leaf (.adef 23099 [(21581719, .negSucc 0), (83951753, .negSucc 0), (100947857, .ofNat 1), (127552351, .ofNat 1), (141518191, .ofNat 1), (183810808043, .ofNat 1)] 0)) .nil) (.node (.leaf (.adef 26317 [(5951639, .ofNat 1), (80083721, .negSucc 0), (1327236601, .ofNat 1), (1346190863, .ofNat 1)] 0)) .nil))) (.node (.node (.node (.leaf (.atom 1433)) (.leaf (.atom 1601))) (.node (.leaf (.adef 32009 [(812863, .negSucc 0), (2268251, .negSucc 0), (338752853, .negSucc 0), (554199647, .ofNat 1), (20653057849, .negSucc 0), (22072110947, .negSucc 0)] 0)) .nil)) (.node (.node (.leaf (.adef 36887 [(2800867, .negSucc 0), (3171457, .ofNat 1)] 0)) .nil) (.node (.leaf (.adef 20981 [(43613, .ofNat 1), (49045259, .negSucc 0), (49142953, .ofNat 1), (81571727, .negSucc 0), (113486501, .ofNat 1)] 0)) .nil)))))

def jac106 : JTree := .node (.node (.node (.node (.leaf (.trans [(132683, .negSucc 0), (148009, .ofNat 1)] 0)) (.leaf (.adef 9857 [(14502937, .negSucc 0), (1901856883, .negSucc 0), (2872184543, .ofNat 1)] 0))) (.node (.leaf (.adef 18199 [(18140279, .negSucc 0), (68673413, .negSucc 0), (40136555350271, .negSucc 0), (58284433860487, .ofNat 1)] 0)) .nil)) (.node (.node (.leaf (.adef 5471 [(20998409, .ofNat 1), (24073961, .ofNat 1), (30612041, .ofNat 1)] 0)) .nil) (.node (.leaf (.adef 32069 [(11207593, .ofNat 1), (12961549, .ofNat 1), (20527081, .ofNat 1), (24232193, .ofNat 1), (25230833, .ofNat 1), (25652161, .ofNat 1), (26755307, .ofNat 1), (33274711, .ofNat 1), (45773573, .negSucc 0), (53038693, .ofNat 1), (54542651, .ofNat 1), (601302659, .ofNat 1), (623490949, .ofNat 1), (1343858377, .negSucc 0), (1393447247, .negSucc 0), (1731391223, .ofNat 1), (1903352023, .negSucc 0), (1957585031, .ofNat 1), (1987994483, .ofNat 1), (2046885209, .ofNat 1), (2201059019, .negSucc 0), (2271655423, .negSucc 0), (2337852007, .negSucc 0), (2414508917, .negSucc 0), (2502642481, .ofNat 1), (2505374363, .negSucc 0), (2551752823, .ofNat 1), (3765419521, .ofNat 1), (3954640399, .negSucc 0), (4084365067, .negSucc 0), (4582430753, .ofNat 1), (6644725739, .negSucc 0), (7156103483, .ofNat 1), (7829790937, .ofNat 1), (8258528021, .ofNat 1), (8389512889, .ofNat 1), (8470301117, .ofNat 1), (8572989547, .ofNat 1), (8804634947, .negSucc 0), (9386146579, .ofNat 1), (10056351367, .ofNat 1), (10439837591, .ofNat 1), (13704963121, .ofNat 1), (15057184081, .ofNat 1), (16924315061, .ofNat 1), (16954445077, .ofNat 1), (18785151641, .ofNat 1), (33809370457, .negSucc 0), (40224898453, .ofNat 1), (47093810293, .ofNat 1), (266509340029, .ofNat 1), (273976191647, .ofNat 1), (284521450693, .ofNat 1), (294814848841, .ofNat 1), (301791477719, .ofNat 1), (310255953353, .ofNat 1), (319599348961, .ofNat 1), (331541139667, .ofNat 1), (340561930927, .ofNat 1), (349250434019, .negSucc 0), (359046011453, .negSucc 0), (376732440883, .ofNat 1), (408747701147, .negSucc 0), (409256991191, .negSucc 0), (449344292347, .ofNat 1), (449904164791, .ofNat 1), (495228836503, .negSucc 0), (496248302621, .negSucc 0), (544414685303, .ofNat 1), (545535404221, .ofNat 1), (612999589691, .ofNat 1), (673882363291, .negSucc 0), (1007289518581, .negSucc 0), (1099451062309, .ofNat 1), (1384988313979, .ofNat 1), (1522544572379, .negSucc 0), (1881107876441, .ofNat 1), (2067938450041, .negSucc 0), (2991786560327, .negSucc 0), (3922859161631, .negSucc 0), (276002954216663, .ofNat 1), (303415412001463, .negSucc 0), (361897714209839, .ofNat 1), (397841191124239, .negSucc 0)] 0)) .nil))) (.node (.node (.node (.leaf (.atom 35363)) (.leaf (.adef 28097 [(2343149, .negSucc 0), (185789969, .negSucc 0), (8843764873, .negSucc 0), (31842037603, .ofNat 1), (44277994603, .negSucc 0)] 0))) (.node (.leaf (.adef 5101 [(818833, .negSucc 0), (6055593119, .negSucc 0), (6348563831, .negSucc 0), (7471748171, .negSucc 0)] 0)) .nil)) (.node (.node (.leaf (.adef 683 [(5208377, .negSucc 0), (6277681, .negSucc 0)] 0)) .nil) (.node (.leaf (.adef 32969 [(4243, .ofNat 1), (1731727, .ofNat 1), (2490991, .negSucc 0), (2999741, .negSucc 0), (62260556531, .negSucc 0)] 0)) .nil)))

def jac107 : JTree := .node (.node jac106 (.node (.node (.node (.node (.leaf (.atom 2213)) (.leaf (.adef 27673 [(44641, .ofNat 1), (1094275409, .ofNat 1)] 0))) (.node (.leaf (.adef 30707 [(113073, .ofNat 8), (686147463, .negSucc 3), (736275231, .negSucc 3), (31818348369, .negSucc 3), (1359049153167, .ofNat 6)] 1)) .nil)) (.node (.node (.leaf (.adef 1871 [(1396923714819019, .negSucc 0), (1441452654764761, .ofNat 1)] 0)) (.leaf (.trans [] 0))) (.node (.leaf (.adef 4787 [(717833, .ofNat 1), (1662391, .ofNat 1)] 0)) .nil))) (.node (.node (.node (.leaf (.atom 6701)) (.leaf (.adef 46489 [(42499889, .negSucc 0), (49815379, .ofNat 1), (49945877, .negSucc 0), (60077077, .ofNat 1), (60877529, .negSucc 0)] 0))) (.node (.leaf (.adef 39439 [(7351, .ofNat 1), (2069321, .ofNat 1), (2938447, .ofNat 1), (3037651, .ofNat 1), (5615677, .negSucc 0), (6575759, .negSucc 0), (8672929, .negSucc 0), (9511937, .ofNat 1), (10527557, .ofNat 1), (149654371453, .negSucc 0), (184698537607, .negSucc 0), (194685339829, .negSucc 0), (267159301873, .ofNat 1)] 0)) .nil)) (.node (.node (.leaf (.adef 36217 [(36209, .ofNat 1), (10555361, .ofNat 1), (12520139, .ofNat 1), (18039101, .ofNat 1), (22109323, .ofNat 1), (26103053, .ofNat 1), (26764459, .negSucc 0), (29321189, .ofNat 1), (30107813, .negSucc 0), (34769429, .ofNat 1), (68488697, .ofNat 1)] 0)) .nil) (.node (.leaf (.adef 26813 [(8966039, .negSucc 0), (22637111947, .negSucc 0)] 0)) .nil))))) (.node (.node (.node (.node (.node (.leaf (.trans [(40479949, .ofNat 1), (49959031, .ofNat 1), (52660357, .ofNat 1), (72263809, .negSucc 0)] 0)) (.leaf (.adef 33889 [(439469, .ofNat 1), (7852007, .ofNat 1), (149963917, .ofNat 1), (160450603, .ofNat 1)] 0))) (.node (.leaf (.adef 8599 [(910541, .ofNat 1), (926837, .ofNat 1), (2034059, .ofNat 1), (2993843, .ofNat 1), (557806661, .ofNat 1)] 0)) .nil)) (.node (.node (.leaf (.adef 1217 [(1741703, .ofNat 2), (1899451, .ofNat 2)] 0)) (.leaf (.trans [(1481, .ofNat 1)] 0))) (.node (.leaf (.adef 40879 [(2356729, .negSucc 0), (2602553, .ofNat 1)] 0)) .nil))) (.node (.node (.node (.leaf (.trans [(1721, .ofNat 1), (470023, .ofNat 1), (535901, .ofNat 1)] 0)) (.leaf (.adef 45767 [(56752343, .negSucc 3), (5428727401, .ofNat 2), (282915166307, .negSucc 3), (750708955897, .negSucc 1), (1043899498897, .ofNat 2)] 1))) (.node (.leaf (.adef 7817 [(38933, .ofNat 1), (845967461, .ofNat 1), (1072164073, .ofNat 1), (1244729393, .ofNat 1), (1496021561, .ofNat 1), (2145478417, .ofNat 1), (2182013263, .ofNat 1), (2508970661, .ofNat 1), (2617414073, .ofNat 1), (2807051323, .ofNat 1), (3561036491, .ofNat 1), (90338348813, .ofNat 1), (93143705621, .ofNat 1), (103864952957, .ofNat 1), (123555019207, .ofNat 1), (127391882719, .ofNat 1), (142055244823, .ofNat 1)] 0)) .nil)) (.node (.node (.leaf (.adef 35999 [(17104937, .negSucc 0), (19896367, .negSucc 0), (21841709, .ofNat 1), (22051079, .ofNat 1), (29928511, .ofNat 1)] 0)) .nil) (.node (.leaf (.adef 26561 [(25500809, .negSucc 0), (27108397, .ofNat 1), (32417837, .ofNat 1), (3814442183, .ofNat 1)] 0)) .nil)))) (.node (.node (.node (.node (.leaf (.atom 48413)) (.leaf (.adef 45013 [(857170495889, .negSucc 0), (1007238544409, .ofNat 1)] 0))) (.node (.leaf (.adef 38393 [(3457963, .ofNat 1), (4553468016589, .ofNat 1), (6612333896933, .negSucc 0)] 0)) .nil)) (.node (.node (.leaf (.adef 23053 [(12903547, .ofNat 1), (16218589, .negSucc 0)] 0)) .nil) (.node (.leaf (.adef 41593 [(22148190553, .ofNat 1), (23219724097, .ofNat 1)] 0)) .nil))) (.node (.node (.node (.leaf (.atom 2531)) (.leaf (.atom 4597))) (.node (.leaf (.adef 25447 [(11015087, .negSucc 0), (12919913, .negSucc 0), (13043419, .ofNat 1), (17311537, .ofNat 1), (18136523, .negSucc 0), (26441189, .ofNat 1), (68625241, .ofNat 1)] 0)) .nil)) (.node (.node (.leaf (.adef 36721 [(3404101, .negSucc 0), (4065827, .negSucc 0)] 0)) .nil) (.node (.leaf (.adef 43441 [(3834679, .negSucc 0), (5279597, .ofNat 1), (7157147, .ofNat 1), (333059537, .ofNat 1), (411051203, .ofNat 1)] 0)) .nil)))))

def jac108 : JTree := .node (.node (.node (.node (.node (.node (.leaf (.atom 821)) (.leaf (.adef 44101 [(13261111, .negSucc 0), (13286551, .ofNat 1), (13398529, .negSucc 0), (14385389, .ofNat 2)] 0))) (.node (.leaf (.adef 24203 [(1845587, .negSucc 0), (5095589, .negSucc 0), (58276098479, .negSucc 0), (65007476917, .ofNat 1)] 0)) .nil)) (.node (.node (.leaf (.adef 9689 [(34099531, .negSucc 0), (38038313, .ofNat 1)] 0)) (.leaf (.trans [] 0))) (.node (.leaf (.adef 40531 [(117038583, .ofNat 2), (150906087, .ofNat 1), (263299339773, .negSucc 1)] 0)) .nil))) (.node (.node (.node (.leaf (.atom 22481)) (.leaf (.adef 28211 [(150173, .negSucc 0), (9076919, .ofNat 1), (24132259, .negSucc 0), (33115783, .ofNat 1), (9267725459, .ofNat 1)] 0))) (.node (.leaf (.adef 12379 [(115280509, .negSucc 0), (115687031, .ofNat 1), (48367315219, .ofNat 1), (133726561799, .negSucc 0)] 0)) .nil)) (.node (.node (.leaf (.adef 35851 [(10639901, .ofNat 1), (37189793, .ofNat 1)] 0)) .nil) (.node (.leaf (.adef 14207 [(42391, .ofNat 1), (8963219, .ofNat 1), (11068723, .ofNat 1), (11629573, .negSucc 0), (14668097, .negSucc 0), (17568989, .negSucc 0), (19727509, .ofNat 1), (22863157, .negSucc 0), (25047157, .ofNat 1), (29665847, .ofNat 1), (43622389, .negSucc 0)] 0)) .nil)))) (.node (.node (.node (.node (.leaf (.atom 2333)) (.leaf (.adef 21517 [(44959, .ofNat 1), (50429989, .ofNat 1), (50525341, .negSucc 0), (84012191, .ofNat 1), (1232047889009, .ofNat 1)] 0))) (.node (.leaf (.adef 38053 [(4493, .ofNat 1), (3234989, .negSucc 0), (4076173, .negSucc 0), (170559397, .ofNat 1), (458060671, .ofNat 1)] 0)) .nil)) (.node (.node (.leaf (.adef 17483 [(425203, .ofNat 4), (887974427, .ofNat 2)] 1)) .nil) (.node (.leaf (.adef 12457 [(121466263, .negSucc 0), (121808549, .ofNat 1), (50962622233, .ofNat 1), (140802632021, .negSucc 0)] 0)) .nil))) (.node (.node (.node (.leaf (.atom 48673)) (.leaf (.adef 47059 [(45337883, .negSucc 0), (50007401, .ofNat 1), (50567899, .negSucc 0), (101940983, .negSucc 0), (102141817, .ofNat 1), (103209233, .negSucc 0)] 0))) (.node (.leaf (.adef 39829 [(2270419, .ofNat 1), (2495029, .negSucc 0), (2797547, .ofNat 1), (7508957, .negSucc 0), (90284549, .negSucc 0), (332020411, .negSucc 0), (455619007, .ofNat 1)] 0)) .nil)) (.node (.node (.leaf (.adef 30089 [(109371, .ofNat 2), (680982579, .negSucc 0)] 0)) .nil) (.node (.leaf (.adef 33529 [(129039, .ofNat 2), (687929787, .negSucc 0)] 0)) .nil))))) (.node (.node (.node (.node (.node (.leaf (.atom 47797)) (.leaf (.adef 44389 [(3628529, .negSucc 0), (4561649, .ofNat 1)] 0))) (.node (.leaf (.adef 37489 [(27377953, .negSucc 0), (28564553, .ofNat 1), (117885643, .ofNat 1)] 0)) .nil)) (.node (.node (.leaf (.adef 4073 [(30739102571, .ofNat 1), (1233233675827, .ofNat 1), (1290144747163, .ofNat 1), (1352562187987, .ofNat 1), (1790844430619, .negSucc 0)] 0)) (.leaf (.trans [(47317, .negSucc 0)] 0))) (.node (.leaf (.adef 16111 [(35044421, .ofNat 1), (35507399, .negSucc 0), (35678353, .negSucc 0), (35742061, .ofNat 1)] 0)) .nil))) (.node (.node (.node (.leaf (.atom 5701)) (.leaf (.adef 34807 [(19360109, .ofNat 1), (20616851, .negSucc 0), (20916737, .ofNat 1), (21132829, .negSucc 0)] 0))) (.node (.leaf (.adef 25321 [(6998323, .negSucc 0), (8376559, .ofNat 1)] 0)) .nil)) (.node (.node (.leaf (.adef 23741 [(5530513, .ofNat 1), (5894117, .negSucc 0), (479500111, .negSucc 0), (592368523, .negSucc 0)] 0)) .nil) (.node (.leaf (.adef 9221 [(1891081, .ofNat 1), (327929867, .negSucc 0), (30252696923, .ofNat 1), (33257377723, .negSucc 0)] 0)) .nil)))) (.node (.node (.node (.node (.leaf (.atom 3449)) (.leaf (.adef 45307 [(35998961, .negSucc 0), (36002287, .negSucc 0), (36022243, .ofNat 1), (52817101, .negSucc 0), (52841471, .ofNat 1), (6450908257, .ofNat 1), (7144643651, .negSucc 0), (7706256847, .negSucc 0)] 0))) (.node (.leaf (.adef 24841 [(306824303, .ofNat 2), (318146233, .ofNat 2), (440423077, .ofNat 2), (534344521, .ofNat 2), (554062031, .ofNat 2), (767011139, .ofNat 2), (5494196261, .ofNat 2), (6896118283, .ofNat 2), (7211129707, .ofNat 2)] 0)) .nil)) (.node (.node (.leaf (.adef 29537 [(1173661, .negSucc 0), (1211257, .negSucc 0), (3341081, .negSucc 0), (3444839, .ofNat 1)] 0)) .nil) (.node (.leaf (.adef 41771 [(2521531, .negSucc 1), (3861131, .ofNat 2), (5199317, .ofNat 2), (7734917, .ofNat 2), (104569349, .negSucc 1), (152482381, .negSucc 1), (347363539, .negSucc 1)] 0)) .nil))) (.node (.node (.node (.leaf (.atom 7229)) .nil) (.node (.leaf (.adef 19697 [(28236931, .negSucc 0), (31001197, .ofNat 1), (33798449, .negSucc 0), (10519549097, .ofNat 1)] 0)) .nil)) (.node (.node (.leaf (.adef 8443 [(37019, .ofNat 1), (7827367, .ofNat 1), (9899713, .ofNat 1), (11675803, .ofNat 1), (14551637, .ofNat 1), (17267881, .ofNat 1), (19786829, .negSucc 0), (19795121, .negSucc 0), (21738229, .ofNat 1), (25796579, .ofNat 1), (44185189, .ofNat 1)] 0)) .nil) (.node (.leaf (.adef 10343 [(290639, .ofNat 1), (43962247573, .negSucc 0), (54791147629, .ofNat 1), (60327723601, .ofNat 1), (67621444951, .ofNat 1)] 0)) .nil)))))

def jac109 : JTree := .node (.node (.node (.node (.node (.node (.leaf (.atom 461)) (.leaf (.adef 14423 [(10743217, .negSucc 0), (14115887, .negSucc 0), (15476107, .ofNat 1)] 0))) (.node (.leaf (.adef 10193 [(83869637, .ofNat 1), (48826166309, .ofNat 1), (50309667673, .ofNat 1)] 0)) .nil)) (.node (.node (.leaf (.adef 9649 [(30996577, .negSucc 0), (38254963, .negSucc 0), (980359063, .ofNat 1), (1002184517, .ofNat 1), (1423631711, .negSucc 0), (1461011333, .ofNat 1)] 0)) .nil) (.node (.leaf (.adef 19727 [(38862851, .ofNat 1), (39983963, .negSucc 0), (48438127, .ofNat 1), (16660023437, .negSucc 0)] 0)) .nil))) (.node (.node (.node (.leaf (.atom 4447)) (.leaf (.adef 16693 [(72851, .ofNat 1), (31135943, .ofNat 1)] 0))) (.node (.leaf (.adef 4273 [(1504333, .negSucc 0), (1914233, .negSucc 0), (2427149, .ofNat 2)] 0)) .nil)) (.node (.node (.leaf (.adef 3167 [(375805913, .ofNat 1), (761921928929, .negSucc 0)] 0)) .nil) (.node (.leaf (.adef 16267 [(7983587, .ofNat 1), (67425013, .ofNat 1), (80895383, .ofNat 1), (101492201, .ofNat 1)] 0)) .nil)))) (.node (.node (.node (.node (.leaf (.atom 14717)) (.leaf (.adef 21407 [(35381, .ofNat 1), (4690927, .negSucc 0), (4884283, .ofNat 1), (11857757, .negSucc 0), (12963661, .ofNat 1), (71789791, .ofNat 1), (107898613, .ofNat 1), (124596883, .ofNat 1), (124725091, .ofNat 1), (169374211, .negSucc 0)] 0))) (.node (.leaf (.adef 37571 [(5113697, .negSucc 0), (175883651, .ofNat 1), (3624547119019, .ofNat 1)] 0)) .nil)) (.node (.node (.leaf (.adef 5507 [(1272301, .ofNat 1), (1273357, .negSucc 0)] 0)) .nil) (.node (.leaf (.adef 19973 [(10299371, .negSucc 0), (10722611, .negSucc 0), (14310713, .ofNat 1), (15843257, .ofNat 1), (17381087, .negSucc 0), (18161723, .negSucc 0), (38173921, .negSucc 0), (69174641, .negSucc 0)] 0)) .nil))) (.node (.node (.node (.leaf (.atom 5987)) (.leaf (.adef 34919 [(21180361, .negSucc 0), (21646747, .ofNat 1), (22525513, .ofNat 1), (22887707, .negSucc 0)] 0))) (.node (.leaf (.adef 39241 [(115464861, .ofNat 2), (147764457, .ofNat 1), (238262859, .ofNat 1), (244035657, .ofNat 1), (260164143081, .negSucc 1), (302188683123, .negSucc 1), (343759981671, .negSucc 1), (357530965497, .negSucc 0), (416569742487, .negSucc 0), (515837166824493, .ofNat 4)] 0)) .nil)) (.node (.node (.leaf (.adef 13469 [(6958979, .ofNat 1), (12520801, .ofNat 1), (3300808787, .ofNat 1), (3796935139, .ofNat 1), (5780348447, .negSucc 1)] 0)) .nil) (.node (.leaf (.adef 14323 [(26713, .ofNat 1), (12594529, .negSucc 0), (758477773, .ofNat 1), (927952657, .negSucc 0), (1246369823, .ofNat 1), (2605651799, .negSucc 0), (2842754947, .negSucc 0), (3458170423, .negSucc 0), (4506156871, .negSucc 0), (348531356447, .negSucc 0), (375717536903, .negSucc 0), (975353736001, .negSucc 0)] 0)) .nil))))) (.node (.node (.node (.node (.node (.leaf (.atom 2719)) (.leaf (.adef 33827 [(3083933, .negSucc 0), (26503949, .ofNat 1), (32830481, .ofNat 1), (994485827, .negSucc 0), (8280199079, .negSucc 0), (165687344191, .negSucc 0), (182143317791, .ofNat 1)] 0))) (.node (.leaf (.adef 37243 [(593927, .negSucc 0), (61054997, .negSucc 0), (13842199957, .negSucc 0)] 0)) .nil)) (.node (.node (.leaf (.adef 17257 [(4772987, .ofNat 1), (4775203, .negSucc 0), (8244931, .negSucc 0), (8247119, .negSucc 0), (10552153, .ofNat 1), (10557761, .ofNat 1)] 0)) (.leaf (.trans [] 0))) (.node (.leaf (.adef 40693 [(3156173, .ofNat 2), (4075783, .ofNat 2), (499167967, .ofNat 2), (727700383, .ofNat 2), (23377542143, .negSucc 1)] 0)) .nil))) (.node (.node (.node (.leaf (.atom 28631)) (.leaf (.adef 34583 [(7019333, .negSucc 0), (7330861, .negSucc 0)] 0))) (.node (.leaf (.adef 38861 [(8649257, .ofNat 1), (23067959, .ofNat 1), (32104300831, .negSucc 0), (59416334213, .ofNat 1)] 0)) .nil)) (.node (.node (.leaf (.adef 35977 [(8933350739, .ofNat 1), (700458463921, .ofNat 1), (1017173114537, .negSucc 0)] 0)) .nil) (.node (.leaf (.adef 14243 [(8130163, .negSucc 0), (10995007, .ofNat 1), (14900597, .negSucc 0), (17148407, .ofNat 1), (19825781, .ofNat 1), (23080147, .ofNat 1), (25330049, .negSucc 0), (30130493, .negSucc 0), (44323291, .ofNat 1)] 0)) .nil)))) (.node (.node (.node (.node (.leaf (.atom 48299)) (.leaf (.adef 14561 [(451636871317, .ofNat 1)] 0))) (.node (.leaf (.adef 38197 [(38189, .ofNat 1), (10582087, .negSucc 0), (12512537, .ofNat 1), (18864943, .ofNat 1), (22352483, .ofNat 1), (26284267, .negSucc 0), (28163819, .ofNat 1), (30193087, .negSucc 0), (30501829, .negSucc 0), (36200083, .ofNat 1), (68749559, .negSucc 0)] 0)) .nil)) (.node (.node (.leaf (.adef 5527 [(1274681, .negSucc 0), (1284119, .ofNat 1)] 0)) .nil) (.node (.leaf (.adef 16229 [(10631983, .ofNat 1), (778971795037, .ofNat 1)] 0)) .nil))) (.node (.node (.node (.leaf (.atom 2843)) (.leaf (.adef 47317 [(883152491, .ofNat 1), (942836219, .ofNat 1), (991025269, .negSucc 0), (1329368417, .negSucc 0)] 0))) (.node (.leaf (.adef 39887 [(39883, .ofNat 1), (11257073, .ofNat 1), (13348921, .ofNat 1), (18711767, .negSucc 0), (21755879, .negSucc 0), (22340971, .negSucc 0), (23769379, .ofNat 1), (26197337, .negSucc 0), (30156389, .ofNat 1), (68681351, .negSucc 0), (1748855186557, .ofNat 1)] 0)) .nil)) (.node (.node (.leaf (.adef 36551 [(22863, .negSucc 3), (117287523, .ofNat 2), (141424929, .ofNat 1), (6429766851, .ofNat 2), (9373485699, .ofNat 2), (265386938841, .negSucc 1)] 0)) .nil) (.node (.leaf (.adef 20903 [(294068369, .ofNat 1), (379578689, .ofNat 1), (379673497, .ofNat 1), (508317103, .negSucc 0), (523367159, .ofNat 1), (643648229, .negSucc 0), (110924384963, .negSucc 0), (132983699429, .ofNat 1), (321630496238170441, .negSucc 0), (452148073933217837, .negSucc 0), (585152027634523867, .ofNat 1), (89283251636725647263, .ofNat 1), (107999783336132817479, .negSucc 0)] 0)) .nil)))))

def jac110 : JTree := .node (.node (.node (.node (.node (.leaf (.atom 569)) (.leaf (.adef 27127 [(9859, .ofNat 1), (2433481, .negSucc 0), (3502801, .ofNat 1), (3889577, .ofNat 1), (11608451, .negSucc 0), (12749467, .ofNat 1), (994546361, .negSucc 0)] 0))) (.node (.leaf (.adef 30427 [(10388233, .ofNat 2), (12065233, .ofNat 2), (25600607, .ofNat 1), (25715597, .ofNat 1), (30319283, .ofNat 1), (30440093, .ofNat 1), (33878153, .ofNat 1), (37153099, .ofNat 1), (793850009, .ofNat 1), (1081475093, .ofNat 1), (1216275061, .ofNat 1), (1255192597, .ofNat 1), (1551277787, .ofNat 1), (3428741627, .ofNat 1), (3531900809, .ofNat 1), (110346860293, .ofNat 1), (149043888137, .ofNat 1), (445077639647, .negSucc 0), (485799836783, .ofNat 1), (28800324617993, .ofNat 1), (29368554611101, .ofNat 1)] 0)) .nil)) (.node (.node (.leaf (.adef 13151 [(544810811, .negSucc 3), (727964579, .negSucc 3), (794239739, .negSucc 3), (3430811467, .negSucc 1), (491781121283, .negSucc 1), (683846998283, .ofNat 2)] 1)) .nil) (.node (.leaf (.adef 25717 [(8442037, .ofNat 1), (22863351299, .negSucc 0)] 0)) .nil))) (.node (.node (.node (.leaf (.atom 12721)) (.leaf (.adef 11503 [(45377, .ofNat 1), (11311309, .ofNat 1), (1597013549, .ofNat 1), (1597055983, .ofNat 1), (1621769663, .negSucc 0), (1642023343, .negSucc 0), (7156897273, .negSucc 0), (7266004553, .negSucc 0), (7573201931, .negSucc 0), (7594021177, .negSucc 0), (9842271827, .ofNat 1), (10609284181, .negSucc 0), (11021227661, .negSucc 0), (11962286803, .negSucc 0)] 0))) (.node (.leaf (.adef 19037 [(2131117, .ofNat 1), (3625663, .negSucc 0), (135508123, .negSucc 0), (255008219, .ofNat 1), (344646509, .ofNat 1), (370311043, .negSucc 0), (477383677, .ofNat 1), (2030096713, .ofNat 1), (33201192383, .negSucc 0), (36935526241, .ofNat 1)] 0)) .nil)) (.node (.node (.leaf (.adef 23431 [(7986421, .ofNat 1), (12616577, .negSucc 0), (12794653, .ofNat 1), (28581863, .negSucc 0), (28599761, .ofNat 1), (35062639, .ofNat 1)] 0)) .nil) (.node (.leaf (.adef 32971 [(1850383, .negSucc 0), (2821193, .negSucc 0), (337941337, .ofNat 1), (463744069, .negSucc 0)] 0)) .nil)))) (.node (.node (.node (.node (.leaf (.atom 1487)) (.leaf (.adef 44741 [(125249, .ofNat 4), (29270867, .ofNat 4), (104498579, .negSucc 3), (107827843, .negSucc 3), (109161007, .negSucc 3), (151747963, .ofNat 4), (151794007, .ofNat 4), (157194307, .negSucc 3), (240872903, .negSucc 3), (249685523, .negSucc 3), (1125457741, .negSucc 3), (1150995317, .negSucc 3), (1558916573, .negSucc 3), (1600518317, .ofNat 4), (2424143191, .ofNat 4), (12829675669, .ofNat 4), (100009514029, .negSucc 3), (101147395681, .ofNat 4), (113845878989, .ofNat 2), (132923684717, .negSucc 1), (165967560461, .ofNat 2), (12500714731097, .ofNat 4), (12655271313053, .ofNat 4), (12673815332929, .negSucc 3)] 1))) (.node (.leaf (.adef 37847 [(16773, .ofNat 4), (63831699, .negSucc 1), (115692741, .negSucc 3), (144557181, .negSucc 1), (229167261, .negSucc 1), (237000969, .negSucc 1), (1169797437, .ofNat 2), (1620333261, .ofNat 2), (6297046083, .negSucc 1), (9144276651, .ofNat 2), (261365521149, .ofNat 4), (285521938281, .ofNat 4), (344991730527, .ofNat 4), (355637406627, .ofNat 2), (415507712121, .ofNat 2), (12472530480747, .ofNat 3), (18112027091859, .negSucc 2), (517685496688341, .negSucc 7)] 0)) .nil)) (.node (.node (.leaf (.adef 29221 [(52444143, .ofNat 2), (62424657, .ofNat 1), (89856183843, .negSucc 1)] 0)) .nil) (.node (.leaf (.adef 20101 [(1567663, .ofNat 1), (2140213, .ofNat 1), (3636959, .negSucc 0), (3796189, .ofNat 1), (3134755436233, .negSucc 0), (3286415482417, .negSucc 0)] 0)) .nil))) (.node (.node (.node (.leaf (.atom 5261)) (.leaf (.adef 46663 [(46315319, .negSucc 0), (50022719, .negSucc 0), (50067587, .ofNat 1), (63967843, .ofNat 1), (64703897, .negSucc 0)] 0))) (.node (.leaf (.adef 13877 [(39581, .ofNat 1), (8321827, .negSucc 0), (10365287, .ofNat 1), (12060443, .ofNat 1), (14550407, .ofNat 1), (17460169, .negSucc 0), (19538917, .negSucc 0), (22305229, .ofNat 1), (24129431, .negSucc 0), (28584781, .ofNat 1), (43449953, .negSucc 0)] 0)) .nil)) (.node (.node (.leaf (.adef 8431 [(1545937, .ofNat 1), (11227689079, .negSucc 0), (15808156489, .negSucc 0), (16304326463, .ofNat 1), (23403170183, .negSucc 0)] 0)) .nil) (.node (.leaf (.adef 26891 [(5702903, .ofNat 4), (2376477853, .ofNat 2)] 1)) .nil))))

def jac111 : JTree := .node (.node (.node (.node (.node (.leaf (.atom 2729)) (.leaf (.adef 21277 [(45306913, .ofNat 1), (71034221, .negSucc 0), (83066059, .ofNat 1), (2235398219, .ofNat 1), (3246141043, .negSucc 0), (11957622701, .negSucc 0), (17058605797, .ofNat 1)] 0))) (.node (.leaf (.adef 37253 [(5443027, .ofNat 1), (8011963, .ofNat 1)] 0)) .nil)) (.node (.node (.leaf (.adef 7591 [(8540226557, .ofNat 1), (8953404293, .ofNat 1), (9127017871, .ofNat 1), (9568584679, .ofNat 1)] 0)) (.leaf (.trans [(2389, .ofNat 1)] 0))) (.node (.leaf (.adef 40841 [(2123549, .negSucc 0), (2886731, .negSucc 0), (4290607, .negSucc 0), (5176153, .ofNat 1)] 0)) .nil))) (.node (.node (.node (.leaf (.adef 5953 [(743, .ofNat 1), (276959, .ofNat 1), (687979, .ofNat 1)] 0)) (.leaf (.adef 45737 [(21309, .negSucc 3), (67777587, .ofNat 2), (119259801, .ofNat 2), (162553563, .ofNat 1), (268543404837, .negSucc 1)] 0))) (.node (.leaf (.adef 11287 [(5170367, .negSucc 0), (734823599, .negSucc 0), (909050227, .ofNat 1), (959848619, .negSucc 0), (1097253991, .ofNat 1), (1406575747, .ofNat 1), (1435739219, .ofNat 1), (1442824949, .ofNat 1), (1861673459, .ofNat 1), (1919737063, .ofNat 1), (1937706283, .negSucc 0), (1963662149, .negSucc 0), (2050044497, .ofNat 1), (2386351271, .ofNat 1), (2431471681, .negSucc 0), (3155068589, .ofNat 1), (96704842411, .negSucc 0), (99707903587, .negSucc 0), (111184718779, .negSucc 0), (123054935711, .negSucc 0), (126876269687, .negSucc 0), (141480282479, .negSucc 0)] 0)) .nil)) (.node (.node (.leaf (.adef 17659 [(17657, .negSucc 0), (5811293, .negSucc 0), (6363631, .ofNat 1), (8379089, .negSucc 0), (11009441, .ofNat 1), (14035891, .ofNat 1), (15436061, .ofNat 1), (22221107, .negSucc 0), (29505127, .negSucc 0)] 0)) .nil) (.node (.leaf (.adef 4789 [(644263, .ofNat 1), (1674383, .ofNat 1)] 0)) .nil)))) (.node (.node (.node (.node (.leaf (.atom 9967)) (.leaf (.adef 27817 [(4219409, .negSucc 0), (4613989, .ofNat 1)] 0))) (.node (.leaf (.adef 38329 [(2711113, .negSucc 0), (5406943, .negSucc 0), (8635721, .ofNat 1), (9486553, .ofNat 1), (10451561, .ofNat 1), (148682852677, .negSucc 0), (183499520863, .negSucc 0), (193421491261, .negSucc 0), (265424970457, .ofNat 1)] 0)) .nil)) (.node (.node (.leaf (.adef 29383 [(341826364589, .ofNat 1), (1861497607107167, .ofNat 1), (2703180011738599, .negSucc 0)] 0)) .nil) (.node (.leaf (.adef 26189 [(699893543, .negSucc 0), (725719873, .negSucc 0), (3605213489, .negSucc 0), (5847458779, .ofNat 1), (8236493393, .negSucc 0), (9474839587, .ofNat 1), (9927975853, .ofNat 1), (92259833761, .negSucc 0), (112679765603, .ofNat 1), (116172781589, .negSucc 0), (116492399981, .ofNat 1), (124451495039, .ofNat 1), (129043801129, .ofNat 1), (150463619197, .ofNat 1), (156015782267, .ofNat 1), (170780062643, .negSucc 0), (177081909973, .negSucc 0), (185697284743, .ofNat 1), (192549583073, .ofNat 1), (270539441191, .ofNat 1), (280867887007, .ofNat 1), (320162378561, .negSucc 0), (332229680149, .negSucc 0), (333890942629, .ofNat 1), (346637973133, .ofNat 1), (377416858043, .negSucc 0), (392379551029, .negSucc 0), (483297311449, .ofNat 1), (493905435587, .ofNat 1), (596469757531, .ofNat 1), (677767681319, .negSucc 0), (14825822242463, .negSucc 0), (17308482482821, .negSucc 0), (17894132577067, .negSucc 0), (18668546636587, .negSucc 0), (20344913096531, .ofNat 1), (23751773506177, .ofNat 1), (24555438900079, .ofNat 1), (25618137918319, .ofNat 1), (51448938500863, .negSucc 0), (53388110305067, .negSucc 0), (57974145057901, .ofNat 1), (60272530292003, .ofNat 1), (70601425377331, .ofNat 1), (73262477236079, .ofNat 1), (79555718648137, .negSucc 0), (82709705461511, .negSucc 0), (154874706155989, .ofNat 1), (191141304203791, .ofNat 1), (201476472128077, .ofNat 1), (276478514945449, .negSucc 0)] 0)) .nil))) (.node (.node (.node (.leaf (.atom 48821)) (.leaf (.atom 49117))) (.node (.leaf (.adef 31873 [(408408174451, .negSucc 0), (448971044051, .ofNat 1), (494116691647, .negSucc 0), (543192082847, .ofNat 1), (3676471044871, .negSucc 0), (84002324564659, .negSucc 0), (163835095438129, .negSucc 0)] 0)) .nil)) (.node (.node (.leaf (.adef 36691 [(2734051, .ofNat 1), (2782909, .negSucc 0), (4940471, .ofNat 1), (6939917, .ofNat 1), (100745453, .negSucc 0), (138249161, .ofNat 1), (326278907, .ofNat 1), (447740159, .negSucc 0)] 0)) .nil) (.node (.leaf (.adef 43397 [(43391, .ofNat 1), (11573657, .negSucc 0), (13620109, .ofNat 1), (18556793, .ofNat 1), (23057647, .ofNat 1), (26827909, .negSucc 0), (30692549, .negSucc 0), (30774287, .ofNat 1), (33377027, .negSucc 0), (39588611, .ofNat 1), (69383081, .negSucc 0)] 0)) .nil))))

def jac112 : JTree := .node (.node (.node (.node (.node (.leaf (.atom 1061)) (.leaf (.adef 44071 [(28925423, .ofNat 1), (32372737, .ofNat 1), (32747093, .ofNat 1), (3278486069, .ofNat 1), (7477392059, .ofNat 2), (8834482297, .ofNat 2), (11008566323, .ofNat 1), (960952376431, .ofNat 1), (1526263127317, .negSucc 0), (1786101042653, .negSucc 0), (1882202824819, .ofNat 2), (2077187956771, .ofNat 2), (2180600954923, .negSucc 1)] 0))) (.node (.leaf (.adef 8563 [(4427693, .ofNat 1), (5457269, .ofNat 1), (5490119, .ofNat 1), (7858657, .ofNat 1), (9380471473, .negSucc 0)] 0)) .nil)) (.node (.node (.leaf (.adef 4021 [(23302589, .ofNat 1), (25616989, .negSucc 0), (33838933, .negSucc 0), (35483117, .negSucc 0), (6650322559, .ofNat 1), (6972066391, .ofNat 1)] 0)) (.leaf (.trans [(1367, .ofNat 1)] 0))) (.node (.leaf (.adef 25849 [(7184759, .negSucc 0), (8605717, .ofNat 1)] 0)) .nil))) (.node (.node (.node (.leaf (.atom 10631)) (.leaf (.adef 22013 [(55442813, .ofNat 1), (59252239, .ofNat 1)] 0))) (.node (.leaf (.adef 19141 [(114936331, .ofNat 1), (115542143, .negSucc 0), (48350832917, .negSucc 0), (48495336011, .ofNat 1)] 0)) .nil)) (.node (.node (.leaf (.adef 23539 [(842579072987, .negSucc 0), (868011282029, .ofNat 1)] 0)) .nil) (.node (.leaf (.adef 20431 [(6104675971, .ofNat 1), (6172600043, .ofNat 1), (9005885549, .ofNat 1), (9106090117, .ofNat 1), (11533059823, .ofNat 1), (11665240621, .ofNat 1), (16088977439, .negSucc 0), (16267992487, .negSucc 0), (17933042159, .negSucc 0), (18140863369, .ofNat 1), (26756274749, .ofNat 1), (47803229291, .negSucc 0), (86346900793, .negSucc 0), (87344770151, .negSucc 0), (184625463709, .ofNat 1), (199869855299, .ofNat 1), (229739304007, .negSucc 0), (232769018509, .negSucc 0), (829906833533, .negSucc 0), (841401223811, .negSucc 0), (949192855493, .negSucc 0), (1154835071051, .ofNat 1), (1607182109959, .negSucc 0), (1625162802961, .negSucc 0), (1942077863867, .negSucc 0), (2236049521019, .negSucc 0), (2267019293573, .negSucc 0), (2944846426637, .ofNat 1), (3155519455997, .negSucc 0), (4330291837537, .negSucc 0), (4378737902023, .negSucc 0), (5092304463007, .ofNat 1), (16477821407317, .ofNat 1)] 0)) .nil)))) (.node (.node (.node (.node (.leaf (.atom 48091)) (.leaf (.adef 21493 [(44449, .ofNat 1), (84141077, .ofNat 1), (84293501, .ofNat 1), (84438139, .negSucc 0), (108560219, .ofNat 1), (1232954306437, .ofNat 1)] 0))) (.node (.leaf (.adef 30869 [(88603, .ofNat 1), (97403, .negSucc 0), (1826351, .ofNat 1), (9240261011, .ofNat 1)] 0)) .nil)) (.node (.node (.leaf (.adef 10979 [(4841129, .ofNat 1), (8372929, .negSucc 0), (8376211, .negSucc 0), (10717589, .ofNat 1), (10724599, .ofNat 1), (362990233, .negSucc 0), (370053347, .negSucc 0)] 0)) .nil) (.node (.leaf (.adef 20161 [(121103617, .ofNat 1), (121639513, .negSucc 0), (50945255519, .negSucc 0), (51054523501, .ofNat 1)] 0)) .nil))) (.node (.node (.node (.leaf (.atom 10861)) (.leaf (.adef 46933 [(732302077, .negSucc 0), (732707807, .ofNat 1), (782095483, .negSucc 0), (782788331, .ofNat 1), (822814343, .ofNat 1), (823178239, .negSucc 0), (1104950977, .ofNat 1), (1188941351, .negSucc 0), (1202963749, .ofNat 1), (1206313303, .negSucc 0), (1211964689, .ofNat 1), (7025344824173, .ofNat 1), (7605662230387, .ofNat 1), (7965034022101, .negSucc 0), (10754244536971, .negSucc 0)] 0))) (.node (.leaf (.adef 39779 [(39769, .ofNat 1), (9973037, .negSucc 0), (19518221, .negSucc 0), (22498379, .negSucc 0), (28390963, .ofNat 1), (30266179, .ofNat 1), (31069729, .negSucc 0), (36961817, .negSucc 0), (68898623, .negSucc 0)] 0)) .nil)) (.node (.node (.leaf (.adef 17939 [(7017877, .ofNat 1), (12533953, .ofNat 1), (25276481, .ofNat 1), (58637389, .ofNat 1), (70267159, .negSucc 0), (88131779, .ofNat 1), (101673499, .ofNat 1), (101768521, .ofNat 1), (138204823, .ofNat 1), (157672763, .ofNat 1), (164029273, .ofNat 1), (252825467, .ofNat 1)] 0)) .nil) (.node (.leaf (.adef 33487 [(100407, .ofNat 2), (144797229, .negSucc 1), (163009251, .negSucc 0), (417908457, .negSucc 0), (271524512799, .ofNat 2)] 0)) .nil))))

def jac113 : JTree := .node (.leaf (.adef 24439 [(9205403, .ofNat 1), (9268781, .ofNat 1), (15708377, .ofNat 1), (18264109, .negSucc 0), (19576511, .ofNat 1), (20088583, .ofNat 1), (20862839, .ofNat 1), (22002499, .ofNat 1), (26453477, .ofNat 1), (27415211, .ofNat 1), (28542587, .ofNat 1), (36247319, .ofNat 1), (38187533, .ofNat 1), (39020741, .ofNat 1), (49132453, .ofNat 1), (594820339, .ofNat 1), (616769429, .ofNat 1), (769252741, .negSucc 0), (797638451, .negSucc 0), (849175519, .negSucc 0), (850582009, .negSucc 0), (880510409, .negSucc 0), (881968799, .negSucc 0), (1086891997, .ofNat 1), (1087186169, .ofNat 1), (1090422061, .ofNat 1), (1090716233, .ofNat 1), (1753283009, .ofNat 1), (1780648589, .ofNat 1), (1817979799, .ofNat 1), (1819352203, .ofNat 1), (1863319849, .ofNat 1), (1920121991, .ofNat 1), (1987506683, .negSucc 0), (1990975201, .ofNat 1), (2046767189, .negSucc 0), (2310785797, .ofNat 1), (3043535447, .negSucc 0), (3119988041, .negSucc 0), (3151318351, .ofNat 1), (3268764253, .ofNat 1), (3300221731, .ofNat 1), (3572307637, .negSucc 0), (3680128583, .negSucc 0), (3821314361, .ofNat 1), (3958908683, .ofNat 1), (5755614127, .ofNat 1), (6763705843, .ofNat 1), (6942395797, .ofNat 1), (7259490661, .ofNat 1), (7833234403, .ofNat 1), (7841327863, .ofNat 1), (7993495427, .ofNat 1), (8889349811, .ofNat 1), (8896349797, .negSucc 0), (9166936423, .ofNat 1), (9481020337, .ofNat 1), (9920374369, .ofNat 1), (9931662487, .ofNat 1), (10231314271, .ofNat 1), (10614864833, .ofNat 1), (10705666067, .ofNat 1), (10885993373, .ofNat 1), (10889199379, .ofNat 1), (11102180741, .ofNat 1), (11219790539, .ofNat 1), (11987851957, .ofNat 1), (12036754267, .ofNat 1), (12629314067, .ofNat 1), (12659424223, .ofNat 1), (12706931773, .ofNat 1), (13080112739, .ofNat 1), (13218964853, .ofNat 1), (13228708861, .ofNat 1), (13480218889, .ofNat 1), (13538122721, .ofNat 1), (13544326703, .ofNat 1), (13592930413, .ofNat 1), (15217563661, .ofNat 1), (16779259421, .ofNat 1), (16872486161, .ofNat 1), (19969919843, .ofNat 1), (20687672119, .negSucc 0), (20781382003, .ofNat 1), (21368979377, .negSucc 0), (23399913151, .ofNat 1), (23763367399, .ofNat 1), (23812286093, .ofNat 1), (24760511689, .ofNat 1), (24797038789, .ofNat 1), (27341224387, .negSucc 0), (27375290911, .negSucc 0), (28830028363, .ofNat 1), (31328775911, .negSucc 0), (35605981699, .ofNat 1), (36293903237, .ofNat 1), (142586434453, .negSucc 0), (143481462139, .negSucc 0), (143566702871, .negSucc 0), (149184108247, .ofNat 1), (149817166391, .ofNat 1), (149896298659, .ofNat 1), (194946092911, .ofNat 1), (195178194619, .ofNat 1), (195565030799, .ofNat 1), (195990550597, .ofNat 1), (217484574103, .ofNat 1), (218407463159, .ofNat 1), (218522824291, .ofNat 1), (261858967021, .ofNat 1), (267370752553, .ofNat 1), (269052204923, .ofNat 1), (270178557281, .ofNat 1), (271179759377, .ofNat 1), (274006981583, .ofNat 1), (275263633811, .negSucc 0), (276584865157, .negSucc 0), (276670105889, .negSucc 0), (277740702637, .ofNat 1), (279454808819, .ofNat 1), (283091624567, .negSucc 0), (283428671843, .negSucc 0), (283990417303, .negSucc 0), (284608337309, .negSucc 0), (288964903547, .ofNat 1), (306274140751, .ofNat 1), (316324142689, .negSucc 0), (317649393247, .ofNat 1), (322613322877, .negSucc 0), (324667680719, .ofNat 1), (335316664957, .negSucc 0), (346470795149, .ofNat 1), (358275166633, .ofNat 1), (359908633121, .ofNat 1), (366615696679, .negSucc 0), (379376129507, .negSucc 0), (391467166319, .negSucc 0), (393466444979, .negSucc 0), (404712855713, .negSucc 0), (414905261861, .negSucc 0), (418910685317, .ofNat 1), (422227832993, .negSucc 0), (424070572531, .negSucc 0), (428164476307, .ofNat 1), (447758998517, .ofNat 1), (461639301971, .negSucc 0), (462909379259, .ofNat 1), (865496764911767, .negSucc 0), (4360978700915371, .ofNat 1), (5491306514253479, .ofNat 1), (5549256276096671, .ofNat 1), (5566505842933523, .negSucc 0), (6332809889695187, .negSucc 0), (7251632945119091, .negSucc 0), (7974219225953263, .negSucc 0), (8058371167541287, .negSucc 0), (8083420184046331, .ofNat 1), (10530483173800027, .ofNat 1), (11068590058023409, .negSucc 0), (14431775295408461, .negSucc 0), (16073290284522473, .ofNat 1), (20957151039842917, .ofNat 1), (698685728764254739, .ofNat 1), (723939777456631003, .ofNat 1), (724467489973267829, .ofNat 1), (750653422381229933, .ofNat 1), (889063311533806439, .ofNat 1), (921198572403941903, .ofNat 1), (1014598831216127483, .negSucc 0), (1051271582972597891, .negSucc 0), (1052037902478715213, .negSucc 0), (1090063892307380101, .negSucc 0), (1291056278413982383, .negSucc 0), (1337721605580935191, .negSucc 0)] 0)) .nil

def jac114 : JTree := .node (.node (.node (.node (.node (.node (.node (.leaf (.atom 1201)) (.leaf (.adef 43801 [(8556799, .negSucc 0), (1058353627, .negSucc 0), (7211962831, .negSucc 0), (7479660247, .ofNat 1), (137917530889, .ofNat 1), (171154554937, .negSucc 0)] 0))) (.node (.leaf (.adef 18143 [(39999213491, .ofNat 1)] 0)) .nil)) (.node (.node (.leaf (.adef 3361 [(18722707, .ofNat 1), (25933571, .ofNat 1), (38855051, .ofNat 1)] 0)) .nil) (.node (.leaf (.adef 8929 [(3251987, .ofNat 1), (4138087, .ofNat 1), (468088657, .negSucc 0), (689314663, .negSucc 0), (774326957, .negSucc 0), (1137911053, .negSucc 0), (1928923873, .negSucc 0), (2059854887, .negSucc 0), (2397771041, .negSucc 0), (2888492819, .negSucc 0), (3090994931, .negSucc 0), (3170167019, .negSucc 0), (3950680709, .negSucc 0)] 0)) .nil))) (.node (.node (.node (.leaf (.atom 35327)) (.leaf (.adef 28051 [(6798149, .ofNat 1), (7242611, .negSucc 0), (298002377, .negSucc 0), (368148461, .negSucc 0)] 0))) (.node (.leaf (.adef 13789 [(969613, .ofNat 1), (1310443, .ofNat 1)] 0)) .nil)) (.node (.node (.leaf (.adef 1031 [(5166439, .negSucc 0), (6196579, .negSucc 0)] 0)) .nil) (.node (.leaf (.adef 32939 [(1445903, .negSucc 0), (1585439, .negSucc 0), (2134969, .ofNat 1), (2897117, .ofNat 1)] 0)) .nil)))) (.node (.node (.node (.node (.leaf (.atom 22291)) (.leaf (.adef 27617 [(44623, .ofNat 1), (1321257559, .ofNat 1)] 0))) (.node (.leaf (.adef 37649 [(1158347017, .negSucc 3), (265428320291, .negSucc 3), (469041225571, .negSucc 0), (1285372038403, .ofNat 1), (1675397653141, .ofNat 2), (59884234301449, .negSucc 1)] 1)) .nil)) (.node (.node (.leaf (.adef 7247 [(339611, .negSucc 0), (361393, .negSucc 0)] 0)) (.leaf (.trans [] 0))) (.node (.leaf (.adef 32507 [(21558011, .negSucc 0), (21689951, .ofNat 1), (22961551, .ofNat 1), (23010443, .negSucc 0)] 0)) .nil))) (.node (.node (.node (.leaf (.atom 10067)) (.leaf (.adef 46439 [(48295913, .negSucc 0), (49931647, .negSucc 0), (50484437, .ofNat 1), (67253441, .ofNat 1), (67887539, .negSucc 0), (109368113, .negSucc 1)] 0))) (.node (.leaf (.adef 19333 [(290772349, .ofNat 1), (368033141, .ofNat 1), (374565121, .ofNat 1), (483034979, .ofNat 1), (502464683, .negSucc 0), (595327439, .negSucc 0), (103606183331, .negSucc 0), (111538767487, .negSucc 0), (124075838537, .ofNat 1), (177117910921, .ofNat 1), (546564177187, .negSucc 0), (766685814671, .negSucc 0), (994533557437, .ofNat 1), (153277035092069, .ofNat 1), (185408643579677, .negSucc 0), (3179914090066763, .ofNat 1), (3846522460360979, .negSucc 0)] 0)) .nil)) (.node (.node (.leaf (.adef 7643 [(36191, .ofNat 1), (493139131, .ofNat 1), (725589103, .ofNat 1), (926280739, .ofNat 1), (1292466323, .ofNat 1), (2128372067, .ofNat 1), (2164615613, .ofNat 1), (2488966111, .ofNat 1), (2595703189, .ofNat 1), (2783767439, .ofNat 1), (3531498463, .ofNat 1)] 0)) .nil) (.node (.leaf (.adef 33311 [(54992843, .ofNat 1), (94988563, .negSucc 0), (124993417, .ofNat 1), (13397129099, .negSucc 0)] 0)) .nil))))) jac111) (.node jac112 (.node (.node (.node (.node (.node (.leaf (.trans [(150173, .negSucc 0), (24132259, .negSucc 0), (33115783, .ofNat 1)] 0)) (.leaf (.adef 6353 [(27407, .ofNat 1), (3238259, .ofNat 1), (3956137, .negSucc 0), (121493531, .ofNat 1), (123956597, .ofNat 1), (158205601, .ofNat 1), (165904829, .ofNat 1), (1036002853, .ofNat 1), (45471310163, .negSucc 0), (46393160381, .negSucc 0), (387744159469, .negSucc 0)] 0))) jac113) (.node (.node (.leaf (.adef 29191 [(21388207, .negSucc 0), (83993579, .negSucc 0), (127576649, .ofNat 1), (141276497, .negSucc 0), (8832355309, .ofNat 1), (108800467439, .negSucc 0)] 0)) (.leaf (.trans [(46933, .ofNat 1)] 0))) (.node (.leaf (.adef 19937 [(41179, .ofNat 1), (46571521, .ofNat 1), (46693211, .negSucc 0), (77441711, .ofNat 1), (107723281, .ofNat 1)] 0)) .nil))) (.node (.node (.node (.leaf (.atom 28807)) (.leaf (.adef 22157 [(11290283, .negSucc 0), (32116663, .ofNat 1), (35171621, .negSucc 0)] 0))) (.node (.leaf (.adef 25303 [(7266757, .ofNat 4), (566793233, .ofNat 2), (2358532937, .ofNat 1), (5088343031, .ofNat 2)] 1)) .nil)) (.node (.node (.leaf (.adef 29863 [(4186733, .ofNat 1), (8200223, .ofNat 1)] 0)) .nil) (.node (.leaf (.adef 42571 [(5490049, .ofNat 1), (8382947, .negSucc 0)] 0)) .nil)))) (.node (.node (.node (.node (.leaf (.atom 5)) (.leaf (.adef 21757 [(546455777, .negSucc 0), (671884661, .ofNat 1), (115754369717, .ofNat 1), (138647737277, .negSucc 0)] 0))) (.node (.leaf (.adef 7741 [(19938691, .ofNat 1), (520215977, .negSucc 0), (536021869, .negSucc 0)] 0)) .nil)) (.node (.node (.leaf (.adef 15527 [(8098873, .ofNat 1), (9676241, .negSucc 0), (22996319, .ofNat 1)] 0)) .nil) (.node (.leaf (.adef 32779 [(16953, .ofNat 4), (52533333, .negSucc 1), (62046459, .negSucc 1), (144109593, .negSucc 3), (159561999, .negSucc 1), (250636131, .negSucc 1), (256041117, .negSucc 1), (1288142703, .negSucc 1), (104202487503, .ofNat 3), (274177611423, .ofNat 4), (321204230163, .ofNat 4), (364012045713, .ofNat 4), (374457938391, .ofNat 2), (433514448387, .ofNat 2), (543844974159693, .negSucc 7)] 0)) .nil))) (.node (.node (.node (.leaf (.atom 11701)) (.leaf (.atom 49253))) (.node (.leaf (.adef 16061 [(2484767, .ofNat 1), (2964917, .negSucc 0), (2849496862391, .ofNat 1), (2987356046159, .ofNat 1)] 0)) .nil)) (.node (.node (.leaf (.adef 13567 [(36979, .ofNat 1), (7939003, .ofNat 1), (10068151, .ofNat 1), (11465059, .ofNat 1), (14267951, .ofNat 1), (17242529, .ofNat 1), (19421047, .negSucc 0), (20262289, .negSucc 0), (22144459, .ofNat 1), (26234279, .ofNat 1), (43214813, .ofNat 1)] 0)) .nil) (.node (.leaf (.adef 2129 [(541067, .ofNat 1), (166422131, .negSucc 0), (236760841, .negSucc 0)] 0)) .nil))))))

end BP.EL
