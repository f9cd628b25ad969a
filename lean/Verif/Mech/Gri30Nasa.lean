/- Generated by tools/gen_mechanisms.py from utilities/mechanisms/gri30/{chem.cti,foam/thermo.foam}. Do not edit. -/
import Verif.Spec.Thermo
set_option autoImplicit false

namespace DLB.Mech.Gri30
open DLB

/-- The NASA polynomials of the species (order of `names`), utilities/mechanisms/gri30/chem.cti:29-862 -/
def nasa : List Nasa := [
  /- chem.cti:29  H2 -/
  ⟨(1000, 0), [(234433112, 8), (798052075, 11), (-19478151, 12), (201572094, 16), (-737611761, 20), (-917935173, 6), (683010238, 9)], [(33372792, 7), (-494024731, 13), (499456778, 15), (-179566394, 18), (200255376, 22), (-950158922, 6), (-320502331, 8)]⟩,
  /- chem.cti:46  H -/
  ⟨(1000, 0), [(25, 1), (705332819, 21), (-199591964, 23), (230081632, 26), (-927732332, 30), (254736599, 4), (-446682853, 9)], [(250000001, 8), (-230842973, 19), (161561948, 22), (-473515235, 26), (498197357, 30), (254736599, 4), (-446682914, 9)]⟩,
  /- chem.cti:61  O -/
  ⟨(1000, 0), [(31682671, 7), (-327931884, 11), (664306396, 14), (-612806624, 17), (211265971, 20), (291222592, 4), (205193346, 8)], [(256942078, 8), (-859741137, 13), (419484589, 16), (-100177799, 19), (122833691, 23), (292175791, 4), (478433864, 8)]⟩,
  /- chem.cti:76  O2 -/
  ⟨(1000, 0), [(378245636, 8), (-299673416, 11), (984730201, 14), (-968129509, 17), (324372837, 20), (-106394356, 5), (365767573, 8)], [(328253784, 8), (148308754, 11), (-757966669, 15), (209470555, 18), (-216717794, 22), (-108845772, 5), (545323129, 8)]⟩,
  /- chem.cti:93  OH -/
  ⟨(1000, 0), [(399201543, 8), (-240131752, 11), (461793841, 14), (-388113333, 17), (13641147, 19), (361508056, 5), (-103925458, 9)], [(309288767, 8), (548429716, 12), (126505228, 15), (-879461556, 19), (117412376, 22), (3858657, 3), (44766961, 7)]⟩,
  /- chem.cti:108  H2O -/
  ⟨(1000, 0), [(419864056, 8), (-20364341, 10), (652040211, 14), (-548797062, 17), (177197817, 20), (-302937267, 4), (-849032208, 9)], [(303399249, 8), (217691804, 11), (-164072518, 15), (-97041987, 18), (168200992, 22), (-300042971, 4), (49667701, 7)]⟩,
  /- chem.cti:125  HO2 -/
  ⟨(1000, 0), [(430179801, 8), (-474912051, 11), (211582891, 13), (-242763894, 16), (929225124, 20), (29480804, 5), (371666245, 8)], [(40172109, 7), (223982013, 11), (-63365815, 14), (11424637, 17), (-107908535, 22), (111856713, 6), (378510215, 8)]⟩,
  /- chem.cti:141  H2O2 -/
  ⟨(1000, 0), [(427611269, 8), (-542822417, 12), (167335701, 13), (-215770813, 16), (862454363, 20), (-177025821, 4), (343505074, 8)], [(416500285, 8), (490831694, 11), (-190139225, 14), (371185986, 18), (-287908305, 22), (-178617877, 4), (291615662, 8)]⟩,
  /- chem.cti:157  C -/
  ⟨(1000, 0), [(255423955, 8), (-321537724, 12), (733792245, 15), (-732234889, 18), (266521446, 21), (854438832, 4), (453130848, 8)], [(249266888, 8), (479889284, 13), (-72433502, 15), (374291029, 19), (-487277893, 23), (854512953, 4), (480150373, 8)]⟩,
  /- chem.cti:172  CH -/
  ⟨(1000, 0), [(348981665, 8), (323835541, 12), (-168899065, 14), (316217327, 17), (-140609067, 20), (707972934, 4), (208401108, 8)], [(287846473, 8), (970913681, 12), (144445655, 15), (-130687849, 18), (176079383, 22), (710124364, 4), (548497999, 8)]⟩,
  /- chem.cti:187  CH2 -/
  ⟨(1000, 0), [(376267867, 8), (968872143, 12), (279489841, 14), (-385091153, 17), (168741719, 20), (460040401, 4), (156253185, 8)], [(287410113, 8), (365639292, 11), (-140894597, 14), (260179549, 18), (-187727567, 22), (46263604, 3), (617119324, 8)]⟩,
  /- chem.cti:202  CH2(S) -/
  ⟨(1000, 0), [(419860411, 8), (-236661419, 11), (82329622, 13), (-668815981, 17), (194314737, 20), (504968163, 4), (-769118967, 9)], [(229203842, 8), (465588637, 11), (-201191947, 14), (417906, 15), (-339716365, 22), (509259997, 4), (862650169, 8)]⟩,
  /- chem.cti:217  CH3 -/
  ⟨(1000, 0), [(36735904, 7), (201095175, 11), (573021856, 14), (-687117425, 17), (254385734, 20), (164449988, 4), (160456433, 8)], [(228571772, 8), (723990037, 11), (-298714348, 14), (595684644, 18), (-467154394, 22), (167755843, 4), (848007179, 8)]⟩,
  /- chem.cti:232  CH4 -/
  ⟨(1000, 0), [(514987613, 8), (-136709788, 10), (491800599, 13), (-484743026, 16), (166693956, 19), (-102466476, 4), (-464130376, 8)], [(74851495, 9), (133909467, 10), (-573285809, 14), (122292535, 17), (-10181523, 20), (-946834459, 5), (18437318, 6)]⟩,
  /- chem.cti:249  CO -/
  ⟨(1000, 0), [(357953347, 8), (-61035368, 11), (101681433, 14), (907005884, 18), (-904424499, 21), (-14344086, 3), (350840928, 8)], [(271518561, 8), (206252743, 11), (-998825771, 15), (230053008, 18), (-203647716, 22), (-141518724, 4), (781868772, 8)]⟩,
  /- chem.cti:266  CO2 -/
  ⟨(1000, 0), [(235677352, 8), (898459677, 11), (-712356269, 14), (245919022, 17), (-143699548, 21), (-483719697, 4), (990105222, 8)], [(385746029, 8), (441437026, 11), (-221481404, 14), (523490188, 18), (-472084164, 22), (-48759166, 3), (227163806, 8)]⟩,
  /- chem.cti:283  HCO -/
  ⟨(1000, 0), [(422118584, 8), (-324392532, 11), (137799446, 13), (-133144093, 16), (433768865, 20), (383956496, 5), (339437243, 8)], [(277217438, 8), (495695526, 11), (-248445613, 14), (589161778, 18), (-533508711, 22), (401191815, 5), (979834492, 8)]⟩,
  /- chem.cti:298  CH2O -/
  ⟨(1000, 0), [(479372315, 8), (-990833369, 11), (373220008, 13), (-379285261, 16), (131772652, 19), (-143089567, 4), (6028129, 7)], [(176069008, 8), (920000082, 11), (-442258813, 14), (100641212, 17), (-88385564, 21), (-139958323, 4), (13656323, 6)]⟩,
  /- chem.cti:314  CH2OH -/
  ⟨(1000, 0), [(386388918, 8), (559672304, 11), (593271791, 14), (-104532012, 16), (436967278, 20), (-319391367, 5), (547302243, 8)], [(369266569, 8), (864576797, 11), (-37510112, 13), (787234636, 18), (-648554201, 22), (-324250627, 5), (581043215, 8)]⟩,
  /- chem.cti:331  CH3O -/
  ⟨(1000, 0), [(2106204, 6), (7216595, 9), (5338472, 12), (-7377636, 15), (207561, 17), (9786011, 4), (13152177, 6)], [(3770799, 6), (7871497, 9), (-2656384, 12), (3944431, 16), (-2112616, 20), (12783252, 5), (2929575, 6)]⟩,
  /- chem.cti:348  CH3OH -/
  ⟨(1000, 0), [(571539582, 8), (-152309129, 10), (652441155, 13), (-710806889, 16), (261352698, 19), (-256427656, 4), (-150409823, 8)], [(178970791, 8), (140938292, 10), (-636500835, 14), (138171085, 17), (-11706022, 20), (-253748747, 4), (145023623, 7)]⟩,
  /- chem.cti:364  C2H -/
  ⟨(1000, 0), [(288965733, 8), (134099611, 10), (-284769501, 13), (294791045, 16), (-109331511, 19), (668393932, 4), (622296438, 8)], [(316780652, 8), (475221902, 11), (-183787077, 14), (304190252, 18), (-17723277, 21), (67121065, 3), (663589475, 8)]⟩,
  /- chem.cti:380  C2H2 -/
  ⟨(1000, 0), [(808681094, 9), (233615629, 10), (-355171815, 13), (280152437, 16), (-850072974, 20), (264289807, 4), (139397051, 7)], [(414756964, 8), (596166664, 11), (-237294852, 14), (467412171, 18), (-361235213, 22), (259359992, 4), (-123028121, 8)]⟩,
  /- chem.cti:396  C2H3 -/
  ⟨(1000, 0), [(321246645, 8), (151479162, 11), (259209412, 13), (-357657847, 16), (147150873, 19), (348598468, 4), (851054025, 8)], [(3016724, 6), (103302292, 10), (-468082349, 14), (101763288, 17), (-862607041, 22), (346128739, 4), (778732378, 8)]⟩,
  /- chem.cti:412  C2H4 -/
  ⟨(1000, 0), [(395920148, 8), (-757052247, 11), (570990292, 13), (-691588753, 16), (269884373, 19), (508977593, 5), (409733096, 8)], [(203611116, 8), (146454151, 10), (-671077915, 14), (147222923, 17), (-125706061, 21), (493988614, 5), (103053693, 7)]⟩,
  /- chem.cti:428  C2H5 -/
  ⟨(1000, 0), [(430646568, 8), (-418658892, 11), (497142807, 13), (-599126606, 16), (230509004, 19), (128416265, 4), (470720924, 8)], [(195465642, 8), (173972722, 10), (-798206668, 14), (175217689, 17), (-149641576, 21), (1285752, 2), (134624343, 7)]⟩,
  /- chem.cti:444  C2H6 -/
  ⟨(1000, 0), [(429142492, 8), (-55015427, 10), (599438288, 13), (-708466285, 16), (268685771, 19), (-115222055, 4), (266682316, 8)], [(10718815, 7), (216852677, 10), (-100256067, 13), (221412001, 17), (-19000289, 20), (-114263932, 4), (151156107, 7)]⟩,
  /- chem.cti:460  HCCO -/
  ⟨(1000, 0), [(22517214, 7), (17655021, 9), (-23729101, 12), (17275759, 15), (-50664811, 19), (20059449, 3), (12490417, 6)], [(56282058, 7), (40853401, 10), (-15934547, 13), (28626052, 17), (-19407832, 21), (19327215, 3), (-39302595, 7)]⟩,
  /- chem.cti:476  CH2CO -/
  ⟨(1000, 0), [(21358363, 7), (181188721, 10), (-173947474, 13), (934397568, 17), (-201457615, 20), (-704291804, 5), (12215648, 6)], [(451129732, 8), (900359745, 11), (-416939635, 14), (923345882, 18), (-794838201, 22), (-755105311, 5), (632247205, 9)]⟩,
  /- chem.cti:492  HCCOH -/
  ⟨(1000, 0), [(12423733, 7), (31072201, 9), (-50866864, 12), (43137131, 15), (-14014594, 18), (80316143, 4), (13874319, 6)], [(59238291, 7), (679236, 8), (-25658564, 13), (44987841, 17), (-29940101, 21), (7264626, 3), (-76017742, 7)]⟩,
  /- chem.cti:508  N -/
  ⟨(1000, 0), [(25, 1), (0, 0), (0, 0), (0, 0), (0, 0), (56104637, 3), (41939087, 7)], [(24159429, 7), (17489065, 11), (-11902369, 14), (30226245, 18), (-20360982, 22), (56133773, 3), (46496096, 7)]⟩,
  /- chem.cti:523  NH -/
  ⟨(1000, 0), [(34929085, 7), (31179198, 11), (-14890484, 13), (24816442, 16), (-10356967, 19), (41880629, 3), (18483278, 7)], [(27836928, 7), (1329843, 9), (-42478047, 14), (78348501, 18), (-5504447, 21), (42120848, 3), (57407799, 7)]⟩,
  /- chem.cti:539  NH2 -/
  ⟨(1000, 0), [(42040029, 7), (-21061385, 10), (71068348, 13), (-56115197, 16), (16440717, 19), (2188591, 2), (-14184248, 8)], [(28347421, 7), (32073082, 10), (-93390804, 14), (13702953, 17), (-79206144, 22), (22171957, 3), (65204163, 7)]⟩,
  /- chem.cti:556  NH3 -/
  ⟨(1000, 0), [(42860274, 7), (-4660523, 9), (21718513, 12), (-22808887, 15), (82638046, 19), (-67417285, 4), (-62537277, 8)], [(26344521, 7), (5666256, 9), (-17278676, 13), (23867161, 17), (-12578786, 21), (-65446958, 4), (65662928, 7)]⟩,
  /- chem.cti:573  NNH -/
  ⟨(1000, 0), [(43446927, 7), (-48497072, 10), (20059459, 12), (-21726464, 15), (79469539, 19), (28791973, 3), (2977941, 6)], [(37667544, 7), (28915082, 10), (-1041662, 12), (16842594, 17), (-10091896, 21), (28650697, 3), (44705067, 7)]⟩,
  /- chem.cti:589  NO -/
  ⟨(1000, 0), [(42184763, 7), (-4638976, 9), (11041022, 12), (-93361354, 16), (2803577, 18), (9844623, 3), (22808464, 7)], [(32606056, 7), (11911043, 10), (-42917048, 14), (69457669, 18), (-40336099, 22), (99209746, 4), (63693027, 7)]⟩,
  /- chem.cti:606  NO2 -/
  ⟨(1000, 0), [(39440312, 7), (-1585429, 9), (16657812, 12), (-20475426, 15), (78350564, 19), (28966179, 4), (63119917, 7)], [(48847542, 7), (21723956, 10), (-82806906, 14), (1574751, 16), (-10510895, 21), (23164983, 4), (-11741695, 8)]⟩,
  /- chem.cti:622  N2O -/
  ⟨(1000, 0), [(22571502, 7), (11304728, 9), (-13671319, 12), (96819806, 16), (-29307182, 19), (87417744, 4), (10757992, 6)], [(48230729, 7), (26270251, 10), (-95850874, 14), (16000712, 17), (-97752303, 22), (80734048, 4), (-22017207, 7)]⟩,
  /- chem.cti:638  HNO -/
  ⟨(1000, 0), [(45334916, 7), (-56696171, 10), (18473207, 12), (-17137094, 15), (55454573, 19), (11548297, 3), (17498417, 7)], [(29792509, 7), (34944059, 10), (-78549778, 14), (57479594, 18), (-19335916, 23), (11750582, 3), (86063728, 7)]⟩,
  /- chem.cti:654  CN -/
  ⟨(1000, 0), [(36129351, 7), (-95551327, 11), (21442977, 13), (-31516323, 17), (-46430356, 20), (5170834, 2), (39804995, 7)], [(37459805, 7), (43450775, 12), (29705984, 14), (-68651806, 18), (44134173, 22), (51536188, 3), (27867601, 7)]⟩,
  /- chem.cti:670  HCN -/
  ⟨(1000, 0), [(22589886, 7), (1005117, 8), (-13351763, 12), (10092349, 15), (-30089028, 19), (14712633, 3), (89164419, 7)], [(38022392, 7), (31464228, 10), (-10632185, 13), (16619757, 17), (-9799757, 21), (14407292, 3), (15754601, 7)]⟩,
  /- chem.cti:686  H2CN -/
  ⟨(1000, 0), [(2851661, 6), (56952331, 10), (107114, 11), (-1622612, 15), (-23511081, 20), (2863782, 2), (89927511, 7)], [(5209703, 6), (29692911, 10), (-28555891, 14), (-163555, 15), (30432589, 21), (27677109, 3), (-4444478, 6)]⟩,
  /- chem.cti:702  HCNN -/
  ⟨(1000, 0), [(25243194, 7), (15960619, 9), (-18816354, 12), (1212554, 14), (-32357378, 19), (54261984, 3), (1167587, 5)], [(58946362, 7), (39895959, 10), (-1598238, 12), (29249395, 17), (-20094686, 21), (53452941, 3), (-51030502, 7)]⟩,
  /- chem.cti:718  HCNO -/
  ⟨(1382, 0), [(264727989, 8), (127505342, 10), (-104794236, 13), (441432836, 17), (-757521466, 21), (192990252, 4), (107332972, 7)], [(659860456, 8), (302778626, 11), (-107704346, 14), (171666528, 18), (-101439391, 22), (179661339, 4), (-103306599, 7)]⟩,
  /- chem.cti:734  HOCN -/
  ⟨(1368, 0), [(378604952, 8), (688667922, 11), (-321487864, 14), (517195767, 18), (119360788, 22), (-2826984, 3), (563292162, 8)], [(589784885, 8), (316789393, 11), (-111801064, 14), (177243144, 18), (-104339177, 22), (-370653331, 5), (-618167825, 8)]⟩,
  /- chem.cti:750  HNCO -/
  ⟨(1478, 0), [(363096317, 8), (730282357, 11), (-228050003, 14), (-661271298, 18), (362235752, 21), (-155873636, 4), (619457727, 8)], [(622395134, 8), (317864004, 11), (-109378755, 14), (170735163, 18), (-995021955, 23), (-166599344, 4), (-838224741, 8)]⟩,
  /- chem.cti:766  NCO -/
  ⟨(1000, 0), [(28269308, 7), (88051688, 10), (-83866134, 13), (48016964, 16), (-13313595, 19), (14682477, 3), (95504646, 7)], [(51521845, 7), (23051761, 10), (-88033153, 14), (14789098, 17), (-90977996, 22), (14004123, 3), (-2544266, 6)]⟩,
  /- chem.cti:799  AR -/
  ⟨(1000, 0), [(25, 1), (0, 0), (0, 0), (0, 0), (0, 0), (-745375, 3), (4366, 3)], [(25, 1), (0, 0), (0, 0), (0, 0), (0, 0), (-745375, 3), (4366, 3)]⟩,
  /- chem.cti:814  C3H7 -/
  ⟨(1000, 0), [(10515518, 7), (2599198, 8), (2380054, 12), (-19609569, 15), (9373247, 18), (10631863, 3), (21122559, 6)], [(77026987, 7), (16044203, 9), (-5283322, 12), (7629859, 16), (-39392284, 21), (82984336, 4), (-1548018, 5)]⟩,
  /- chem.cti:830  C3H8 -/
  ⟨(1000, 0), [(93355381, 8), (26424579, 9), (61059727, 13), (-21977499, 15), (95149253, 19), (-1395852, 2), (19201691, 6)], [(75341368, 7), (18872239, 9), (-62718491, 13), (91475649, 17), (-47838069, 21), (-16467516, 3), (-17892349, 6)]⟩,
  /- chem.cti:846  CH2CHO -/
  ⟨(1000, 0), [(3409062, 6), (10738574, 9), (1891492, 12), (-7158583, 15), (2867385, 18), (15214766, 4), (955829, 5)], [(597567, 5), (8130591, 9), (-2743624, 12), (4070304, 16), (-2176017, 20), (4903218, 4), (-5045251, 6)]⟩,
  /- chem.cti:862  CH3CHO -/
  ⟨(1000, 0), [(47294595, 7), (-31932858, 10), (47534921, 12), (-57458611, 15), (21931112, 18), (-21572878, 3), (41030159, 7)], [(54041108, 7), (11723059, 9), (-42263137, 13), (68372451, 17), (-40984863, 21), (-22593122, 3), (-34807917, 7)]⟩,
  /- chem.cti:782  N2 -/
  ⟨(1000, 0), [(3298677, 6), (14082404, 10), (-3963222, 12), (5641515, 15), (-2444854, 18), (-10208999, 4), (3950372, 6)], [(292664, 5), (14879768, 10), (-568476, 12), (10097038, 17), (-6753351, 21), (-9227977, 4), (5980528, 6)]⟩]

/-- The JANAF polynomials of the species (order of `names`), utilities/mechanisms/gri30/foam/thermo.foam; Tlow is 300, Thigh 3000 for all of them. -/
def foamNasa : List Nasa := [
  /- thermo.foam:1  H2 -/
  ⟨(1000, 0), [(280811858794504, 14), (45506176024811456, 19), (-10482310715105696, 21), (10215964476934802, 24), (-34535526759038106, 28), (-9654487416595365, 13), (-12565965018329415, 16)], [(36534338886269437, 16), (-7137181507809895, 19), (1003497225074257, 21), (-3439053463663084, 25), (39529659797578526, 30), (-1065847823752022, 12), (-4927709925508886, 15)]⟩,
  /- thermo.foam:32  H -/
  ⟨(1000, 0), [(2499999982865364, 15), (12245454202734124, 26), (-30525959436714507, 29), (3158853883679488, 31), (-1145296115876702, 34), (25473659901810566, 12), (-44668278074015433, 17)], [(24999999497267438, 16), (1375349839108468, 25), (-12798222789367612, 29), (48643811169839225, 33), (-650722239669892, 35), (25473659913522424, 12), (-44668259347087513, 17)]⟩,
  /- thermo.foam:63  O -/
  ⟨(1000, 0), [(30017922041004788, 16), (-20585026604635604, 19), (34744361112816024, 22), (-2670971444109501, 24), (7694569146624605, 28), (29139429136349103, 12), (2749400744812025, 15)], [(26930529620792596, 16), (-38286228290036246, 20), (2924712387379993, 22), (-9900586362701464, 26), (1255507118159829, 29), (2917939212067881, 11), (4129341533131036, 15)]⟩,
  /- thermo.foam:94  O2 -/
  ⟨(1000, 0), [(3816371022296404, 15), (-32248523550058947, 19), (10372505231421471, 21), (-10163902819886973, 24), (33883053316401466, 28), (-10676707618285693, 13), (35130915420283024, 16)], [(28923179060838167, 16), (2356563873277924, 18), (-14576094766639056, 22), (44829037628266464, 26), (-51136268515346857, 30), (-9561141694074124, 13), (7552328127346897, 15)]⟩,
  /- thermo.foam:125  OH -/
  ⟨(1000, 0), [(3647391782172988, 15), (10528397261374595, 20), (-18209055042197507, 22), (3053265155595903, 24), (-12871058591540578, 28), (3650854310143508, 12), (1342418706002647, 15)], [(37412918759434826, 16), (-9438376811745558, 19), (1347469337155776, 21), (-5117199408722194, 25), (647259559563456, 28), (36462700072369394, 13), (10090844823749059, 16)]⟩,
  /- thermo.foam:157  H2O -/
  ⟨(1000, 0), [(419864056, 8), (-20364341, 10), (652040211, 14), (-548797062, 17), (177197817, 20), (-302937267, 4), (-849032208, 9)], [(303399249, 8), (217691804, 11), (-164072518, 15), (-97041987, 18), (168200992, 22), (-300042971, 4), (49667701, 7)]⟩,
  /- thermo.foam:189  HO2 -/
  ⟨(1000, 0), [(3865324461867321, 15), (-15019303760780227, 19), (1257954825587061, 20), (-14712981204077338, 24), (5479812240414943, 27), (33930860982914146, 14), (55397031295936365, 16)], [(3160740176411689, 15), (4139049393180549, 18), (-21419683962806886, 22), (6254499342720628, 25), (-7349772958610228, 29), (40662943745210976, 14), (840209461680518, 14)]⟩,
  /- thermo.foam:221  H2O2 -/
  ⟨(1000, 0), [(3783162431303633, 15), (31054028624195747, 19), (7156582805627388, 21), (-10982191426187144, 24), (44387112757628945, 28), (-1765211041942788, 11), (54962980753678465, 16)], [(35340248771434575, 16), (6304642864842566, 18), (-30078230543203832, 22), (7454505030801222, 25), (-7462724181941578, 29), (-176437003586303, 10), (6319362910834553, 15)]⟩,
  /- thermo.foam:253  C -/
  ⟨(1000, 0), [(25308071549290543, 16), (-14894777812162797, 20), (28339139268644484, 23), (-23752666212182277, 26), (7274112796505965, 29), (8544629159843952, 11), (462939026442373, 14)], [(24952101785958893, 16), (39502180157423494, 21), (-6386218692598548, 23), (3401852759854301, 26), (-4403464088762353, 30), (8545095740981797, 11), (4789233381905451, 15)]⟩,
  /- thermo.foam:284  CH -/
  ⟨(1000, 0), [(34017949061880794, 16), (9455100538351208, 19), (-3225180717384434, 21), (47336276295615996, 25), (-1966989600062097, 27), (7080663707516673, 11), (24556748280548746, 16)], [(35005852944208633, 16), (-44413177699969425, 20), (12914538106187476, 22), (-5258774868714521, 25), (6673243096980394, 29), (7080525463258552, 11), (2149317433446768, 15)]⟩,
  /- thermo.foam:316  CH2 -/
  ⟨(1000, 0), [(31909195178061247, 16), (5141743714510437, 18), (-7970727967624218, 21), (7806848591544976, 24), (-28002659148438342, 28), (4606323343190584, 11), (3960414640070482, 15)], [(36326480161342536, 16), (18958531821750531, 19), (4083540200391447, 23), (-2455205440176525, 25), (4470188509791567, 29), (46018027800438336, 12), (2122052216590916, 15)]⟩,
  /- thermo.foam:348  CH2(S) -/
  ⟨(1000, 0), [(3799313341435949, 15), (5393541795642717, 19), (7625165717746054, 22), (13650575416792247, 25), (-11395927886792308, 28), (5053824531213847, 11), (9064447122136023, 16)], [(31900249929375857, 16), (2576212803623537, 18), (-30314153697196603, 23), (-1770487190119763, 25), (4060130519763914, 29), (5063381146458682, 11), (3830216845050675, 15)]⟩,
  /- thermo.foam:380  CH3 -/
  ⟨(1000, 0), [(31582514365483725, 16), (5770220626550634, 18), (-396237464961305, 20), (3616504111353054, 24), (-14895111816462773, 28), (16498371430177325, 12), (37660500991971766, 16)], [(30717244980968412, 16), (5415826407082571, 18), (-1485495835880264, 21), (7203689609779539, 26), (1899837779578922, 29), (16520884099044033, 12), (4284073509552808, 15)]⟩,
  /- thermo.foam:412  CH4 -/
  ⟨(1000, 0), [(39547474768697244, 16), (-48989614711947346, 19), (26387156835461613, 21), (-23572388674843357, 24), (69779906173242815, 28), (-10123470255898426, 12), (3648988399148614, 16)], [(9352050608461863, 16), (11305375484442937, 18), (-39620013552935675, 22), (5910865038481224, 25), (-2112091022615396, 29), (-9730756743271451, 12), (1388868719970897, 14)]⟩,
  /- thermo.foam:444  CO -/
  ⟨(1000, 0), [(36574050518352634, 16), (-11909909287064419, 19), (25549716194064244, 22), (-813244145043656, 24), (-21607304449059367, 29), (-14352010863381156, 12), (31833171198904218, 16)], [(30514383911930563, 16), (12935463476331426, 19), (-37361362990757077, 23), (14181167134410802, 27), (6516276947957831, 30), (-14263491950136304, 12), (6017486099393892, 15)]⟩,
  /- thermo.foam:476  CO2 -/
  ⟨(1000, 0), [(2496542968971409, 15), (799249379743157, 17), (-46553370791069265, 22), (-8939061109210363, 26), (777966235014462, 27), (-4838675138725643, 11), (9311487996894684, 15)], [(295121696353838, 14), (6480355114616427, 18), (-389226663485644, 20), (11021885705844748, 25), (-11921870266442853, 29), (-4845817066304936, 11), (7128417945259567, 15)]⟩,
  /- thermo.foam:508  HCO -/
  ⟨(1000, 0), [(4055913532047811, 15), (-20174667985552977, 19), (10549699482438412, 21), (-9726587195700978, 24), (29135388737197533, 28), (38564498094778655, 13), (4085049272344001, 15)], [(27489351089503775, 16), (49724822600045755, 19), (-24743598082705917, 22), (5795979024271355, 25), (-5155756916179677, 29), (40262798142426436, 13), (9941296038816695, 15)]⟩,
  /- thermo.foam:541  CH2O -/
  ⟨(1000, 0), [(4146420607263484, 15), (-5125322356898448, 18), (24790357706565643, 21), (-24097395008042364, 24), (7728056871076143, 27), (-14242597340796765, 12), (3310390732463226, 15)], [(1591228669002645, 15), (949498359236384, 17), (-4605573760580699, 21), (10543178315067938, 25), (-9283851232812368, 29), (-13922663687991395, 12), (14610010683109369, 15)]⟩,
  /- thermo.foam:574  CH2OH -/
  ⟨(1000, 0), [(35369432339984863, 16), (8010105584253137, 18), (-38246603997563514, 23), (-3493808879630737, 24), (16328031396356336, 28), (-31603687458161276, 13), (6840891520852008, 15)], [(34598291549580105, 16), (9148385745599041, 18), (-4140982899300149, 21), (9168406711424846, 25), (-8049563411850074, 29), (-31595584272829115, 13), (7072663152258176, 15)]⟩,
  /- thermo.foam:607  CH3O -/
  ⟨(1000, 0), [(29970612720869876, 16), (8224846648399263, 19), (2148339456661397, 20), (-24382693107263298, 24), (83931529141905, 25), (8851733087660068, 13), (9402998043389097, 15)], [(6747837142844159, 16), (14878583293564982, 18), (-8317637260349404, 21), (2340184891698562, 24), (-2625143287304694, 28), (1163492776704234, 12), (19545431198394482, 15)]⟩,
  /- thermo.foam:640  CH3OH -/
  ⟨(1000, 0), [(4153538693182348, 15), (-37050621826320218, 19), (35094163704002556, 21), (-3786876986308867, 23), (13080659618736787, 27), (-25482482732152195, 12), (5030745613983147, 15)], [(11495276885979506, 16), (15387431768732147, 18), (-7310791598568207, 21), (16797029062979232, 25), (-15134079485881478, 29), (-25130451712020495, 12), (18016878035879365, 15)]⟩,
  /- thermo.foam:673  C2H -/
  ⟨(1000, 0), [(32724227496890914, 16), (10534363724639666, 18), (-2079035169133612, 20), (20791282585072617, 24), (-7414476991201265, 27), (6680067997900302, 11), (4627638319831142, 15)], [(4476098563874809, 15), (1837447801626684, 18), (4864327247495029, 22), (-4862417348025376, 25), (7950302141553321, 29), (6667378573174067, 11), (-40952282135235407, 17)]⟩,
  /- thermo.foam:705  C2H2 -/
  ⟨(1000, 0), [(1014106697459984, 15), (21851821060444733, 18), (-315879703160197, 19), (237138895175918, 22), (-68226482861202664, 28), (26407830061957764, 12), (1307944722353941, 14)], [(3775442855391657, 15), (6854404185819724, 18), (-31244769274333744, 22), (7338087325675006, 25), (-6998017298895404, 29), (26051857785439635, 12), (7423428819330979, 16)]⟩,
  /- thermo.foam:737  C2H3 -/
  ⟨(1000, 0), [(2031323056116056, 15), (10237859579426458, 18), (3080955300038326, 21), (-10577100409041964, 24), (480047571106615, 26), (3498098468890578, 11), (13451654881489409, 15)], [(20820128066012487, 16), (1235659184239265, 17), (-625898802377169, 20), (15438304477387256, 25), (-14993383535590581, 29), (3494409244329673, 11), (12850033989935806, 15)]⟩,
  /- thermo.foam:769  C2H4 -/
  ⟨(1000, 0), [(20542759062596567, 16), (649641016671033, 17), (20271697335617913, 21), (-28550820947290196, 24), (11007525431772606, 27), (5285161128875958, 12), (12066444068913208, 15)], [(7367368406010791, 16), (17425500313111734, 18), (-8851981843298088, 21), (21794232339718996, 25), (-21059065131631392, 29), (5407110352274754, 12), (17361545241722908, 15)]⟩,
  /- thermo.foam:801  C2H5 -/
  ⟨(1000, 0), [(26889296544414822, 16), (77533783293641766, 19), (18470635681265182, 21), (-2548199224924071, 23), (9510659680961867, 27), (13007587350149208, 12), (11474623514637653, 15)], [(10738112463116587, 16), (1924376377764977, 17), (-9378839332808074, 21), (2206275066568294, 24), (-20339966092965087, 29), (13181416411586699, 12), (1826491068019859, 14)]⟩,
  /- thermo.foam:833  C2H6 -/
  ⟨(1000, 0), [(25051506880818684, 16), (7688472910531164, 18), (25414644821162754, 21), (-32775831720910943, 24), (11887672918327551, 27), (-11338981989189351, 12), (10139656408550813, 15)], [(9490808256535484, 17), (23723679185425273, 18), (-11561434733397852, 21), (27116789855939668, 25), (-2487219029943536, 28), (-11065581381961545, 12), (20446784462650207, 15)]⟩,
  /- thermo.foam:865  HCCO -/
  ⟨(1000, 0), [(27247313029144675, 16), (14232991968240934, 18), (-14998950739838846, 21), (7955940324174834, 24), (-15428062068263048, 28), (2001014335148177, 11), (10503023931001355, 15)], [(4155525603433073, 15), (746571828143522, 17), (-4352722903575479, 21), (12421285099908393, 25), (-13874284261856356, 29), (19811883562982686, 12), (3950528247473173, 15)]⟩,
  /- thermo.foam:898  CH2CO -/
  ⟨(1000, 0), [(2252220884566385, 15), (1729553125417883, 17), (-15355686370447584, 21), (7251655852863416, 24), (-12644976142339912, 28), (-7055257482939326, 12), (11724387952924182, 15)], [(35624705081841253, 16), (11175963441469287, 18), (-5938546772670671, 21), (15350816009672524, 25), (-1557447710229395, 28), (-7237376738462767, 12), (5712838752244764, 15)]⟩,
  /- thermo.foam:931  HCCOH -/
  ⟨(1000, 0), [(18428837561516145, 16), (2668866874432219, 17), (-3955505991669172, 20), (30884270316145056, 24), (-9296073465918178, 27), (7969453577925715, 12), (11355956964038668, 15)], [(4954927797475534, 15), (9049930769585917, 18), (-4429428318172342, 21), (11010448780194446, 25), (-11178569289959351, 29), (7577183462724497, 12), (-24336896459110804, 16)]⟩,
  /- thermo.foam:964  N -/
  ⟨(1000, 0), [(2484963837523464, 15), (10621219088675405, 20), (-26250885078188505, 23), (26861017896250747, 26), (-9591310107557316, 29), (56106232942167124, 12), (4257395614378829, 15)], [(25041280476541514, 16), (-24152738673802608, 21), (41424138937559506, 24), (-24817852317462363, 27), (47826599148210835, 31), (5610415805586548, 11), (4176047778894279, 15)]⟩,
  /- thermo.foam:995  NH -/
  ⟨(1000, 0), [(32872609183274677, 16), (17959907533406, 16), (-5263707331001796, 21), (6495066914703074, 24), (-2545249737819611, 27), (4190210513161512, 11), (27128075526770132, 16)], [(3480380993845615, 15), (-26461806779733604, 20), (873893586809462, 21), (-3707887595782192, 25), (5049376427021265, 29), (41890737712214555, 12), (20102723763427157, 16)]⟩,
  /- thermo.foam:1027  NH2 -/
  ⟨(1000, 0), [(3862136397199585, 15), (39324946215910355, 20), (644469637439896, 21), (14056494371748037, 25), (-10664273839526192, 28), (21921254541808055, 12), (1291374605759117, 15)], [(33785391596879397, 16), (193115855497489, 17), (12475030656762137, 23), (-23425022948142247, 26), (3887975827174096, 29), (21998050498088418, 12), (3624202985364363, 15)]⟩,
  /- thermo.foam:1059  NH3 -/
  ⟨(1000, 0), [(3626492332266099, 15), (19278024328451564, 20), (9067484613458644, 21), (-8932746854203078, 24), (2837589378322538, 27), (-6673891295554413, 12), (21358067506289444, 16)], [(27192280380392067, 16), (5406755406848067, 18), (-14754878481780784, 22), (14032975528728106, 26), (7743611322438886, 31), (-65601965781649205, 13), (6145322420229025, 15)]⟩,
  /- thermo.foam:1091  NNH -/
  ⟨(1000, 0), [(4001364779504074, 15), (-2277930446211233, 18), (13208889619188348, 21), (-14014945032841094, 24), (4838077288959002, 27), (28826781439339895, 12), (4409809085154702, 15)], [(2878269314429543, 15), (4850837509569087, 18), (-2591603211474137, 21), (6921186214410366, 25), (-7416602536643237, 29), (28958006619372984, 12), (9265062449529108, 15)]⟩,
  /- thermo.foam:1123  NO -/
  ⟨(1000, 0), [(4200670061630078, 15), (-4489138682025225, 18), (10589565724032212, 21), (-8759015350475473, 24), (2539188264425895, 27), (9846245028669688, 12), (23531146369697, 13)], [(3050142153931322, 15), (16417069182966982, 19), (-7776916185856817, 22), (18507416458956604, 26), (-17961600644417128, 30), (9995843511327912, 12), (7511387230558309, 15)]⟩,
  /- thermo.foam:1155  NO2 -/
  ⟨(1000, 0), [(39558306112081354, 16), (-15767826326722116, 19), (16326226181424124, 21), (-1969573244660211, 23), (7333657787864004, 27), (2894340971882654, 12), (62510256943031415, 16)], [(28309987709645466, 16), (67960913682277085, 19), (-4546698991062548, 21), (14308232566458247, 25), (-1680149035535892, 28), (3009073148310038, 12), (10917910300494821, 15)]⟩,
  /- thermo.foam:1187  N2O -/
  ⟨(1000, 0), [(278168625675338, 14), (75202651835186585, 19), (-4050573986231212, 21), (-5417801693906225, 25), (9120061581698477, 28), (8686982648283258, 12), (8552854924428125, 15)], [(31582317466755887, 16), (6426143223384708, 18), (-4046529547878019, 21), (12263148746160097, 25), (-14255685397823521, 29), (8625038833738254, 12), (6718146307966563, 15)]⟩,
  /- thermo.foam:1219  HNO -/
  ⟨(1000, 0), [(4570126511546176, 15), (-5940983574416803, 18), (19186342340094097, 21), (-1792705357464335, 23), (585803608217637, 26), (11544548723161965, 12), (15966835568756998, 16)], [(3046272529595408, 15), (3343662960960177, 18), (-6645111875698874, 22), (16129802356736382, 27), (4913679414052139, 30), (11727859249614678, 12), (8246093648572963, 15)]⟩,
  /- thermo.foam:1252  CN -/
  ⟨(1000, 0), [(39049401834782738, 16), (-30557398872105286, 19), (7461791422379465, 21), (-5936085522539789, 24), (16338275505565667, 28), (5167776487344821, 11), (2752123050517728, 15)], [(2951255129271919, 15), (18308343599601963, 19), (-1140640737074741, 21), (4237962716818662, 25), (-5651127717525341, 29), (5180373750754489, 11), (7057211959613483, 15)]⟩,
  /- thermo.foam:1284  HCN -/
  ⟨(1000, 0), [(2336808462579048, 15), (9500822260146648, 18), (-11989375105124064, 21), (8695207700094162, 24), (-25084594239892952, 28), (14704380364175322, 12), (8587942672101352, 15)], [(32678092522725497, 16), (43623892051905325, 19), (-20490888592913195, 22), (5059312145230169, 25), (-5203691898828031, 29), (14585201973741547, 12), (4440760186672733, 15)]⟩,
  /- thermo.foam:1317  H2CN -/
  ⟨(1000, 0), [(2851661, 6), (56952331, 10), (107114, 11), (-1622612, 15), (-23511081, 20), (2863782, 2), (89927511, 7)], [(5209703, 6), (29692911, 10), (-28555891, 14), (-163555, 15), (30432589, 21), (27677109, 3), (-4444478, 6)]⟩,
  /- thermo.foam:1350  HCNN -/
  ⟨(1000, 0), [(30297507042645586, 16), (12316204933976024, 18), (-9558933954693853, 21), (2297948893021525, 24), (4531708224644611, 28), (5420916326783713, 11), (9550781058376245, 15)], [(407690569745513, 14), (8149298849766238, 18), (-4985902458826064, 21), (14639841811530138, 25), (-16614487051560404, 29), (5405347180135867, 11), (4630498123061983, 15)]⟩,
  /- thermo.foam:1383  HCNO -/
  ⟨(1000, 0), [(29292773894103594, 16), (10707341479868156, 18), (-5256837580329075, 21), (-1174862032697987, 24), (1362384367042835, 27), (1926966438301081, 11), (9548830255041445, 15)], [(33258203109272295, 16), (9763299168885508, 18), (-6124181136123161, 21), (18057803257706546, 25), (-20341504616594074, 29), (1920225642860789, 11), (7585225284949296, 15)]⟩,
  /- thermo.foam:1417  HOCN -/
  ⟨(1000, 0), [(3722887982519223, 15), (734869337133888, 17), (-44102340012907395, 22), (18162344162560282, 25), (-490345217522916, 27), (-2820456590527706, 12), (5897686556703537, 15)], [(36001118648062502, 16), (7703549259380105, 18), (-438906093555768, 20), (1200425091518133, 24), (-12778872884633048, 29), (-28007250719638746, 13), (6494982163803993, 15)]⟩,
  /- thermo.foam:1451  HNCO -/
  ⟨(1000, 0), [(3692281511526545, 15), (6877147684781213, 18), (-1253588300046016, 21), (-16763209797572118, 25), (7065898543086624, 28), (-15593955065608745, 12), (593476971115426, 14)], [(31847593585105627, 16), (9481974451822407, 18), (-5839687328169272, 21), (1711485387429646, 24), (-19242209878015106, 29), (-15527295821251226, 12), (8224315489081153, 15)]⟩,
  /- thermo.foam:1485  NCO -/
  ⟨(1000, 0), [(33999454816049943, 16), (46731599030562735, 19), (21103193019286246, 22), (-6343048808586178, 24), (28525932717196823, 28), (14622596552569934, 12), (7141255432940966, 15)], [(33070057782151427, 16), (65126352553812085, 19), (-42983617302519, 19), (13276460123594724, 25), (-15595616598052515, 29), (14616061772827788, 12), (73433644092010795, 16)]⟩,
  /- thermo.foam:1549  AR -/
  ⟨(1000, 0), [(2500000000099219, 15), (-6627183660017647, 28), (1551505890557111, 30), (-1521077242139506, 33), (5314450256506967, 37), (-7453750000110788, 13), (436599999957571, 14)], [(25000000000170077, 16), (-58496714898731, 27), (6192938492876758, 32), (-2574341587174471, 35), (3677495988289284, 39), (-745375000002733, 12), (4365999999917662, 15)]⟩,
  /- thermo.foam:1580  C3H7 -/
  ⟨(1000, 0), [(17144113652635202, 16), (21430837139609648, 18), (1324461008143204, 20), (-3014665363470999, 23), (1284207081291643, 26), (10560157644258386, 12), (1830910091209939, 14)], [(8466933929250897, 16), (3154109640552591, 17), (-17786186743105546, 21), (5055034105970094, 24), (-5713613968038998, 28), (10598609431925255, 12), (21327685601410447, 15)]⟩,
  /- thermo.foam:1612  C3H8 -/
  ⟨(1000, 0), [(19623516047543472, 16), (1922745522836577, 17), (2365771214662687, 20), (-3960168958963072, 23), (15638152417036628, 27), (-14068497344296207, 12), (14849326269765786, 15)], [(-24993467802856975, 17), (364582622830556, 16), (-20456338296579303, 21), (57831352638437895, 25), (-6511427651386166, 28), (-13855278284723061, 12), (2390152552957817, 14)]⟩,
  /- thermo.foam:1644  CH2CHO -/
  ⟨(1000, 0), [(3964210309691983, 15), (681974863744212, 17), (11568227576698517, 21), (-170476771953136, 22), (63921455706146005, 28), (14625238152557963, 13), (7213979769950509, 15)], [(26430613561058998, 16), (15654583188028124, 18), (-880976545623637, 20), (24884010331424935, 25), (-27962522190652516, 29), (16092544392507068, 13), (1285023201626619, 14)]⟩,
  /- thermo.foam:1677  CH3CHO -/
  ⟨(1000, 0), [(3941735588478315, 15), (27983278177172144, 19), (3128543434033137, 20), (-3878584942250676, 23), (14227830814108086, 27), (-21494027599833018, 12), (7377238650319992, 15)], [(13662256350107207, 16), (20723390058467607, 18), (-11407658848043597, 21), (3127190045862358, 24), (-3416677531688604, 28), (-21214377857585863, 12), (18261076966590103, 15)]⟩,
  /- thermo.foam:1518  N2 -/
  ⟨(1000, 0), [(3298677, 6), (14082404, 10), (-3963222, 12), (5641515, 15), (-2444854, 18), (-10208999, 4), (3950372, 6)], [(292664, 5), (14879768, 10), (-568476, 12), (10097038, 17), (-6753351, 21), (-9227977, 4), (5980528, 6)]⟩]

end DLB.Mech.Gri30
