/- Generated by tools/gen_mechanisms.py from utilities/mechanisms/yao/{chem.cti,foam/thermo.foam}. Do not edit. -/
import Verif.Spec.Thermo
set_option autoImplicit false

namespace DLB.Mech.Yao
open DLB

/-- The NASA polynomials of the species (order of `names`), utilities/mechanisms/yao/chem.cti:27-875 -/
def nasa : List Nasa := [
  /- chem.cti:44  AR -/
  ⟨(1000, 0), [(25, 1), (0, 0), (0, 0), (0, 0), (0, 0), (-745375, 3), (4366, 3)], [(25, 1), (0, 0), (0, 0), (0, 0), (0, 0), (-745375, 3), (4366, 3)]⟩,
  /- chem.cti:59  H -/
  ⟨(1000, 0), [(25, 1), (705332819, 21), (-199591964, 23), (230081632, 26), (-927732332, 30), (254736599, 4), (-446682853, 9)], [(250000001, 8), (-230842973, 19), (161561948, 22), (-473515235, 26), (498197357, 30), (254736599, 4), (-446682914, 9)]⟩,
  /- chem.cti:74  O -/
  ⟨(1000, 0), [(31682671, 7), (-327931884, 11), (664306396, 14), (-612806624, 17), (211265971, 20), (291222592, 4), (205193346, 8)], [(256942078, 8), (-859741137, 13), (419484589, 16), (-100177799, 19), (122833691, 23), (292175791, 4), (478433864, 8)]⟩,
  /- chem.cti:89  OH -/
  ⟨(1000, 0), [(412530561, 8), (-322544939, 11), (652764691, 14), (-579853643, 17), (206237379, 20), (338153812, 5), (-69043296, 8)], [(286472886, 8), (105650448, 11), (-259082758, 15), (305218674, 19), (-133195876, 23), (371885774, 5), (570164073, 8)]⟩,
  /- chem.cti:104  HO2 -/
  ⟨(1000, 0), [(430179801, 8), (-474912051, 11), (211582891, 13), (-242763894, 16), (929225124, 20), (29480804, 5), (371666245, 8)], [(40172109, 7), (223982013, 11), (-63365815, 14), (11424637, 17), (-107908535, 22), (111856713, 6), (378510215, 8)]⟩,
  /- chem.cti:120  H2 -/
  ⟨(1000, 0), [(234433112, 8), (798052075, 11), (-19478151, 12), (201572094, 16), (-737611761, 20), (-917935173, 6), (683010238, 9)], [(33372792, 7), (-494024731, 13), (499456778, 15), (-179566394, 18), (200255376, 22), (-950158922, 6), (-320502331, 8)]⟩,
  /- chem.cti:137  H2O -/
  ⟨(1000, 0), [(419864056, 8), (-20364341, 10), (652040211, 14), (-548797062, 17), (177197817, 20), (-302937267, 4), (-849032208, 9)], [(303399249, 8), (217691804, 11), (-164072518, 15), (-97041987, 18), (168200992, 22), (-300042971, 4), (49667701, 7)]⟩,
  /- chem.cti:154  H2O2 -/
  ⟨(1000, 0), [(427611269, 8), (-542822417, 12), (167335701, 13), (-215770813, 16), (862454363, 20), (-177025821, 4), (343505074, 8)], [(416500285, 8), (490831694, 11), (-190139225, 14), (371185986, 18), (-287908305, 22), (-178617877, 4), (291615662, 8)]⟩,
  /- chem.cti:170  O2 -/
  ⟨(1000, 0), [(378245636, 8), (-299673416, 11), (984730201, 14), (-968129509, 17), (324372837, 20), (-106394356, 5), (365767573, 8)], [(328253784, 8), (148308754, 11), (-757966669, 15), (209470555, 18), (-216717794, 22), (-108845772, 5), (545323129, 8)]⟩,
  /- chem.cti:187  CH2 -/
  ⟨(1000, 0), [(376267867, 8), (968872143, 12), (279489841, 14), (-385091153, 17), (168741719, 20), (460040401, 4), (156253185, 8)], [(287410113, 8), (365639292, 11), (-140894597, 14), (260179549, 18), (-187727567, 22), (46263604, 3), (617119324, 8)]⟩,
  /- chem.cti:202  CH2* -/
  ⟨(1000, 0), [(419860411, 8), (-236661419, 11), (82329622, 13), (-668815981, 17), (194314737, 20), (504968163, 4), (-769118967, 9)], [(229203842, 8), (465588637, 11), (-201191947, 14), (417906, 15), (-339716365, 22), (509259997, 4), (862650169, 8)]⟩,
  /- chem.cti:217  CH3 -/
  ⟨(1000, 0), [(36735904, 7), (201095175, 11), (573021856, 14), (-687117425, 17), (254385734, 20), (164449988, 4), (160456433, 8)], [(228571772, 8), (723990037, 11), (-298714348, 14), (595684644, 18), (-467154394, 22), (167755843, 4), (848007179, 8)]⟩,
  /- chem.cti:232  CH4 -/
  ⟨(1000, 0), [(514987613, 8), (-136709788, 10), (491800599, 13), (-484743026, 16), (166693956, 19), (-102466476, 4), (-464130376, 8)], [(74851495, 9), (133909467, 10), (-573285809, 14), (122292535, 17), (-10181523, 20), (-946834459, 5), (18437318, 6)]⟩,
  /- chem.cti:249  HCO -/
  ⟨(1000, 0), [(422118584, 8), (-324392532, 11), (137799446, 13), (-133144093, 16), (433768865, 20), (383956496, 5), (339437243, 8)], [(277217438, 8), (495695526, 11), (-248445613, 14), (589161778, 18), (-533508711, 22), (401191815, 5), (979834492, 8)]⟩,
  /- chem.cti:264  CH2O -/
  ⟨(1000, 0), [(479372315, 8), (-990833369, 11), (373220008, 13), (-379285261, 16), (131772652, 19), (-143089567, 4), (6028129, 7)], [(176069008, 8), (920000082, 11), (-442258813, 14), (100641212, 17), (-88385564, 21), (-139958323, 4), (13656323, 6)]⟩,
  /- chem.cti:280  CH3O -/
  ⟨(1000, 0), [(371180502, 8), (-280463306, 11), (376550971, 13), (-473072089, 16), (18658842, 18), (12956976, 4), (657240864, 8)], [(475779238, 8), (744142474, 11), (-269705176, 14), (438090504, 18), (-263537098, 22), (37811194, 5), (-196680028, 8)]⟩,
  /- chem.cti:297  CO -/
  ⟨(1000, 0), [(357953347, 8), (-61035368, 11), (101681433, 14), (907005884, 18), (-904424499, 21), (-14344086, 3), (350840928, 8)], [(271518561, 8), (206252743, 11), (-998825771, 15), (230053008, 18), (-203647716, 22), (-141518724, 4), (781868772, 8)]⟩,
  /- chem.cti:314  CO2 -/
  ⟨(1000, 0), [(235677352, 8), (898459677, 11), (-712356269, 14), (245919022, 17), (-143699548, 21), (-483719697, 4), (990105222, 8)], [(385746029, 8), (441437026, 11), (-221481404, 14), (523490188, 18), (-472084164, 22), (-48759166, 3), (227163806, 8)]⟩,
  /- chem.cti:331  C2H2 -/
  ⟨(1000, 0), [(808681094, 9), (233615629, 10), (-355171815, 13), (280152437, 16), (-850072974, 20), (264289807, 4), (139397051, 7)], [(414756964, 8), (596166664, 11), (-237294852, 14), (467412171, 18), (-361235213, 22), (259359992, 4), (-123028121, 8)]⟩,
  /- chem.cti:347  C2H3 -/
  ⟨(1000, 0), [(321246645, 8), (151479162, 11), (259209412, 13), (-357657847, 16), (147150873, 19), (348598468, 4), (851054025, 8)], [(3016724, 6), (103302292, 10), (-468082349, 14), (101763288, 17), (-862607041, 22), (346128739, 4), (778732378, 8)]⟩,
  /- chem.cti:363  C2H4 -/
  ⟨(1000, 0), [(395920148, 8), (-757052247, 11), (570990292, 13), (-691588753, 16), (269884373, 19), (508977593, 5), (409733096, 8)], [(203611116, 8), (146454151, 10), (-671077915, 14), (147222923, 17), (-125706061, 21), (493988614, 5), (103053693, 7)]⟩,
  /- chem.cti:379  C2H5 -/
  ⟨(1000, 0), [(430646568, 8), (-418658892, 11), (497142807, 13), (-599126606, 16), (230509004, 19), (128416265, 4), (470720924, 8)], [(195465642, 8), (173972722, 10), (-798206668, 14), (175217689, 17), (-149641576, 21), (1285752, 2), (134624343, 7)]⟩,
  /- chem.cti:395  C2H6 -/
  ⟨(1000, 0), [(429142492, 8), (-55015427, 10), (599438288, 13), (-708466285, 16), (268685771, 19), (-115222055, 4), (266682316, 8)], [(10718815, 7), (216852677, 10), (-100256067, 13), (221412001, 17), (-19000289, 20), (-114263932, 4), (151156107, 7)]⟩,
  /- chem.cti:411  CH2CHO -/
  ⟨(1000, 0), [(34090624, 7), (10738574, 9), (18914925, 13), (-71585831, 16), (28673851, 19), (62, 0), (95714535, 7)], [(59756699, 7), (81305914, 10), (-27436245, 13), (40703041, 17), (-21760171, 21), (-9695, 1), (-50320879, 7)]⟩,
  /- chem.cti:427  aC3H5 -/
  ⟨(1000, 0), [(13631835, 7), (19813821, 9), (1249706, 11), (-33355555, 15), (15846571, 18), (19245629, 3), (17173214, 6)], [(65007877, 7), (14324731, 9), (-56781632, 13), (11080801, 16), (-90363887, 21), (17482449, 3), (-1124305, 5)]⟩,
  /- chem.cti:443  C3H6 -/
  ⟨(1000, 0), [(1493307, 6), (2092518, 8), (4486794, 12), (-1668912, 14), (7158146, 18), (1074826, 3), (1614534, 5)], [(6732257, 6), (1490834, 8), (-4949899, 12), (7212022, 16), (-3766204, 20), (-9235703, 4), (-1331335, 5)]⟩,
  /- chem.cti:459  nC3H7 -/
  ⟨(1000, 0), [(10491173, 7), (26008973, 9), (23542516, 13), (-19595132, 15), (93720207, 19), (10312346, 3), (21136034, 6)], [(77097479, 7), (16031485, 9), (-52720238, 13), (75888352, 17), (-38862719, 21), (79762236, 4), (-15515297, 6)]⟩,
  /- chem.cti:475  C2H3CHO -/
  ⟨(1000, 0), [(12713498, 7), (26231054, 9), (-92912305, 13), (-47837272, 16), (33480543, 19), (-93357344, 4), (19498077, 6)], [(58111868, 7), (17114256, 9), (-74834161, 13), (14252249, 16), (-91746841, 21), (-10784054, 3), (-48588004, 7)]⟩,
  /- chem.cti:491  C4H7 -/
  ⟨(1000, 0), [(74449432, 8), (39678857, 9), (-22898086, 12), (21352973, 16), (23096375, 19), (22653328, 3), (23437878, 6)], [(70134835, 7), (22634558, 9), (-9254547, 12), (16807927, 16), (-10408617, 20), (20955008, 3), (-8889308, 6)]⟩,
  /- chem.cti:507  C4H81 -/
  ⟨(1000, 0), [(1181138, 6), (3085338, 8), (50865247, 13), (-24654888, 15), (11110193, 18), (-17904004, 4), (21062469, 6)], [(20535841, 7), (34350507, 9), (-15883197, 12), (33089662, 16), (-25361045, 20), (-21397231, 4), (15543201, 6)]⟩,
  /- chem.cti:523  pC4H9 -/
  ⟨(1000, 0), [(12087042, 7), (38297497, 9), (-72660509, 13), (-15428547, 15), (86859435, 19), (7322104, 3), (22169268, 6)], [(86822395, 7), (23691071, 9), (-75948865, 13), (66427136, 17), (54845136, 21), (49644058, 4), (-17891747, 6)]⟩,
  /- chem.cti:539  C5H9 -/
  ⟨(1000, 0), [(-24190111, 7), (40430389, 9), (67802339, 13), (-33724742, 15), (15116713, 18), (28121887, 4), (36459244, 6)], [(1013864, 5), (22714138, 9), (-77910463, 13), (11876522, 16), (-65932448, 21), (-17218359, 4), (-33125885, 6)]⟩,
  /- chem.cti:555  C5H10 -/
  ⟨(1392, 0), [(-106223481, 8), (574218294, 10), (-37448689, 12), (127364989, 16), (-179609789, 20), (-446546666, 5), (32273979, 6)], [(145851539, 7), (224072471, 10), (-763348025, 14), (118188966, 17), (-684385139, 22), (-100898205, 4), (-523683936, 7)]⟩,
  /- chem.cti:571  PXC5H11 -/
  ⟨(1390, 0), [(524384081, 10), (560796958, 10), (-331545803, 13), (977533781, 17), (-11400966, 19), (47161146, 4), (287238666, 7)], [(152977446, 7), (23973531, 9), (-818392948, 14), (126883076, 17), (-735409055, 22), (-980712307, 6), (-544829293, 7)]⟩,
  /- chem.cti:587  C6H12 -/
  ⟨(1392, 0), [(-135275205, 8), (698655426, 10), (-459408022, 13), (156967343, 16), (-221296175, 20), (-734368617, 5), (353120691, 7)], [(178337529, 7), (267377658, 10), (-910036773, 14), (140819768, 17), (-815124244, 22), (-14206286, 3), (-683818851, 7)]⟩,
  /- chem.cti:603  PXC6H13 -/
  ⟨(1390, 0), [(-204871465, 9), (683801272, 10), (-414447912, 13), (126155802, 16), (-153120058, 20), (183280393, 5), (316075093, 7)], [(18538547, 6), (283107962, 10), (-965307246, 14), (149547585, 17), (-866336064, 22), (-509299041, 5), (-704490943, 7)]⟩,
  /- chem.cti:619  C7H14 -/
  ⟨(1392, 0), [(-167720549, 8), (824611601, 10), (-546504108, 13), (187862303, 16), (-265737983, 20), (-102168601, 4), (385068032, 7)], [(210898039, 7), (310607878, 10), (-105644793, 13), (16340578, 16), (-945598219, 22), (-183260065, 4), (-844391108, 7)]⟩,
  /- chem.cti:635  PXC7H15 -/
  ⟨(1390, 0), [(-499570406, 9), (808826467, 10), (-500532754, 13), (156549308, 16), (-196616227, 20), (-104590223, 5), (346564011, 7)], [(217940709, 7), (326280243, 10), (-111138244, 13), (172067148, 17), (-996366999, 22), (-920938221, 5), (-864954311, 7)]⟩,
  /- chem.cti:651  C8H16 -/
  ⟨(1392, 0), [(-189226915, 8), (946066357, 10), (-627385521, 13), (215158309, 16), (-302718683, 20), (-131074559, 4), (411878981, 7)], [(243540125, 7), (353666462, 10), (-120208388, 13), (185855053, 17), (-107522262, 21), (-224485674, 4), (-100537716, 6)]⟩,
  /- chem.cti:667  PXC8H17 -/
  ⟨(1390, 0), [(-772759438, 9), (932549705, 10), (-584447245, 13), (185570214, 16), (-237127483, 20), (-392689511, 5), (376130631, 7)], [(250510356, 7), (369480162, 10), (-125765264, 13), (194628409, 17), (-112668898, 21), (-133300535, 4), (-102557384, 6)]⟩,
  /- chem.cti:683  C9H18 -/
  ⟨(1392, 0), [(-216108263, 8), (106958297, 9), (-710973244, 13), (243971077, 16), (-342771547, 20), (-159890847, 4), (441245128, 7)], [(276142176, 7), (396825287, 10), (-134819446, 13), (208390452, 17), (-120539294, 21), (-265709061, 4), (-116618623, 6)]⟩,
  /- chem.cti:699  PXC9H19 -/
  ⟨(1390, 0), [(-104387292, 8), (105617283, 9), (-668199971, 13), (214486166, 16), (-277404275, 20), (-680818512, 5), (423518992, 7)], [(283097514, 7), (412657344, 10), (-140383289, 13), (217174871, 17), (-125692307, 21), (-17451603, 3), (-116837897, 6)]⟩,
  /- chem.cti:715  C10H20 -/
  ⟨(1392, 0), [(-242901688, 8), (119305598, 9), (-794489025, 13), (272736596, 16), (-382718373, 20), (-188708365, 4), (470571383, 7)], [(308753903, 7), (439971526, 10), (-14942553, 12), (230917678, 17), (-133551477, 21), (-306937307, 4), (-132705172, 6)]⟩,
  /- chem.cti:731  PXC10H21 -/
  ⟨(1390, 0), [(-131358348, 8), (117972813, 9), (-751843079, 13), (243331106, 16), (-317522852, 20), (-96896755, 4), (435010452, 7)], [(31569716, 6), (455818403, 10), (-154994965, 13), (239710933, 17), (-138709559, 21), (-215737832, 4), (-134708986, 6)]⟩,
  /- chem.cti:747  NC12H26 -/
  ⟨(1391, 0), [(-262181594, 8), (147237711, 9), (-943970271, 13), (307441268, 16), (-40360223, 19), (-400654253, 4), (500994626, 7)], [(385095037, 7), (563550048, 10), (-1914932, 11), (296024862, 17), (-17124415, 20), (-548843465, 4), (-172670922, 6)]⟩,
  /- chem.cti:763  PXC12H25 -/
  ⟨(1390, 0), [(-185028741, 8), (142670708, 9), (-918916555, 13), (300883392, 16), (-3974543, 18), (-154530435, 4), (493702421, 7)], [(380921885, 7), (542107848, 10), (-184205517, 13), (284762173, 17), (-164731748, 21), (-298194375, 4), (-166882734, 6)]⟩,
  /- chem.cti:779  SXC12H25 -/
  ⟨(1385, 0), [(-136787089, 8), (137355348, 9), (-824076158, 13), (236421562, 16), (-247435932, 20), (-167660539, 4), (483521895, 7)], [(379688268, 7), (538719464, 10), (-182171263, 13), (280774503, 17), (-16210842, 20), (-312144988, 4), (-165805933, 6)]⟩,
  /- chem.cti:795  S3XC12H25 -/
  ⟨(1385, 0), [(-136787089, 8), (137355348, 9), (-824076158, 13), (236421562, 16), (-247435932, 20), (-167660539, 4), (483521895, 7)], [(379688268, 7), (538719464, 10), (-182171263, 13), (280774503, 17), (-16210842, 20), (-312144988, 4), (-165805933, 6)]⟩,
  /- chem.cti:811  C12H24 -/
  ⟨(1391, 0), [(-296342681, 8), (14399236, 8), (-961384015, 13), (330174473, 16), (-46239819, 19), (-246345299, 4), (52915887, 6)], [(374002111, 7), (526230753, 10), (-178624319, 13), (275949863, 17), (-159562499, 21), (-389405962, 4), (-164892663, 6)]⟩,
  /- chem.cti:827  C12H25O2 -/
  ⟨(1000, 0), [(531404, 5), (893873, 7), (145351, 10), (-74925, 12), (335325, 16), (-298918, 1), (169741, 4)], [(284782, 4), (537539, 7), (-168186, 10), (251367, 14), (-147208, 18), (-374118, 1), (-109121, 3)]⟩,
  /- chem.cti:843  C12OOH -/
  ⟨(1000, 0), [(515231, 5), (997913, 7), (-180635, 10), (-418435, 13), (222786, 16), (-23838, 0), (193526, 4)], [(292019, 4), (515917, 7), (-157327, 10), (230306, 14), (-13264, 17), (-311192, 1), (-108855, 3)]⟩,
  /- chem.cti:859  O2C12H24OOH -/
  ⟨(1000, 0), [(481972, 6), (14502, 5), (-999308, 10), (260422, 13), (119358, 17), (-416875, 1), (413429, 4)], [(350907, 4), (51059, 6), (-154345, 10), (224627, 14), (-128901, 18), (-512675, 1), (-13775, 2)]⟩,
  /- chem.cti:875  OC12H23OOH -/
  ⟨(1000, 0), [(880733, 5), (650623, 7), (695058, 10), (-126905, 12), (510991, 16), (-665361, 1), (684155, 5)], [(236731, 4), (616392, 7), (-209836, 10), (333166, 14), (-20359, 17), (-718258, 1), (-777662, 4)]⟩,
  /- chem.cti:27  N2 -/
  ⟨(1000, 0), [(3298677, 6), (14082404, 10), (-3963222, 12), (5641515, 15), (-2444854, 18), (-10208999, 4), (3950372, 6)], [(292664, 5), (14879768, 10), (-568476, 12), (10097038, 17), (-6753351, 21), (-9227977, 4), (5980528, 6)]⟩]

/-- The JANAF polynomials of the species (order of `names`), utilities/mechanisms/yao/foam/thermo.foam; Tlow is 300, Thigh 3000 for all of them. -/
def foamNasa : List Nasa := [
  /- thermo.foam:32  AR -/
  ⟨(1000, 0), [(2500000000099219, 15), (-6627183660017647, 28), (1551505890557111, 30), (-1521077242139506, 33), (5314450256506967, 37), (-7453750000110788, 13), (436599999957571, 14)], [(25000000000170077, 16), (-58496714898731, 27), (6192938492876758, 32), (-2574341587174471, 35), (3677495988289284, 39), (-745375000002733, 12), (4365999999917662, 15)]⟩,
  /- thermo.foam:63  H -/
  ⟨(1000, 0), [(2499999982865364, 15), (12245454202734124, 26), (-30525959436714507, 29), (3158853883679488, 31), (-1145296115876702, 34), (25473659901810566, 12), (-44668278074015433, 17)], [(24999999497267438, 16), (1375349839108468, 25), (-12798222789367612, 29), (48643811169839225, 33), (-650722239669892, 35), (25473659913522424, 12), (-44668259347087513, 17)]⟩,
  /- thermo.foam:94  O -/
  ⟨(1000, 0), [(30017922041004788, 16), (-20585026604635604, 19), (34744361112816024, 22), (-2670971444109501, 24), (7694569146624605, 28), (29139429136349103, 12), (2749400744812025, 15)], [(26930529620792596, 16), (-38286228290036246, 20), (2924712387379993, 22), (-9900586362701464, 26), (1255507118159829, 29), (2917939212067881, 11), (4129341533131036, 15)]⟩,
  /- thermo.foam:125  OH -/
  ⟨(1000, 0), [(36816191080833636, 16), (-16369740185911699, 22), (-17426716737532962, 22), (30934532940846678, 25), (-13301512390687107, 28), (34276320617119736, 13), (11720680515623982, 16)], [(37543613043352924, 16), (-9863293174763887, 19), (14095504150162211, 22), (-5478826380886853, 25), (7091275154099446, 29), (3426616525853836, 12), (9416767068767768, 16)]⟩,
  /- thermo.foam:157  HO2 -/
  ⟨(1000, 0), [(3865324461867321, 15), (-15019303760780227, 19), (1257954825587061, 20), (-14712981204077338, 24), (5479812240414943, 27), (33930860982914146, 14), (55397031295936365, 16)], [(3160740176411689, 15), (4139049393180549, 18), (-21419683962806886, 22), (6254499342720628, 25), (-7349772958610228, 29), (40662943745210976, 14), (840209461680518, 14)]⟩,
  /- thermo.foam:189  H2 -/
  ⟨(1000, 0), [(280811858794504, 14), (45506176024811456, 19), (-10482310715105696, 21), (10215964476934802, 24), (-34535526759038106, 28), (-9654487416595365, 13), (-12565965018329415, 16)], [(36534338886269437, 16), (-7137181507809895, 19), (1003497225074257, 21), (-3439053463663084, 25), (39529659797578526, 30), (-1065847823752022, 12), (-4927709925508886, 15)]⟩,
  /- thermo.foam:220  H2O -/
  ⟨(1000, 0), [(419864056, 8), (-20364341, 10), (652040211, 14), (-548797062, 17), (177197817, 20), (-302937267, 4), (-849032208, 9)], [(303399249, 8), (217691804, 11), (-164072518, 15), (-97041987, 18), (168200992, 22), (-300042971, 4), (49667701, 7)]⟩,
  /- thermo.foam:252  H2O2 -/
  ⟨(1000, 0), [(3783162431303633, 15), (31054028624195747, 19), (7156582805627388, 21), (-10982191426187144, 24), (44387112757628945, 28), (-1765211041942788, 11), (54962980753678465, 16)], [(35340248771434575, 16), (6304642864842566, 18), (-30078230543203832, 22), (7454505030801222, 25), (-7462724181941578, 29), (-176437003586303, 10), (6319362910834553, 15)]⟩,
  /- thermo.foam:284  O2 -/
  ⟨(1000, 0), [(3816371022296404, 15), (-32248523550058947, 19), (10372505231421471, 21), (-10163902819886973, 24), (33883053316401466, 28), (-10676707618285693, 13), (35130915420283024, 16)], [(28923179060838167, 16), (2356563873277924, 18), (-14576094766639056, 22), (44829037628266464, 26), (-51136268515346857, 30), (-9561141694074124, 13), (7552328127346897, 15)]⟩,
  /- thermo.foam:315  CH2 -/
  ⟨(1000, 0), [(31909195178061247, 16), (5141743714510437, 18), (-7970727967624218, 21), (7806848591544976, 24), (-28002659148438342, 28), (4606323343190584, 11), (3960414640070482, 15)], [(36326480161342536, 16), (18958531821750531, 19), (4083540200391447, 23), (-2455205440176525, 25), (4470188509791567, 29), (46018027800438336, 12), (2122052216590916, 15)]⟩,
  /- thermo.foam:347  CH2* -/
  ⟨(1000, 0), [(3799313341435949, 15), (5393541795642717, 19), (7625165717746054, 22), (13650575416792247, 25), (-11395927886792308, 28), (5053824531213847, 11), (9064447122136023, 16)], [(31900249929375857, 16), (2576212803623537, 18), (-30314153697196603, 23), (-1770487190119763, 25), (4060130519763914, 29), (5063381146458682, 11), (3830216845050675, 15)]⟩,
  /- thermo.foam:379  CH3 -/
  ⟨(1000, 0), [(31582514365483725, 16), (5770220626550634, 18), (-396237464961305, 20), (3616504111353054, 24), (-14895111816462773, 28), (16498371430177325, 12), (37660500991971766, 16)], [(30717244980968412, 16), (5415826407082571, 18), (-1485495835880264, 21), (7203689609779539, 26), (1899837779578922, 29), (16520884099044033, 12), (4284073509552808, 15)]⟩,
  /- thermo.foam:411  CH4 -/
  ⟨(1000, 0), [(39547474768697244, 16), (-48989614711947346, 19), (26387156835461613, 21), (-23572388674843357, 24), (69779906173242815, 28), (-10123470255898426, 12), (3648988399148614, 16)], [(9352050608461863, 16), (11305375484442937, 18), (-39620013552935675, 22), (5910865038481224, 25), (-2112091022615396, 29), (-9730756743271451, 12), (1388868719970897, 14)]⟩,
  /- thermo.foam:443  HCO -/
  ⟨(1000, 0), [(4055913532047811, 15), (-20174667985552977, 19), (10549699482438412, 21), (-9726587195700978, 24), (29135388737197533, 28), (38564498094778655, 13), (4085049272344001, 15)], [(27489351089503775, 16), (49724822600045755, 19), (-24743598082705917, 22), (5795979024271355, 25), (-5155756916179677, 29), (40262798142426436, 13), (9941296038816695, 15)]⟩,
  /- thermo.foam:476  CH2O -/
  ⟨(1000, 0), [(4146420607263484, 15), (-5125322356898448, 18), (24790357706565643, 21), (-24097395008042364, 24), (7728056871076143, 27), (-14242597340796765, 12), (3310390732463226, 15)], [(1591228669002645, 15), (949498359236384, 17), (-4605573760580699, 21), (10543178315067938, 25), (-9283851232812368, 29), (-13922663687991395, 12), (14610010683109369, 15)]⟩,
  /- thermo.foam:509  CH3O -/
  ⟨(1000, 0), [(2731802168721155, 15), (4564150113390464, 18), (17937954764341367, 21), (-24995463494687406, 24), (9610241625417625, 27), (1394745461152689, 12), (10656191032885271, 15)], [(1420292350442544, 15), (14860399142535225, 18), (-8603049844507428, 21), (2443837908690348, 24), (-2727943799774804, 28), (15219141513764312, 13), (16014358379038747, 15)]⟩,
  /- thermo.foam:542  CO -/
  ⟨(1000, 0), [(36574050518352634, 16), (-11909909287064419, 19), (25549716194064244, 22), (-813244145043656, 24), (-21607304449059367, 29), (-14352010863381156, 12), (31833171198904218, 16)], [(30514383911930563, 16), (12935463476331426, 19), (-37361362990757077, 23), (14181167134410802, 27), (6516276947957831, 30), (-14263491950136304, 12), (6017486099393892, 15)]⟩,
  /- thermo.foam:574  CO2 -/
  ⟨(1000, 0), [(2496542968971409, 15), (799249379743157, 17), (-46553370791069265, 22), (-8939061109210363, 26), (777966235014462, 27), (-4838675138725643, 11), (9311487996894684, 15)], [(295121696353838, 14), (6480355114616427, 18), (-389226663485644, 20), (11021885705844748, 25), (-11921870266442853, 29), (-4845817066304936, 11), (7128417945259567, 15)]⟩,
  /- thermo.foam:606  C2H2 -/
  ⟨(1000, 0), [(1014106697459984, 15), (21851821060444733, 18), (-315879703160197, 19), (237138895175918, 22), (-68226482861202664, 28), (26407830061957764, 12), (1307944722353941, 14)], [(3775442855391657, 15), (6854404185819724, 18), (-31244769274333744, 22), (7338087325675006, 25), (-6998017298895404, 29), (26051857785439635, 12), (7423428819330979, 16)]⟩,
  /- thermo.foam:638  C2H3 -/
  ⟨(1000, 0), [(2031323056116056, 15), (10237859579426458, 18), (3080955300038326, 21), (-10577100409041964, 24), (480047571106615, 26), (3498098468890578, 11), (13451654881489409, 15)], [(20820128066012487, 16), (1235659184239265, 17), (-625898802377169, 20), (15438304477387256, 25), (-14993383535590581, 29), (3494409244329673, 11), (12850033989935806, 15)]⟩,
  /- thermo.foam:670  C2H4 -/
  ⟨(1000, 0), [(20542759062596567, 16), (649641016671033, 17), (20271697335617913, 21), (-28550820947290196, 24), (11007525431772606, 27), (5285161128875958, 12), (12066444068913208, 15)], [(7367368406010791, 16), (17425500313111734, 18), (-8851981843298088, 21), (21794232339718996, 25), (-21059065131631392, 29), (5407110352274754, 12), (17361545241722908, 15)]⟩,
  /- thermo.foam:702  C2H5 -/
  ⟨(1000, 0), [(26889296544414822, 16), (77533783293641766, 19), (18470635681265182, 21), (-2548199224924071, 23), (9510659680961867, 27), (13007587350149208, 12), (11474623514637653, 15)], [(10738112463116587, 16), (1924376377764977, 17), (-9378839332808074, 21), (2206275066568294, 24), (-20339966092965087, 29), (13181416411586699, 12), (1826491068019859, 14)]⟩,
  /- thermo.foam:734  C2H6 -/
  ⟨(1000, 0), [(25051506880818684, 16), (7688472910531164, 18), (25414644821162754, 21), (-32775831720910943, 24), (11887672918327551, 27), (-11338981989189351, 12), (10139656408550813, 15)], [(9490808256535484, 17), (23723679185425273, 18), (-11561434733397852, 21), (27116789855939668, 25), (-2487219029943536, 28), (-11065581381961545, 12), (20446784462650207, 15)]⟩,
  /- thermo.foam:766  CH2CHO -/
  ⟨(1000, 0), [(39664293025924753, 16), (6803907355610364, 18), (1160795259793756, 20), (-17089137131763127, 24), (6407360964873578, 27), (28136223010394588, 16), (7217796296159115, 15)], [(2644004319732162, 15), (15651428367558153, 18), (-8806632652387126, 21), (24871702644841297, 25), (-27945721013646666, 29), (1496266352358795, 13), (12858824810788295, 15)]⟩,
  /- thermo.foam:799  aC3H5 -/
  ⟨(1000, 0), [(5944618244272873, 16), (25671734462593618, 18), (-3423758748453146, 21), (-15016574999448186, 24), (8261195093037698, 27), (19322456623026264, 12), (20367140045183316, 15)], [(16893259030460452, 16), (25139148345751223, 18), (-14361632192053573, 21), (4077473923804817, 24), (-4572583483912408, 28), (19110021874834714, 12), (14620540150918853, 15)]⟩,
  /- thermo.foam:831  C3H6 -/
  ⟨(1000, 0), [(23985718123849256, 16), (1456340795806284, 17), (20099558308738236, 21), (-3250763408264484, 23), (12726930220493763, 27), (9783754214157016, 13), (12319080348216573, 15)], [(504155318426574, 15), (28984144358235316, 18), (-1630649053030492, 20), (4619920370757403, 24), (-5208953000794583, 28), (11654498190662785, 13), (201236387999732, 13)]⟩,
  /- thermo.foam:863  nC3H7 -/
  ⟨(1000, 0), [(17091887653363353, 16), (2146849986407099, 17), (13164432959608335, 21), (-300719096465667, 22), (1281694676517874, 26), (1024092571331716, 11), (1833422990696956, 14)], [(8471694518639323, 16), (315426400469519, 16), (-17786018949058006, 21), (5054650876012858, 24), (-571282718142976, 27), (10278698004257338, 12), (21328138004949288, 15)]⟩,
  /- thermo.foam:895  C2H3CHO -/
  ⟨(1000, 0), [(21488205962186164, 16), (19952105022484838, 18), (6499592219768396, 21), (-2132782680510016, 23), (9451063367965841, 27), (-9427970791397616, 12), (15802923472572541, 15)], [(17507490605741767, 16), (26357926179462865, 18), (-14982184639295123, 21), (401054958467055, 23), (-413285784074935, 27), (-9433941814922211, 12), (16907733321639967, 15)]⟩,
  /- thermo.foam:928  C4H7 -/
  ⟨(1000, 0), [(13898739515362792, 16), (3509344757483277, 17), (-1147535627267248, 20), (-9680205160488979, 24), (65930669183771854, 28), (22585123342963212, 12), (20716124570660746, 15)], [(28881781268758804, 16), (3204478448319656, 17), (-1689843574125942, 20), (43187263502351245, 25), (-4324262074633658, 28), (22324209617124445, 12), (13216471597752765, 15)]⟩,
  /- thermo.foam:960  C4H81 -/
  ⟨(1000, 0), [(13497008605210041, 16), (29615072876737605, 18), (8307628657148882, 21), (-28178805238731708, 24), (12483902741199715, 27), (-1807761415967745, 12), (2035651794698819, 14)], [(11720496468154982, 16), (36443272906787214, 18), (-17631279480528436, 21), (39250158012960916, 25), (-33155897749487126, 29), (-18607704209959727, 13), (20227534844733412, 15)]⟩,
  /- thermo.foam:992  pC4H9 -/
  ⟨(1000, 0), [(19579155259650218, 16), (3306131611301322, 17), (54863116720801635, 22), (-28208810582004554, 24), (13113465302846851, 27), (7241957899632063, 12), (1899909170366629, 14)], [(22458014380347024, 16), (38298676918528285, 18), (-19415770842507392, 21), (4731728382346621, 24), (-4502378645015159, 28), (7113691648715907, 12), (1663487286365445, 14)]⟩,
  /- thermo.foam:1024  C5H9 -/
  ⟨(1000, 0), [(-12213759709865288, 17), (24170282601324408, 18), (47087592929512365, 21), (-751388390294018, 22), (29990542908064654, 27), (25687932022663144, 13), (2676549670733102, 14)], [(-35744998020568963, 16), (5377707663348994, 17), (-3289622831933645, 20), (981787019163213, 23), (-113677689132776, 26), (2865318795378048, 12), (4046161342201874, 14)]⟩,
  /- thermo.foam:1056  C5H10 -/
  ⟨(1000, 0), [(-21297698944803098, 17), (5128889683297678, 17), (-21839108240132446, 21), (-3877181039031929, 24), (4460890371053772, 27), (-4554115213514113, 12), (28704402968054293, 15)], [(3260117789235894, 16), (5155734716028458, 17), (-29345430702297406, 21), (817415782988809, 23), (-8915651313807094, 28), (-4667565274894421, 12), (25786912281099774, 15)]⟩,
  /- thermo.foam:1088  PXC5H11 -/
  ⟨(1000, 0), [(6308816236374872, 16), (5191647397091428, 17), (-22604556619577018, 21), (-13895847349358232, 25), (30337706699466723, 28), (4655578526610185, 12), (26290872433350028, 15)], [(653101748400223, 15), (5371830596662259, 17), (-30209026455938167, 21), (8324978451610599, 24), (-9003748007096499, 28), (4625453980275004, 12), (2588313281050813, 14)]⟩,
  /- thermo.foam:1120  C6H12 -/
  ⟨(1000, 0), [(-2452697228090797, 16), (6186822257746925, 17), (-25587243464819493, 21), (-5964328471917715, 24), (5944100317774206, 27), (-7459293415883205, 12), (30657084480691424, 15)], [(4072887765410218, 16), (6246133674193071, 17), (-3577168212075921, 20), (1001497234917693, 23), (-10964345111922828, 28), (-7600314351631162, 12), (2708217532567958, 14)]⟩,
  /- thermo.foam:1152  PXC6H13 -/
  ⟨(1000, 0), [(6255353401954934, 16), (62398237263021385, 18), (-2626882377427783, 20), (-34687973960777398, 25), (4493440700156992, 27), (17459570656791889, 13), (2811536094697003, 14)], [(7414920777222299, 16), (6459786915568147, 17), (-3661371030271537, 20), (10158253032710102, 24), (-11043118303801364, 28), (16912677902120593, 13), (27144259542449845, 15)]⟩,
  /- thermo.foam:1184  C7H14 -/
  ⟨(1000, 0), [(-3033301466109369, 16), (7253991934551762, 17), (-2939955452272049, 20), (-808787192608825, 23), (7463349726522258, 27), (-10360272635443667, 12), (3273214228348958, 14)], [(4838488447011561, 16), (733853331869116, 16), (-4221752024916574, 20), (11863102037371927, 24), (-13022513431987415, 28), (-10532126582225183, 12), (28399147085521804, 15)]⟩,
  /- thermo.foam:1216  PXC7H15 -/
  ⟨(1000, 0), [(5930828186161997, 16), (730069358627012, 16), (-30057132309301712, 21), (-5559698185092588, 24), (59906238201051724, 28), (-1160123274671254, 12), (3006198651512089, 14)], [(8374940866011557, 16), (754740581044229, 16), (-4302404299726806, 20), (11995111393735146, 24), (-13088085804628804, 28), (-12446080154549256, 13), (28363241297916012, 15)]⟩,
  /- thermo.foam:1248  C8H16 -/
  ⟨(1000, 0), [(-2839304681572418, 16), (8299362123238845, 17), (-3318642645341093, 20), (-9929820829572027, 24), (8812147591643452, 27), (-13275358234237865, 12), (3442757703668744, 14)], [(5814608370934629, 16), (8425011453215167, 17), (-4861341214320696, 20), (13693105429727476, 24), (-15056775828739659, 28), (-13468834156026243, 12), (2961181276512096, 14)]⟩,
  /- thermo.foam:1280  PXC8H17 -/
  ⟨(1000, 0), [(5705284670250675, 16), (835699645515616, 16), (-338457558558856, 19), (-7553474767011267, 24), (7427896960123143, 27), (-40672857374682208, 13), (3196510706991134, 14)], [(9195393378738618, 16), (8637818087852737, 17), (-4945071571978956, 20), (13835752496504114, 24), (-15135976373028507, 28), (-4177759380225563, 12), (2965412021755435, 14)]⟩,
  /- thermo.foam:1312  C9H18 -/
  ⟨(1000, 0), [(-3038166398385322, 16), (9354842938234477, 17), (-36974410446488255, 21), (-11909803228558815, 24), (1024072248625751, 26), (-1618297964433729, 11), (36317813082608936, 15)], [(662346671217138, 15), (9515831119005437, 17), (-55044009072585785, 21), (1553509535628476, 23), (-17106225912538003, 28), (-16401839947923887, 12), (30908247616741065, 15)]⟩,
  /- thermo.foam:1344  PXC9H19 -/
  ⟨(1000, 0), [(5492740055064912, 16), (9412864278501419, 17), (-3763280685209114, 20), (-9541933282793074, 24), (8861427639795306, 27), (-6974665025659155, 12), (35653654759545816, 15)], [(10008745481570673, 16), (9728480548788775, 17), (-5587985347046832, 20), (156772696747383, 22), (-17184919448830211, 28), (-7110814869401295, 12), (3274004824370091, 14)]⟩,
  /- thermo.foam:1376  C10H20 -/
  ⟨(1000, 0), [(-32319324721488474, 17), (10410157505234095, 17), (-40762160001710313, 21), (-13886974517324774, 24), (11667456994055018, 27), (-1909068578227502, 11), (382056102715003, 13)], [(7428227819452622, 16), (10606793227238571, 17), (-6147600726614453, 20), (17377584234768772, 24), (-1915627742809222, 27), (-193347874072967, 10), (3220665043094695, 14)]⟩,
  /- thermo.foam:1408  PXC10H21 -/
  ⟨(1000, 0), [(5288714902296199, 16), (10468455784749822, 17), (-41419259481395034, 21), (-1152627901344837, 23), (10292227567251659, 27), (-9882187621487084, 12), (3575482329437305, 14)], [(10817207895435923, 16), (10819314997571079, 17), (-6231067612257106, 20), (17519380687010055, 24), (-19234569195572814, 28), (-10043805465601487, 12), (3224502637581358, 14)]⟩,
  /- thermo.foam:1440  NC12H26 -/
  ⟨(1000, 0), [(-24304367107986719, 17), (13007970293441937, 17), (-5079345473211292, 20), (-15571773594675904, 24), (13362284097717977, 27), (-4031395658438679, 11), (4009861068027424, 14)], [(48835277538895666, 17), (13453105231250934, 17), (-7765827665646852, 20), (21878236333890046, 24), (-2405649731051176, 27), (-4052500279483637, 11), (3548601141457526, 14)]⟩,
  /- thermo.foam:1472  PXC12H25 -/
  ⟨(1000, 0), [(4896626633108257, 16), (1257913953675432, 16), (-4899194571422233, 20), (-15485969617669068, 24), (13148141771947512, 27), (-15697503900019072, 12), (39532767612287124, 15)], [(1242404902147481, 15), (1300133356470662, 16), (-7517572281246312, 20), (21204794784896828, 24), (-23335280507372665, 28), (-15909647715308181, 12), (3484311936266364, 14)]⟩,
  /- thermo.foam:1504  SXC12H25 -/
  ⟨(1000, 0), [(7760681145837584, 16), (12192934843522577, 17), (-4333161932733371, 20), (-17690524315658997, 24), (12967152730737619, 27), (-16990475110033953, 12), (3933400162809664, 14)], [(20480582297598637, 17), (131763711547247, 15), (-7665489959255622, 20), (21737996045153432, 24), (-2401188185265744, 27), (-1701209619303172, 11), (408066638679537, 13)]⟩,
  /- thermo.foam:1536  S3XC12H25 -/
  ⟨(1000, 0), [(7760681145837584, 16), (12192934843522577, 17), (-4333161932733371, 20), (-17690524315658997, 24), (12967152730737619, 27), (-16990475110033953, 12), (3933400162809664, 14)], [(20480582297598637, 17), (131763711547247, 15), (-7665489959255622, 20), (21737996045153432, 24), (-2401188185265744, 27), (-1701209619303172, 11), (408066638679537, 13)]⟩,
  /- thermo.foam:1568  C12H24 -/
  ⟨(1000, 0), [(-3611718406715262, 16), (12520502567945163, 17), (-483369244929288, 19), (-17836605899808803, 24), (1451764832833137, 26), (-2490621713489396, 11), (4197756981687519, 14)], [(9026176698950072, 16), (12789112576648115, 17), (-743439569054726, 19), (21064000621924167, 24), (-23258153784538264, 28), (-25200504773870183, 12), (3480903435909801, 14)]⟩,
  /- thermo.foam:1600  C12H25O2 -/
  ⟨(1000, 0), [(13086805952274874, 15), (3315802763119612, 17), (1579737475655323, 19), (-2280364671469076, 22), (9141394079569532, 26), (-3070205660445312, 11), (-15684282698416794, 15)], [(7115497505007067, 15), (10305545335743882, 17), (-5722560790225996, 20), (1655520039901988, 23), (-1904488561414791, 27), (-30430573546102467, 12), (506535824891651, 14)]⟩,
  /- thermo.foam:1633  C12OOH -/
  ⟨(1000, 0), [(1246338778035039, 14), (46932910200943576, 18), (11667419818825929, 20), (-18552702266312914, 23), (7652787974161222, 26), (-24600473699014856, 12), (-11369685776885973, 15)], [(9348283485926869, 15), (9749395921707787, 17), (-534044100412115, 19), (15407463925103496, 24), (-17739433388604188, 28), (-24646281533798552, 12), (-27757589698602487, 16)]⟩,
  /- thermo.foam:1666  O2C12H24OOH -/
  ⟨(1000, 0), [(77451366443037655, 16), (9250764585610446, 17), (3392606707711861, 20), (-11670369507762167, 23), (5508966725134764, 26), (-4244497268916394, 11), (10821997706495978, 15)], [(10835752943932105, 15), (10658111720775411, 17), (-606617879216642, 19), (17889135666481617, 24), (-20793961452508164, 28), (-43257434671728966, 12), (-7878778270379655, 15)]⟩,
  /- thermo.foam:1699  OC12H23OOH -/
  ⟨(1000, 0), [(16528518107703015, 15), (8989551930735019, 18), (21325834736292168, 20), (-28133249983221713, 23), (10995418355230857, 26), (-673385677591985, 10), (-2557387939210622, 14)], [(799874502126139, 14), (9838396783902617, 17), (-514440401242726, 19), (14008119763064418, 24), (-15486913776281914, 28), (-6680645337733744, 11), (5733329043643721, 15)]⟩,
  /- thermo.foam:1  N2 -/
  ⟨(1000, 0), [(3298677, 6), (14082404, 10), (-3963222, 12), (5641515, 15), (-2444854, 18), (-10208999, 4), (3950372, 6)], [(292664, 5), (14879768, 10), (-568476, 12), (10097038, 17), (-6753351, 21), (-9227977, 4), (5980528, 6)]⟩]

end DLB.Mech.Yao
