/- Generated by tools/gen_mechanisms.py from utilities/mechanisms/drm19/{chem.cti,foam/thermo.foam}. Do not edit. -/
import Verif.Spec.Thermo
set_option autoImplicit false

namespace DLB.Mech.Drm19
open DLB

/-- The NASA polynomials of the species (order of `names`), utilities/mechanisms/drm19/chem.cti:27-348 -/
def nasa : List Nasa := [
  /- chem.cti:27  H2 -/
  ⟨(1000, 0), [(234433112, 8), (798052075, 11), (-19478151, 12), (201572094, 16), (-737611761, 20), (-917935173, 6), (683010238, 9)], [(33372792, 7), (-494024731, 13), (499456778, 15), (-179566394, 18), (200255376, 22), (-950158922, 6), (-320502331, 8)]⟩,
  /- chem.cti:44  H -/
  ⟨(1000, 0), [(25, 1), (705332819, 21), (-199591964, 23), (230081632, 26), (-927732332, 30), (254736599, 4), (-446682853, 9)], [(250000001, 8), (-230842973, 19), (161561948, 22), (-473515235, 26), (498197357, 30), (254736599, 4), (-446682914, 9)]⟩,
  /- chem.cti:59  O -/
  ⟨(1000, 0), [(31682671, 7), (-327931884, 11), (664306396, 14), (-612806624, 17), (211265971, 20), (291222592, 4), (205193346, 8)], [(256942078, 8), (-859741137, 13), (419484589, 16), (-100177799, 19), (122833691, 23), (292175791, 4), (478433864, 8)]⟩,
  /- chem.cti:74  O2 -/
  ⟨(1000, 0), [(378245636, 8), (-299673416, 11), (984730201, 14), (-968129509, 17), (324372837, 20), (-106394356, 5), (365767573, 8)], [(328253784, 8), (148308754, 11), (-757966669, 15), (209470555, 18), (-216717794, 22), (-108845772, 5), (545323129, 8)]⟩,
  /- chem.cti:91  OH -/
  ⟨(1000, 0), [(399201543, 8), (-240131752, 11), (461793841, 14), (-388113333, 17), (13641147, 19), (361508056, 5), (-103925458, 9)], [(309288767, 8), (548429716, 12), (126505228, 15), (-879461556, 19), (117412376, 22), (3858657, 3), (44766961, 7)]⟩,
  /- chem.cti:106  H2O -/
  ⟨(1000, 0), [(419864056, 8), (-20364341, 10), (652040211, 14), (-548797062, 17), (177197817, 20), (-302937267, 4), (-849032208, 9)], [(303399249, 8), (217691804, 11), (-164072518, 15), (-97041987, 18), (168200992, 22), (-300042971, 4), (49667701, 7)]⟩,
  /- chem.cti:123  HO2 -/
  ⟨(1000, 0), [(430179801, 8), (-474912051, 11), (211582891, 13), (-242763894, 16), (929225124, 20), (29480804, 5), (371666245, 8)], [(40172109, 7), (223982013, 11), (-63365815, 14), (11424637, 17), (-107908535, 22), (111856713, 6), (378510215, 8)]⟩,
  /- chem.cti:139  CH2 -/
  ⟨(1000, 0), [(376267867, 8), (968872143, 12), (279489841, 14), (-385091153, 17), (168741719, 20), (460040401, 4), (156253185, 8)], [(287410113, 8), (365639292, 11), (-140894597, 14), (260179549, 18), (-187727567, 22), (46263604, 3), (617119324, 8)]⟩,
  /- chem.cti:154  CH2(S) -/
  ⟨(1000, 0), [(419860411, 8), (-236661419, 11), (82329622, 13), (-668815981, 17), (194314737, 20), (504968163, 4), (-769118967, 9)], [(229203842, 8), (465588637, 11), (-201191947, 14), (417906, 15), (-339716365, 22), (509259997, 4), (862650169, 8)]⟩,
  /- chem.cti:169  CH3 -/
  ⟨(1000, 0), [(36735904, 7), (201095175, 11), (573021856, 14), (-687117425, 17), (254385734, 20), (164449988, 4), (160456433, 8)], [(228571772, 8), (723990037, 11), (-298714348, 14), (595684644, 18), (-467154394, 22), (167755843, 4), (848007179, 8)]⟩,
  /- chem.cti:184  CH4 -/
  ⟨(1000, 0), [(514987613, 8), (-136709788, 10), (491800599, 13), (-484743026, 16), (166693956, 19), (-102466476, 4), (-464130376, 8)], [(74851495, 9), (133909467, 10), (-573285809, 14), (122292535, 17), (-10181523, 20), (-946834459, 5), (18437318, 6)]⟩,
  /- chem.cti:201  CO -/
  ⟨(1000, 0), [(357953347, 8), (-61035368, 11), (101681433, 14), (907005884, 18), (-904424499, 21), (-14344086, 3), (350840928, 8)], [(271518561, 8), (206252743, 11), (-998825771, 15), (230053008, 18), (-203647716, 22), (-141518724, 4), (781868772, 8)]⟩,
  /- chem.cti:218  CO2 -/
  ⟨(1000, 0), [(235677352, 8), (898459677, 11), (-712356269, 14), (245919022, 17), (-143699548, 21), (-483719697, 4), (990105222, 8)], [(385746029, 8), (441437026, 11), (-221481404, 14), (523490188, 18), (-472084164, 22), (-48759166, 3), (227163806, 8)]⟩,
  /- chem.cti:235  HCO -/
  ⟨(1000, 0), [(422118584, 8), (-324392532, 11), (137799446, 13), (-133144093, 16), (433768865, 20), (383956496, 5), (339437243, 8)], [(277217438, 8), (495695526, 11), (-248445613, 14), (589161778, 18), (-533508711, 22), (401191815, 5), (979834492, 8)]⟩,
  /- chem.cti:250  CH2O -/
  ⟨(1000, 0), [(479372315, 8), (-990833369, 11), (373220008, 13), (-379285261, 16), (131772652, 19), (-143089567, 4), (6028129, 7)], [(176069008, 8), (920000082, 11), (-442258813, 14), (100641212, 17), (-88385564, 21), (-139958323, 4), (13656323, 6)]⟩,
  /- chem.cti:266  CH3O -/
  ⟨(1000, 0), [(2106204, 6), (7216595, 9), (5338472, 12), (-7377636, 15), (207561, 17), (9786011, 4), (13152177, 6)], [(3770799, 6), (7871497, 9), (-2656384, 12), (3944431, 16), (-2112616, 20), (12783252, 5), (2929575, 6)]⟩,
  /- chem.cti:283  C2H4 -/
  ⟨(1000, 0), [(395920148, 8), (-757052247, 11), (570990292, 13), (-691588753, 16), (269884373, 19), (508977593, 5), (409733096, 8)], [(203611116, 8), (146454151, 10), (-671077915, 14), (147222923, 17), (-125706061, 21), (493988614, 5), (103053693, 7)]⟩,
  /- chem.cti:299  C2H5 -/
  ⟨(1000, 0), [(430646568, 8), (-418658892, 11), (497142807, 13), (-599126606, 16), (230509004, 19), (128416265, 4), (470720924, 8)], [(195465642, 8), (173972722, 10), (-798206668, 14), (175217689, 17), (-149641576, 21), (1285752, 2), (134624343, 7)]⟩,
  /- chem.cti:315  C2H6 -/
  ⟨(1000, 0), [(429142492, 8), (-55015427, 10), (599438288, 13), (-708466285, 16), (268685771, 19), (-115222055, 4), (266682316, 8)], [(10718815, 7), (216852677, 10), (-100256067, 13), (221412001, 17), (-19000289, 20), (-114263932, 4), (151156107, 7)]⟩,
  /- chem.cti:348  AR -/
  ⟨(1000, 0), [(25, 1), (0, 0), (0, 0), (0, 0), (0, 0), (-745375, 3), (4366, 3)], [(25, 1), (0, 0), (0, 0), (0, 0), (0, 0), (-745375, 3), (4366, 3)]⟩,
  /- chem.cti:331  N2 -/
  ⟨(1000, 0), [(3298677, 6), (14082404, 10), (-3963222, 12), (5641515, 15), (-2444854, 18), (-10208999, 4), (3950372, 6)], [(292664, 5), (14879768, 10), (-568476, 12), (10097038, 17), (-6753351, 21), (-9227977, 4), (5980528, 6)]⟩]

/-- The JANAF polynomials of the species (order of `names`), utilities/mechanisms/drm19/foam/thermo.foam; Tlow is 300, Thigh 3000 for all of them. -/
def foamNasa : List Nasa := [
  /- thermo.foam:1  H2 -/
  ⟨(1000, 0), [(280811858794504, 14), (45506176024811456, 19), (-10482310715105696, 21), (10215964476934802, 24), (-34535526759038106, 28), (-9654487416595365, 13), (-12565965018329415, 16)], [(36534338886269437, 16), (-7137181507809895, 19), (1003497225074257, 21), (-3439053463663084, 25), (39529659797578526, 30), (-1065847823752022, 12), (-4927709925508886, 15)]⟩,
  /- thermo.foam:32  H -/
  ⟨(1000, 0), [(2499999982865364, 15), (12245454202734124, 26), (-30525959436714507, 29), (3158853883679488, 31), (-1145296115876702, 34), (25473659901810566, 12), (-44668278074015433, 17)], [(24999999497267438, 16), (1375349839108468, 25), (-12798222789367612, 29), (48643811169839225, 33), (-650722239669892, 35), (25473659913522424, 12), (-44668259347087513, 17)]⟩,
  /- thermo.foam:63  O -/
  ⟨(1000, 0), [(30017922041004788, 16), (-20585026604635604, 19), (34744361112816024, 22), (-2670971444109501, 24), (7694569146624605, 28), (29139429136349103, 12), (2749400744812025, 15)], [(26930529620792596, 16), (-38286228290036246, 20), (2924712387379993, 22), (-9900586362701464, 26), (1255507118159829, 29), (2917939212067881, 11), (4129341533131036, 15)]⟩,
  /- thermo.foam:94  O2 -/
  ⟨(1000, 0), [(3816371022296404, 15), (-32248523550058947, 19), (10372505231421471, 21), (-10163902819886973, 24), (33883053316401466, 28), (-10676707618285693, 13), (35130915420283024, 16)], [(28923179060838167, 16), (2356563873277924, 18), (-14576094766639056, 22), (44829037628266464, 26), (-51136268515346857, 30), (-9561141694074124, 13), (7552328127346897, 15)]⟩,
  /- thermo.foam:125  OH -/
  ⟨(1000, 0), [(3647391782172988, 15), (10528397261374595, 20), (-18209055042197507, 22), (3053265155595903, 24), (-12871058591540578, 28), (3650854310143508, 12), (1342418706002647, 15)], [(37412918759434826, 16), (-9438376811745558, 19), (1347469337155776, 21), (-5117199408722194, 25), (647259559563456, 28), (36462700072369394, 13), (10090844823749059, 16)]⟩,
  /- thermo.foam:157  H2O -/
  ⟨(1000, 0), [(419864056, 8), (-20364341, 10), (652040211, 14), (-548797062, 17), (177197817, 20), (-302937267, 4), (-849032208, 9)], [(303399249, 8), (217691804, 11), (-164072518, 15), (-97041987, 18), (168200992, 22), (-300042971, 4), (49667701, 7)]⟩,
  /- thermo.foam:189  HO2 -/
  ⟨(1000, 0), [(3865324461867321, 15), (-15019303760780227, 19), (1257954825587061, 20), (-14712981204077338, 24), (5479812240414943, 27), (33930860982914146, 14), (55397031295936365, 16)], [(3160740176411689, 15), (4139049393180549, 18), (-21419683962806886, 22), (6254499342720628, 25), (-7349772958610228, 29), (40662943745210976, 14), (840209461680518, 14)]⟩,
  /- thermo.foam:221  CH2 -/
  ⟨(1000, 0), [(31909195178061247, 16), (5141743714510437, 18), (-7970727967624218, 21), (7806848591544976, 24), (-28002659148438342, 28), (4606323343190584, 11), (3960414640070482, 15)], [(36326480161342536, 16), (18958531821750531, 19), (4083540200391447, 23), (-2455205440176525, 25), (4470188509791567, 29), (46018027800438336, 12), (2122052216590916, 15)]⟩,
  /- thermo.foam:253  CH2(S) -/
  ⟨(1000, 0), [(3799313341435949, 15), (5393541795642717, 19), (7625165717746054, 22), (13650575416792247, 25), (-11395927886792308, 28), (5053824531213847, 11), (9064447122136023, 16)], [(31900249929375857, 16), (2576212803623537, 18), (-30314153697196603, 23), (-1770487190119763, 25), (4060130519763914, 29), (5063381146458682, 11), (3830216845050675, 15)]⟩,
  /- thermo.foam:285  CH3 -/
  ⟨(1000, 0), [(31582514365483725, 16), (5770220626550634, 18), (-396237464961305, 20), (3616504111353054, 24), (-14895111816462773, 28), (16498371430177325, 12), (37660500991971766, 16)], [(30717244980968412, 16), (5415826407082571, 18), (-1485495835880264, 21), (7203689609779539, 26), (1899837779578922, 29), (16520884099044033, 12), (4284073509552808, 15)]⟩,
  /- thermo.foam:317  CH4 -/
  ⟨(1000, 0), [(39547474768697244, 16), (-48989614711947346, 19), (26387156835461613, 21), (-23572388674843357, 24), (69779906173242815, 28), (-10123470255898426, 12), (3648988399148614, 16)], [(9352050608461863, 16), (11305375484442937, 18), (-39620013552935675, 22), (5910865038481224, 25), (-2112091022615396, 29), (-9730756743271451, 12), (1388868719970897, 14)]⟩,
  /- thermo.foam:349  CO -/
  ⟨(1000, 0), [(36574050518352634, 16), (-11909909287064419, 19), (25549716194064244, 22), (-813244145043656, 24), (-21607304449059367, 29), (-14352010863381156, 12), (31833171198904218, 16)], [(30514383911930563, 16), (12935463476331426, 19), (-37361362990757077, 23), (14181167134410802, 27), (6516276947957831, 30), (-14263491950136304, 12), (6017486099393892, 15)]⟩,
  /- thermo.foam:381  CO2 -/
  ⟨(1000, 0), [(2496542968971409, 15), (799249379743157, 17), (-46553370791069265, 22), (-8939061109210363, 26), (777966235014462, 27), (-4838675138725643, 11), (9311487996894684, 15)], [(295121696353838, 14), (6480355114616427, 18), (-389226663485644, 20), (11021885705844748, 25), (-11921870266442853, 29), (-4845817066304936, 11), (7128417945259567, 15)]⟩,
  /- thermo.foam:413  HCO -/
  ⟨(1000, 0), [(4055913532047811, 15), (-20174667985552977, 19), (10549699482438412, 21), (-9726587195700978, 24), (29135388737197533, 28), (38564498094778655, 13), (4085049272344001, 15)], [(27489351089503775, 16), (49724822600045755, 19), (-24743598082705917, 22), (5795979024271355, 25), (-5155756916179677, 29), (40262798142426436, 13), (9941296038816695, 15)]⟩,
  /- thermo.foam:446  CH2O -/
  ⟨(1000, 0), [(4146420607263484, 15), (-5125322356898448, 18), (24790357706565643, 21), (-24097395008042364, 24), (7728056871076143, 27), (-14242597340796765, 12), (3310390732463226, 15)], [(1591228669002645, 15), (949498359236384, 17), (-4605573760580699, 21), (10543178315067938, 25), (-9283851232812368, 29), (-13922663687991395, 12), (14610010683109369, 15)]⟩,
  /- thermo.foam:479  CH3O -/
  ⟨(1000, 0), [(29970612720869876, 16), (8224846648399263, 19), (2148339456661397, 20), (-24382693107263298, 24), (83931529141905, 25), (8851733087660068, 13), (9402998043389097, 15)], [(6747837142844159, 16), (14878583293564982, 18), (-8317637260349404, 21), (2340184891698562, 24), (-2625143287304694, 28), (1163492776704234, 12), (19545431198394482, 15)]⟩,
  /- thermo.foam:512  C2H4 -/
  ⟨(1000, 0), [(20542759062596567, 16), (649641016671033, 17), (20271697335617913, 21), (-28550820947290196, 24), (11007525431772606, 27), (5285161128875958, 12), (12066444068913208, 15)], [(7367368406010791, 16), (17425500313111734, 18), (-8851981843298088, 21), (21794232339718996, 25), (-21059065131631392, 29), (5407110352274754, 12), (17361545241722908, 15)]⟩,
  /- thermo.foam:544  C2H5 -/
  ⟨(1000, 0), [(26889296544414822, 16), (77533783293641766, 19), (18470635681265182, 21), (-2548199224924071, 23), (9510659680961867, 27), (13007587350149208, 12), (11474623514637653, 15)], [(10738112463116587, 16), (1924376377764977, 17), (-9378839332808074, 21), (2206275066568294, 24), (-20339966092965087, 29), (13181416411586699, 12), (1826491068019859, 14)]⟩,
  /- thermo.foam:576  C2H6 -/
  ⟨(1000, 0), [(25051506880818684, 16), (7688472910531164, 18), (25414644821162754, 21), (-32775831720910943, 24), (11887672918327551, 27), (-11338981989189351, 12), (10139656408550813, 15)], [(9490808256535484, 17), (23723679185425273, 18), (-11561434733397852, 21), (27116789855939668, 25), (-2487219029943536, 28), (-11065581381961545, 12), (20446784462650207, 15)]⟩,
  /- thermo.foam:639  AR -/
  ⟨(1000, 0), [(2500000000099219, 15), (-6627183660017647, 28), (1551505890557111, 30), (-1521077242139506, 33), (5314450256506967, 37), (-7453750000110788, 13), (436599999957571, 14)], [(25000000000170077, 16), (-58496714898731, 27), (6192938492876758, 32), (-2574341587174471, 35), (3677495988289284, 39), (-745375000002733, 12), (4365999999917662, 15)]⟩,
  /- thermo.foam:608  N2 -/
  ⟨(1000, 0), [(3298677, 6), (14082404, 10), (-3963222, 12), (5641515, 15), (-2444854, 18), (-10208999, 4), (3950372, 6)], [(292664, 5), (14879768, 10), (-568476, 12), (10097038, 17), (-6753351, 21), (-9227977, 4), (5980528, 6)]⟩]

end DLB.Mech.Drm19
