import Verif.Model.TableTypes

/-!
# Coefficient tables of `panels/core/src/bardell_functions.cpp`

Generated by `tools/tables.py`.  `(z, e)` stands for the printed decimal `z / 10^e`.
-/

namespace Verif.Gen

def vec_f_0 : FRow := ⟨0, [(3, 25, 2), (1, -75, 2), (0, 5, 1)]⟩
def vec_f_1 : FRow := ⟨1, [(3, 125, 3), (2, -125, 3), (1, -125, 3), (0, 125, 3)]⟩
def vec_f_2 : FRow := ⟨2, [(3, -25, 2), (1, 75, 2), (0, 5, 1)]⟩
def vec_f_3 : FRow := ⟨3, [(3, 125, 3), (2, 125, 3), (1, -125, 3), (0, -125, 3)]⟩
def vec_f_4 : FRow := ⟨4, [(4, 125, 3), (2, -25, 2), (0, 125, 3)]⟩
def vec_f_5 : FRow := ⟨4, [(5, 125, 3), (3, -25, 2), (1, 125, 3)]⟩
def vec_f_6 : FRow := ⟨4, [(6, 145833333333333, 15), (4, -3125, 4), (2, 1875, 4), (0, -208333333333333, 16)]⟩
def vec_f_7 : FRow := ⟨4, [(7, 1875, 4), (5, -4375, 4), (3, 3125, 4), (1, -625, 4)]⟩
def vec_f_8 : FRow := ⟨4, [(8, 2578125, 7), (6, -65625, 5), (4, 546875, 6), (2, -15625, 5), (0, 78125, 7)]⟩
def vec_f_9 : FRow := ⟨4, [(9, 372395833333333, 15), (7, -103125, 5), (5, 984375, 6), (3, -364583333333333, 15), (1, 390625, 7)]⟩
def vec_f_10 : FRow := ⟨4, [(10, 55859375, 8), (8, -167578125, 8), (6, 18046875, 7), (4, -8203125, 7), (2, 13671875, 8), (0, -390625, 8)]⟩
def vec_f_11 : FRow := ⟨4, [(11, 86328125, 8), (9, -279296875, 8), (7, 33515625, 7), (5, -18046875, 7), (3, 41015625, 8), (1, -2734375, 8)]⟩
def vec_f_12 : FRow := ⟨4, [(12, 136686197916667, 14), (10, -4748046875, 9), (8, 62841796875, 10), (6, -391015625, 8), (4, 11279296875, 10), (2, -123046875, 9), (0, 227864583333333, 17)]⟩
def vec_f_13 : FRow := ⟨4, [(13, 22080078125, 10), (11, -8201171875, 9), (9, 118701171875, 10), (7, -837890625, 8), (5, 29326171875, 10), (3, -451171875, 9), (1, 205078125, 10)]⟩
def vec_f_14 : FRow := ⟨4, [(14, 362744140625, 11), (12, -1435205078125, 11), (10, 2255322265625, 11), (8, -1780517578125, 11), (6, 733154296875, 11), (4, -146630859375, 11), (2, 11279296875, 11), (0, -146484375, 11)]⟩
def vec_f_15 : FRow := ⟨4, [(15, 604573567708333, 14), (13, -2539208984375, 11), (11, 4305615234375, 11), (9, -375887044270833, 13), (7, 1780517578125, 11), (5, -439892578125, 11), (3, 48876953125, 11), (1, -1611328125, 11)]⟩
def vec_f_16 : FRow := ⟨4, [(16, 102021789550781, 13), (14, -45343017578125, 12), (12, 825242919921875, 13), (10, -78936279296875, 12), (8, 422872924804688, 13), (6, -12463623046875, 12), (4, 18328857421875, 13), (2, -104736328125, 12), (0, 1007080078125, 15)]⟩
def vec_f_17 : FRow := ⟨4, [(17, 174037170410156, 13), (15, -81617431640625, 12), (13, 158700561523438, 12), (11, -165048583984375, 12), (9, 986703491210938, 13), (7, -33829833984375, 12), (5, 62318115234375, 13), (3, -523681640625, 12), (1, 13092041015625, 15)]⟩
def vec_f_18 : FRow := ⟨4, [(18, 299730682373047, 13), (16, -147931594848633, 12), (14, 306065368652344, 12), (12, -343851216634115, 12), (10, 226941802978516, 12), (8, -888033142089844, 13), (6, 197340698242188, 13), (4, -222564697265625, 14), (2, 981903076171875, 16), (0, -727335611979167, 18)]⟩
def vec_f_19 : FRow := ⟨4, [(19, 520584869384766, 13), (17, -269757614135742, 12), (15, 591726379394531, 12), (13, -714152526855469, 12), (11, 515776824951172, 12), (9, -226941802978516, 12), (7, 592022094726563, 13), (5, -845745849609375, 14), (3, 556411743164063, 15), (1, -109100341796875, 16)]⟩
def vec_f_20 : FRow := ⟨4, [(20, 91102352142334, 12), (18, -494555625915527, 12), (16, 11464698600769, 10), (14, -147931594848633, 11), (12, 116049785614014, 11), (10, -567354507446289, 12), (8, 170206352233887, 12), (6, -296011047363281, 13), (4, 26429557800293, 13), (2, -927352905273438, 16), (0, 545501708984375, 18)]⟩
def vec_f_21 : FRow := ⟨4, [(21, 160513668060303, 12), (19, -91102352142334, 11), (17, 222550031661987, 11), (15, -305725296020508, 11), (13, 258880290985107, 11), (11, -139259742736816, 11), (9, 472795422871908, 12), (7, -972607727050781, 13), (5, 11100414276123, 12), (3, -587323506673177, 15), (1, 927352905273438, 17)]⟩
def vec_f_22 : FRow := ⟨4, [(22, 284546957015991, 12), (20, -168539351463318, 11), (18, 432736172676086, 11), (16, -630558423042297, 11), (14, 573234930038452, 11), (12, -33654437828064, 10), (10, 127654764175415, 11), (8, -303939914703369, 12), (6, 425515880584717, 13), (4, -308344841003418, 14), (2, 880985260009766, 16), (0, -421524047851563, 18)]⟩
def vec_f_23 : FRow := ⟨4, [(23, 507235879898071, 12), (21, -31300165271759, 10), (19, 842696757316589, 11), (17, -129820851802826, 10), (15, 126111684608459, 10), (13, -802528902053833, 11), (11, 33654437828064, 10), (9, -911819744110107, 12), (7, 151969957351685, 12), (5, -141838626861572, 13), (3, 616689682006836, 15), (1, -800895690917969, 17)]⟩
def vec_f_24 : FRow := ⟨4, [(24, 908797618150711, 12), (22, -583321261882782, 11), (20, 164325867676735, 10), (18, -266853973150253, 10), (16, 275869310081005, 10), (14, -189167526912689, 10), (12, 869406310558319, 11), (10, -264427725791931, 11), (8, 512898606061935, 12), (6, -590994278589884, 13), (4, 354596567153931, 14), (2, -840940475463867, 16), (0, 333706537882487, 18)]⟩
def vec_f_25 : FRow := ⟨4, [(25, 163583571267128, 11), (23, -109055714178085, 10), (21, 32082669403553, 9), (19, -547752892255783, 10), (17, 60042143958807, 9), (15, -441390896129608, 10), (13, 220695448064804, 10), (11, -745205409049988, 11), (9, 165267328619957, 11), (7, -227954936027527, 12), (5, 177298283576965, 13), (3, -644721031188965, 15), (1, 700783729553223, 17)]⟩
def vec_f_26 : FRow := ⟨4, [(26, 295708763444424, 11), (24, -20447946408391, 9), (22, 627070356523991, 10), (20, -112289342912436, 9), (18, 130091311910748, 9), (16, -102071644729972, 9), (14, 55173862016201, 9), (12, -204931487488747, 10), (10, 512328718721867, 11), (8, -826336643099785, 12), (6, 797842276096344, 13), (4, -402950644493103, 14), (2, 805901288986206, 16), (0, -269532203674316, 18)]⟩
def vec_f_27 : FRow := ⟨4, [(27, 53665664476951, 10), (25, -384421392477751, 10), (23, 122687678450346, 9), (21, -22992579739213, 8), (19, 280723357281089, 9), (17, -234164361439347, 9), (15, 136095526306629, 9), (13, -55173862016201, 9), (11, 15369861561656, 9), (9, -284627065956593, 11), (7, 330534657239914, 12), (5, -217593348026276, 13), (3, 671584407488505, 15), (1, -619924068450928, 17)]⟩
def vec_f_28 : FRow := ⟨4, [(28, 977481745830178, 11), (26, -724486470438838, 10), (24, 240263370298594, 9), (22, -470302767392993, 9), (20, 603555218154341, 9), (18, -533374378834069, 9), (16, 331732845372409, 9), (14, -145816635328531, 9), (12, 448287628881633, 10), (10, -939269317656755, 11), (8, 128082179680467, 11), (6, -1051701182127, 10), (4, 453319475054741, 14), (2, -77490508556366, 15), (0, 221401453018188, 18)]⟩
def vec_f_29 : FRow := ⟨4, [(29, 178643215617239, 10), (27, -136847444416225, 9), (25, 470916205785245, 9), (23, -961053481194377, 9), (21, 129333261033073, 8), (19, -120711043630868, 8), (17, 800061568251103, 9), (15, -379123251854181, 9), (13, 127589555912465, 9), (11, -298858419254422, 10), (9, 469634658828378, 11), (7, -465753380656242, 12), (5, 26292529553175, 12), (3, -697414577007294, 15), (1, 553503632545471, 17)]⟩

/-- `vec_f` (`bardell_functions.cpp` lines 16-45). -/
def vec_f : List FRow := [vec_f_0, vec_f_1, vec_f_2, vec_f_3, vec_f_4, vec_f_5, vec_f_6, vec_f_7, vec_f_8, vec_f_9, vec_f_10, vec_f_11, vec_f_12, vec_f_13, vec_f_14, vec_f_15, vec_f_16, vec_f_17, vec_f_18, vec_f_19, vec_f_20, vec_f_21, vec_f_22, vec_f_23, vec_f_24, vec_f_25, vec_f_26, vec_f_27, vec_f_28, vec_f_29]

def vec_fp_0 : FRow := ⟨0, [(2, 75, 2), (0, -75, 2)]⟩
def vec_fp_1 : FRow := ⟨1, [(2, 375, 3), (1, -25, 2), (0, -125, 3)]⟩
def vec_fp_2 : FRow := ⟨2, [(2, -75, 2), (0, 75, 2)]⟩
def vec_fp_3 : FRow := ⟨3, [(2, 375, 3), (1, 25, 2), (0, -125, 3)]⟩
def vec_fp_4 : FRow := ⟨4, [(3, 5, 1), (1, -5, 1)]⟩
def vec_fp_5 : FRow := ⟨4, [(4, 625, 3), (2, -75, 2), (0, 125, 3)]⟩
def vec_fp_6 : FRow := ⟨4, [(5, 875, 3), (3, -125, 2), (1, 375, 3)]⟩
def vec_fp_7 : FRow := ⟨4, [(6, 13125, 4), (4, -21875, 4), (2, 9375, 4), (0, -625, 4)]⟩
def vec_fp_8 : FRow := ⟨4, [(7, 20625, 4), (5, -39375, 4), (3, 21875, 4), (1, -3125, 4)]⟩
def vec_fp_9 : FRow := ⟨4, [(8, 33515625, 7), (6, -721875, 5), (4, 4921875, 6), (2, -109375, 5), (0, 390625, 7)]⟩
def vec_fp_10 : FRow := ⟨4, [(9, 55859375, 7), (7, -1340625, 5), (5, 10828125, 6), (3, -328125, 5), (1, 2734375, 7)]⟩
def vec_fp_11 : FRow := ⟨4, [(10, 949609375, 8), (8, -2513671875, 8), (6, 234609375, 7), (4, -90234375, 7), (2, 123046875, 8), (0, -2734375, 8)]⟩
def vec_fp_12 : FRow := ⟨4, [(11, 1640234375, 8), (9, -4748046875, 8), (7, 502734375, 7), (5, -234609375, 7), (3, 451171875, 8), (1, -24609375, 8)]⟩
def vec_fp_13 : FRow := ⟨4, [(12, 287041015625, 10), (10, -90212890625, 9), (8, 1068310546875, 10), (6, -5865234375, 8), (4, 146630859375, 10), (2, -1353515625, 9), (0, 205078125, 10)]⟩
def vec_fp_14 : FRow := ⟨4, [(13, 507841796875, 10), (11, -172224609375, 9), (9, 2255322265625, 10), (7, -14244140625, 8), (5, 439892578125, 10), (3, -5865234375, 9), (1, 2255859375, 10)]⟩
def vec_fp_15 : FRow := ⟨4, [(14, 9068603515625, 11), (12, -33009716796875, 11), (10, 47361767578125, 11), (8, -33829833984375, 11), (6, 12463623046875, 11), (4, -2199462890625, 11), (2, 146630859375, 11), (0, -1611328125, 11)]⟩
def vec_fp_16 : FRow := ⟨4, [(15, 16323486328125, 11), (13, -63480224609375, 11), (11, 99029150390625, 11), (9, -78936279296875, 11), (7, 33829833984375, 11), (5, -7478173828125, 11), (3, 733154296875, 11), (1, -20947265625, 11)]⟩
def vec_fp_17 : FRow := ⟨4, [(16, 295863189697266, 12), (14, -122426147460938, 11), (12, 206310729980469, 11), (10, -181553442382813, 11), (8, 888033142089844, 12), (6, -236808837890625, 12), (4, 311590576171875, 13), (2, -1571044921875, 12), (0, 13092041015625, 15)]⟩
def vec_fp_18 : FRow := ⟨4, [(17, 539515228271484, 12), (15, -236690551757813, 11), (13, 428491516113281, 11), (11, -412621459960938, 11), (9, 226941802978516, 11), (7, -710426513671875, 12), (5, 118404418945313, 12), (3, -8902587890625, 12), (1, 196380615234375, 15)]⟩
def vec_fp_19 : FRow := ⟨4, [(18, 989111251831055, 12), (16, -458587944030762, 11), (14, 887589569091797, 11), (12, -928398284912109, 11), (10, 567354507446289, 11), (8, -204247622680664, 11), (6, 414415466308594, 12), (4, -422872924804688, 13), (2, 166923522949219, 14), (0, -109100341796875, 16)]⟩
def vec_fp_20 : FRow := ⟨4, [(19, 182204704284668, 11), (17, -890200126647949, 11), (15, 183435177612305, 10), (13, -207104232788086, 10), (11, 139259742736816, 10), (9, -567354507446289, 11), (7, 136165081787109, 11), (5, -177606628417969, 12), (3, 105718231201172, 13), (1, -185470581054688, 15)]⟩
def vec_fp_21 : FRow := ⟨4, [(20, 337078702926636, 11), (18, -173094469070435, 10), (16, 378335053825378, 10), (14, -458587944030762, 10), (12, 33654437828064, 9), (10, -153185717010498, 10), (8, 425515880584717, 11), (6, -680825408935547, 12), (4, 555020713806152, 13), (2, -176197052001953, 14), (0, 927352905273438, 17)]⟩
def vec_fp_22 : FRow := ⟨4, [(21, 626003305435181, 11), (19, -337078702926636, 10), (17, 778925110816956, 10), (15, -100889347686768, 9), (13, 802528902053833, 10), (11, -403853253936768, 10), (9, 127654764175415, 10), (7, -243151931762695, 11), (5, 25530952835083, 11), (3, -123337936401367, 13), (1, 176197052001953, 15)]⟩
def vec_fp_23 : FRow := ⟨4, [(22, 116664252376556, 10), (20, -65730347070694, 9), (18, 160112383890152, 9), (16, -220695448064804, 9), (14, 189167526912689, 9), (12, -104328757266998, 9), (10, 370198816108704, 10), (8, -820637769699097, 11), (6, 106378970146179, 11), (4, -709193134307861, 13), (2, 185006904602051, 14), (0, -800895690917969, 17)]⟩
def vec_fp_24 : FRow := ⟨4, [(23, 218111428356171, 10), (21, -128330677614212, 9), (19, 32865173535347, 8), (17, -480337151670456, 9), (15, 441390896129608, 9), (13, -264834537677765, 9), (11, 104328757266998, 9), (9, -264427725791931, 10), (7, 410318884849548, 11), (5, -354596567153931, 12), (3, 141838626861572, 13), (1, -168188095092773, 15)]⟩
def vec_fp_25 : FRow := ⟨4, [(24, 40895892816782, 9), (22, -250828142609596, 9), (20, 673736057474613, 9), (18, -104073049528599, 8), (16, 102071644729972, 8), (14, -662086344194412, 9), (12, 286904082484245, 9), (10, -819725949954987, 10), (8, 148740595757961, 10), (6, -159568455219269, 11), (4, 886491417884827, 13), (2, -193416309356689, 14), (0, 700783729553223, 17)]⟩
def vec_fp_26 : FRow := ⟨4, [(25, 768842784955502, 10), (23, -490750713801384, 9), (21, 137955478435278, 8), (19, -224578685824871, 8), (17, 234164361439347, 8), (15, -163314631567955, 8), (13, 772434068226814, 9), (11, -245917784986496, 9), (9, 512328718721867, 10), (7, -661069314479828, 11), (5, 478705365657806, 12), (3, -161180257797241, 13), (1, 161180257797241, 15)]⟩
def vec_fp_27 : FRow := ⟨4, [(26, 144897294087768, 9), (24, -961053481194377, 9), (22, 282181660435796, 8), (20, -482844174523473, 8), (18, 533374378834069, 8), (16, -39807941444689, 7), (14, 204143289459944, 8), (12, -717260206210613, 9), (10, 169068477178216, 9), (8, -256164359360933, 10), (6, 23137426006794, 10), (4, -108796674013138, 12), (2, 201475322246552, 14), (0, -619924068450928, 17)]⟩
def vec_fp_28 : FRow := ⟨4, [(27, 27369488883245, 8), (25, -188366482314098, 8), (23, 576632088716626, 8), (21, -103466608826458, 7), (19, 120711043630868, 7), (17, -960073881901324, 8), (15, 530772552595854, 8), (13, -204143289459944, 8), (11, 53794515465796, 8), (9, -939269317656755, 10), (7, 102465743744373, 10), (5, -631020709276199, 12), (3, 181327790021896, 13), (1, -154981017112732, 15)]⟩
def vec_fp_29 : FRow := ⟨4, [(28, 518065325289994, 9), (26, -369488099923807, 8), (24, 117729051446311, 7), (22, -221042300674707, 7), (20, 271599848169453, 7), (18, -22935098289865, 6), (16, 136010466602688, 7), (14, -568684877781272, 8), (12, 165866422686204, 8), (10, -328744261179864, 9), (8, 42267119294554, 9), (6, -32602736645937, 10), (4, 131462647765875, 12), (2, -209224373102188, 14), (0, 553503632545471, 17)]⟩

/-- `vec_fp` (`bardell_functions.cpp` lines 51-80). -/
def vec_fp : List FRow := [vec_fp_0, vec_fp_1, vec_fp_2, vec_fp_3, vec_fp_4, vec_fp_5, vec_fp_6, vec_fp_7, vec_fp_8, vec_fp_9, vec_fp_10, vec_fp_11, vec_fp_12, vec_fp_13, vec_fp_14, vec_fp_15, vec_fp_16, vec_fp_17, vec_fp_18, vec_fp_19, vec_fp_20, vec_fp_21, vec_fp_22, vec_fp_23, vec_fp_24, vec_fp_25, vec_fp_26, vec_fp_27, vec_fp_28, vec_fp_29]

def vec_fpp_0 : FRow := ⟨0, [(1, 15, 1)]⟩
def vec_fpp_1 : FRow := ⟨1, [(1, 75, 2), (0, -25, 2)]⟩
def vec_fpp_2 : FRow := ⟨2, [(1, -15, 1)]⟩
def vec_fpp_3 : FRow := ⟨3, [(1, 75, 2), (0, 25, 2)]⟩
def vec_fpp_4 : FRow := ⟨4, [(2, 15, 1), (0, -5, 1)]⟩
def vec_fpp_5 : FRow := ⟨4, [(3, 25, 1), (1, -15, 1)]⟩
def vec_fpp_6 : FRow := ⟨4, [(4, 4375, 3), (2, -375, 2), (0, 375, 3)]⟩
def vec_fpp_7 : FRow := ⟨4, [(5, 7875, 3), (3, -875, 2), (1, 1875, 3)]⟩
def vec_fpp_8 : FRow := ⟨4, [(6, 144375, 4), (4, -196875, 4), (2, 65625, 4), (0, -3125, 4)]⟩
def vec_fpp_9 : FRow := ⟨4, [(7, 268125, 4), (5, -433125, 4), (3, 196875, 4), (1, -21875, 4)]⟩
def vec_fpp_10 : FRow := ⟨4, [(8, 502734375, 7), (6, -9384375, 5), (4, 54140625, 6), (2, -984375, 5), (0, 2734375, 7)]⟩
def vec_fpp_11 : FRow := ⟨4, [(9, 949609375, 7), (7, -20109375, 5), (5, 140765625, 6), (3, -3609375, 5), (1, 24609375, 7)]⟩
def vec_fpp_12 : FRow := ⟨4, [(10, 18042578125, 8), (8, -42732421875, 8), (6, 3519140625, 7), (4, -1173046875, 7), (2, 1353515625, 8), (0, -24609375, 8)]⟩
def vec_fpp_13 : FRow := ⟨4, [(11, 34444921875, 8), (9, -90212890625, 8), (7, 8546484375, 7), (5, -3519140625, 7), (3, 5865234375, 8), (1, -270703125, 8)]⟩
def vec_fpp_14 : FRow := ⟨4, [(12, 6601943359375, 10), (10, -1894470703125, 9), (8, 20297900390625, 10), (6, -99708984375, 8), (4, 2199462890625, 10), (2, -17595703125, 9), (0, 2255859375, 10)]⟩
def vec_fpp_15 : FRow := ⟨4, [(13, 12696044921875, 10), (11, -3961166015625, 9), (9, 47361767578125, 10), (7, -270638671875, 8), (5, 7478173828125, 10), (3, -87978515625, 9), (1, 29326171875, 10)]⟩
def vec_fpp_16 : FRow := ⟨4, [(14, 244852294921875, 11), (12, -825242919921875, 11), (10, 108932065429688, 10), (8, -710426513671875, 11), (6, 236808837890625, 11), (4, -37390869140625, 11), (2, 2199462890625, 11), (0, -20947265625, 11)]⟩
def vec_fpp_17 : FRow := ⟨4, [(15, 473381103515625, 11), (13, -171396606445313, 10), (11, 247572875976563, 10), (9, -181553442382813, 10), (7, 710426513671875, 11), (5, -142085302734375, 11), (3, 12463623046875, 11), (1, -314208984375, 11)]⟩
def vec_fpp_18 : FRow := ⟨4, [(16, 917175888061523, 11), (14, -355035827636719, 10), (12, 557038970947266, 10), (10, -453883605957031, 10), (8, 204247622680664, 10), (6, -497298559570313, 11), (4, 592022094726563, 12), (2, -26707763671875, 12), (0, 196380615234375, 15)]⟩
def vec_fpp_19 : FRow := ⟨4, [(17, 17804002532959, 9), (15, -733740710449219, 10), (13, 124262539672852, 9), (11, -111407794189453, 9), (9, 567354507446289, 10), (7, -163398098144531, 10), (5, 248649279785156, 11), (3, -169149169921875, 12), (1, 333847045898438, 14)]⟩
def vec_fpp_20 : FRow := ⟨4, [(18, 346188938140869, 10), (16, -151334021530151, 9), (14, 275152766418457, 9), (12, -269235502624512, 9), (10, 153185717010498, 9), (8, -51061905670166, 9), (6, 953155572509766, 11), (4, -888033142089844, 12), (2, 317154693603516, 13), (0, -185470581054688, 15)]⟩
def vec_fpp_21 : FRow := ⟨4, [(19, 674157405853271, 10), (17, -311570044326782, 9), (15, 605336086120605, 9), (13, -642023121643066, 9), (11, 403853253936768, 9), (9, -153185717010498, 9), (7, 340412704467773, 10), (5, -408495245361328, 11), (3, 222008285522461, 12), (1, -352394104003906, 14)]⟩
def vec_fpp_22 : FRow := ⟨4, [(20, 131460694141388, 9), (18, -640449535560608, 9), (16, 132417268838882, 8), (14, -151334021530151, 8), (12, 104328757266998, 8), (10, -444238579330444, 9), (8, 114889287757874, 9), (6, -170206352233887, 10), (4, 127654764175415, 11), (2, -370013809204102, 13), (0, 176197052001953, 15)]⟩
def vec_fpp_23 : FRow := ⟨4, [(21, 256661355228424, 9), (19, -131460694141388, 8), (17, 288202291002274, 8), (15, -353112716903687, 8), (13, 264834537677765, 8), (11, -125194508720398, 8), (9, 370198816108704, 9), (7, -656510215759277, 10), (5, 638273820877075, 11), (3, -283677253723145, 12), (1, 370013809204102, 14)]⟩
def vec_fpp_24 : FRow := ⟨4, [(22, 501656285219193, 9), (20, -269494422989845, 8), (18, 624438297171593, 8), (16, -816573157839775, 8), (14, 662086344194412, 8), (12, -344284898981094, 8), (10, 114761632993698, 8), (8, -237984953212738, 9), (6, 287223219394684, 10), (4, -177298283576965, 11), (2, 425515880584717, 13), (0, -168188095092773, 15)]⟩
def vec_fpp_25 : FRow := ⟨4, [(23, 981501427602768, 9), (21, -551821913741112, 8), (19, 134747211494923, 7), (17, -187331489151478, 7), (15, 163314631567955, 7), (13, -926920881872177, 8), (11, 344284898981094, 8), (9, -819725949954987, 9), (7, 118992476606369, 9), (5, -957410731315613, 11), (3, 354596567153931, 12), (1, -386832618713379, 14)]⟩
def vec_fpp_26 : FRow := ⟨4, [(24, 192210696238875, 8), (22, -112872664174318, 7), (20, 289706504714084, 7), (18, -426699503067255, 7), (16, 39807941444689, 6), (14, -244971947351933, 7), (12, 100416428869486, 7), (10, -270509563485146, 8), (8, 46109584684968, 8), (6, -46274852013588, 9), (4, 239352682828903, 11), (2, -483540773391724, 13), (0, 161180257797241, 15)]⟩
def vec_fpp_27 : FRow := ⟨4, [(25, 376732964628196, 8), (23, -23065283548665, 6), (21, 620799652958751, 7), (19, -965688349046946, 7), (17, 960073881901324, 7), (15, -636927063115025, 7), (13, 285800605243921, 7), (11, -860712247452736, 8), (9, 169068477178216, 8), (7, -204931487488747, 9), (5, 138824556040764, 10), (3, -435186696052551, 12), (1, 402950644493103, 14)]⟩
def vec_fpp_28 : FRow := ⟨4, [(26, 738976199847615, 8), (24, -470916205785245, 7), (22, 132625380404824, 6), (20, -217279878535563, 6), (18, 22935098289865, 5), (16, -163212559923225, 6), (14, 796158828893781, 7), (12, -265386276297927, 7), (10, 591739670123756, 8), (8, -84534238589108, 8), (6, 717260206210613, 10), (4, -3155103546381, 9), (2, 543983370065689, 13), (0, -154981017112732, 15)]⟩
def vec_fpp_29 : FRow := ⟨4, [(27, 145058291081198, 7), (25, -960669059801899, 7), (23, 282549723471147, 6), (21, -486293061484355, 6), (19, 543199696338907, 6), (17, -412831769217569, 6), (15, 2176167465643, 4), (13, -796158828893781, 7), (11, 199039707223445, 7), (9, -328744261179864, 8), (7, 338136954356432, 9), (5, -195616419875622, 10), (3, 525850591063499, 12), (1, -418448746204376, 14)]⟩

/-- `vec_fpp` (`bardell_functions.cpp` lines 86-115). -/
def vec_fpp : List FRow := [vec_fpp_0, vec_fpp_1, vec_fpp_2, vec_fpp_3, vec_fpp_4, vec_fpp_5, vec_fpp_6, vec_fpp_7, vec_fpp_8, vec_fpp_9, vec_fpp_10, vec_fpp_11, vec_fpp_12, vec_fpp_13, vec_fpp_14, vec_fpp_15, vec_fpp_16, vec_fpp_17, vec_fpp_18, vec_fpp_19, vec_fpp_20, vec_fpp_21, vec_fpp_22, vec_fpp_23, vec_fpp_24, vec_fpp_25, vec_fpp_26, vec_fpp_27, vec_fpp_28, vec_fpp_29]

def sc_f_0 : FRow := ⟨0, [(3, 25, 2), (1, -75, 2), (0, 5, 1)]⟩
def sc_f_1 : FRow := ⟨1, [(3, 125, 3), (2, -125, 3), (1, -125, 3), (0, 125, 3)]⟩
def sc_f_2 : FRow := ⟨2, [(3, -25, 2), (1, 75, 2), (0, 5, 1)]⟩
def sc_f_3 : FRow := ⟨3, [(3, 125, 3), (2, 125, 3), (1, -125, 3), (0, -125, 3)]⟩
def sc_f_4 : FRow := ⟨4, [(4, 125, 3), (2, -25, 2), (0, 125, 3)]⟩
def sc_f_5 : FRow := ⟨4, [(5, 125, 3), (3, -25, 2), (1, 125, 3)]⟩
def sc_f_6 : FRow := ⟨4, [(6, 145833333333333, 15), (4, -3125, 4), (2, 1875, 4), (0, -208333333333333, 16)]⟩
def sc_f_7 : FRow := ⟨4, [(7, 1875, 4), (5, -4375, 4), (3, 3125, 4), (1, -625, 4)]⟩
def sc_f_8 : FRow := ⟨4, [(8, 2578125, 7), (6, -65625, 5), (4, 546875, 6), (2, -15625, 5), (0, 78125, 7)]⟩
def sc_f_9 : FRow := ⟨4, [(9, 372395833333333, 15), (7, -103125, 5), (5, 984375, 6), (3, -364583333333333, 15), (1, 390625, 7)]⟩
def sc_f_10 : FRow := ⟨4, [(10, 55859375, 8), (8, -167578125, 8), (6, 18046875, 7), (4, -8203125, 7), (2, 13671875, 8), (0, -390625, 8)]⟩
def sc_f_11 : FRow := ⟨4, [(11, 86328125, 8), (9, -279296875, 8), (7, 33515625, 7), (5, -18046875, 7), (3, 41015625, 8), (1, -2734375, 8)]⟩
def sc_f_12 : FRow := ⟨4, [(12, 136686197916667, 14), (10, -4748046875, 9), (8, 62841796875, 10), (6, -391015625, 8), (4, 11279296875, 10), (2, -123046875, 9), (0, 227864583333333, 17)]⟩
def sc_f_13 : FRow := ⟨4, [(13, 22080078125, 10), (11, -8201171875, 9), (9, 118701171875, 10), (7, -837890625, 8), (5, 29326171875, 10), (3, -451171875, 9), (1, 205078125, 10)]⟩
def sc_f_14 : FRow := ⟨4, [(14, 362744140625, 11), (12, -1435205078125, 11), (10, 2255322265625, 11), (8, -1780517578125, 11), (6, 733154296875, 11), (4, -146630859375, 11), (2, 11279296875, 11), (0, -146484375, 11)]⟩
def sc_f_15 : FRow := ⟨4, [(15, 604573567708333, 14), (13, -2539208984375, 11), (11, 4305615234375, 11), (9, -375887044270833, 13), (7, 1780517578125, 11), (5, -439892578125, 11), (3, 48876953125, 11), (1, -1611328125, 11)]⟩
def sc_f_16 : FRow := ⟨4, [(16, 102021789550781, 13), (14, -45343017578125, 12), (12, 825242919921875, 13), (10, -78936279296875, 12), (8, 422872924804688, 13), (6, -12463623046875, 12), (4, 18328857421875, 13), (2, -104736328125, 12), (0, 1007080078125, 15)]⟩
def sc_f_17 : FRow := ⟨4, [(17, 174037170410156, 13), (15, -81617431640625, 12), (13, 158700561523438, 12), (11, -165048583984375, 12), (9, 986703491210938, 13), (7, -33829833984375, 12), (5, 62318115234375, 13), (3, -523681640625, 12), (1, 13092041015625, 15)]⟩
def sc_f_18 : FRow := ⟨4, [(18, 299730682373047, 13), (16, -147931594848633, 12), (14, 306065368652344, 12), (12, -343851216634115, 12), (10, 226941802978516, 12), (8, -888033142089844, 13), (6, 197340698242188, 13), (4, -222564697265625, 14), (2, 981903076171875, 16), (0, -727335611979167, 18)]⟩
def sc_f_19 : FRow := ⟨4, [(19, 520584869384766, 13), (17, -269757614135742, 12), (15, 591726379394531, 12), (13, -714152526855469, 12), (11, 515776824951172, 12), (9, -226941802978516, 12), (7, 592022094726563, 13), (5, -845745849609375, 14), (3, 556411743164063, 15), (1, -109100341796875, 16)]⟩
def sc_f_20 : FRow := ⟨4, [(20, 91102352142334, 12), (18, -494555625915527, 12), (16, 11464698600769, 10), (14, -147931594848633, 11), (12, 116049785614014, 11), (10, -567354507446289, 12), (8, 170206352233887, 12), (6, -296011047363281, 13), (4, 26429557800293, 13), (2, -927352905273438, 16), (0, 545501708984375, 18)]⟩
def sc_f_21 : FRow := ⟨4, [(21, 160513668060303, 12), (19, -91102352142334, 11), (17, 222550031661987, 11), (15, -305725296020508, 11), (13, 258880290985107, 11), (11, -139259742736816, 11), (9, 472795422871908, 12), (7, -972607727050781, 13), (5, 11100414276123, 12), (3, -587323506673177, 15), (1, 927352905273438, 17)]⟩
def sc_f_22 : FRow := ⟨4, [(22, 284546957015991, 12), (20, -168539351463318, 11), (18, 432736172676086, 11), (16, -630558423042297, 11), (14, 573234930038452, 11), (12, -33654437828064, 10), (10, 127654764175415, 11), (8, -303939914703369, 12), (6, 425515880584717, 13), (4, -308344841003418, 14), (2, 880985260009766, 16), (0, -421524047851563, 18)]⟩
def sc_f_23 : FRow := ⟨4, [(23, 507235879898071, 12), (21, -31300165271759, 10), (19, 842696757316589, 11), (17, -129820851802826, 10), (15, 126111684608459, 10), (13, -802528902053833, 11), (11, 33654437828064, 10), (9, -911819744110107, 12), (7, 151969957351685, 12), (5, -141838626861572, 13), (3, 616689682006836, 15), (1, -800895690917969, 17)]⟩
def sc_f_24 : FRow := ⟨4, [(24, 908797618150711, 12), (22, -583321261882782, 11), (20, 164325867676735, 10), (18, -266853973150253, 10), (16, 275869310081005, 10), (14, -189167526912689, 10), (12, 869406310558319, 11), (10, -264427725791931, 11), (8, 512898606061935, 12), (6, -590994278589884, 13), (4, 354596567153931, 14), (2, -840940475463867, 16), (0, 333706537882487, 18)]⟩
def sc_f_25 : FRow := ⟨4, [(25, 163583571267128, 11), (23, -109055714178085, 10), (21, 32082669403553, 9), (19, -547752892255783, 10), (17, 60042143958807, 9), (15, -441390896129608, 10), (13, 220695448064804, 10), (11, -745205409049988, 11), (9, 165267328619957, 11), (7, -227954936027527, 12), (5, 177298283576965, 13), (3, -644721031188965, 15), (1, 700783729553223, 17)]⟩
def sc_f_26 : FRow := ⟨4, [(26, 295708763444424, 11), (24, -20447946408391, 9), (22, 627070356523991, 10), (20, -112289342912436, 9), (18, 130091311910748, 9), (16, -102071644729972, 9), (14, 55173862016201, 9), (12, -204931487488747, 10), (10, 512328718721867, 11), (8, -826336643099785, 12), (6, 797842276096344, 13), (4, -402950644493103, 14), (2, 805901288986206, 16), (0, -269532203674316, 18)]⟩
def sc_f_27 : FRow := ⟨4, [(27, 53665664476951, 10), (25, -384421392477751, 10), (23, 122687678450346, 9), (21, -22992579739213, 8), (19, 280723357281089, 9), (17, -234164361439347, 9), (15, 136095526306629, 9), (13, -55173862016201, 9), (11, 15369861561656, 9), (9, -284627065956593, 11), (7, 330534657239914, 12), (5, -217593348026276, 13), (3, 671584407488505, 15), (1, -619924068450928, 17)]⟩
def sc_f_28 : FRow := ⟨4, [(28, 977481745830178, 11), (26, -724486470438838, 10), (24, 240263370298594, 9), (22, -470302767392993, 9), (20, 603555218154341, 9), (18, -533374378834069, 9), (16, 331732845372409, 9), (14, -145816635328531, 9), (12, 448287628881633, 10), (10, -939269317656755, 11), (8, 128082179680467, 11), (6, -1051701182127, 10), (4, 453319475054741, 14), (2, -77490508556366, 15), (0, 221401453018188, 18)]⟩
def sc_f_29 : FRow := ⟨4, [(29, 178643215617239, 10), (27, -136847444416225, 9), (25, 470916205785245, 9), (23, -961053481194377, 9), (21, 129333261033073, 8), (19, -120711043630868, 8), (17, 800061568251103, 9), (15, -379123251854181, 9), (13, 127589555912465, 9), (11, -298858419254422, 10), (9, 469634658828378, 11), (7, -465753380656242, 12), (5, 26292529553175, 12), (3, -697414577007294, 15), (1, 553503632545471, 17)]⟩

/-- `f` (`bardell_functions.cpp` lines 123-181). -/
def sc_f : List FRow := [sc_f_0, sc_f_1, sc_f_2, sc_f_3, sc_f_4, sc_f_5, sc_f_6, sc_f_7, sc_f_8, sc_f_9, sc_f_10, sc_f_11, sc_f_12, sc_f_13, sc_f_14, sc_f_15, sc_f_16, sc_f_17, sc_f_18, sc_f_19, sc_f_20, sc_f_21, sc_f_22, sc_f_23, sc_f_24, sc_f_25, sc_f_26, sc_f_27, sc_f_28, sc_f_29]

def sc_fp_0 : FRow := ⟨0, [(2, 75, 2), (0, -75, 2)]⟩
def sc_fp_1 : FRow := ⟨1, [(2, 375, 3), (1, -25, 2), (0, -125, 3)]⟩
def sc_fp_2 : FRow := ⟨2, [(2, -75, 2), (0, 75, 2)]⟩
def sc_fp_3 : FRow := ⟨3, [(2, 375, 3), (1, 25, 2), (0, -125, 3)]⟩
def sc_fp_4 : FRow := ⟨4, [(3, 5, 1), (1, -5, 1)]⟩
def sc_fp_5 : FRow := ⟨4, [(4, 625, 3), (2, -75, 2), (0, 125, 3)]⟩
def sc_fp_6 : FRow := ⟨4, [(5, 875, 3), (3, -125, 2), (1, 375, 3)]⟩
def sc_fp_7 : FRow := ⟨4, [(6, 13125, 4), (4, -21875, 4), (2, 9375, 4), (0, -625, 4)]⟩
def sc_fp_8 : FRow := ⟨4, [(7, 20625, 4), (5, -39375, 4), (3, 21875, 4), (1, -3125, 4)]⟩
def sc_fp_9 : FRow := ⟨4, [(8, 33515625, 7), (6, -721875, 5), (4, 4921875, 6), (2, -109375, 5), (0, 390625, 7)]⟩
def sc_fp_10 : FRow := ⟨4, [(9, 55859375, 7), (7, -1340625, 5), (5, 10828125, 6), (3, -328125, 5), (1, 2734375, 7)]⟩
def sc_fp_11 : FRow := ⟨4, [(10, 949609375, 8), (8, -2513671875, 8), (6, 234609375, 7), (4, -90234375, 7), (2, 123046875, 8), (0, -2734375, 8)]⟩
def sc_fp_12 : FRow := ⟨4, [(11, 1640234375, 8), (9, -4748046875, 8), (7, 502734375, 7), (5, -234609375, 7), (3, 451171875, 8), (1, -24609375, 8)]⟩
def sc_fp_13 : FRow := ⟨4, [(12, 287041015625, 10), (10, -90212890625, 9), (8, 1068310546875, 10), (6, -5865234375, 8), (4, 146630859375, 10), (2, -1353515625, 9), (0, 205078125, 10)]⟩
def sc_fp_14 : FRow := ⟨4, [(13, 507841796875, 10), (11, -172224609375, 9), (9, 2255322265625, 10), (7, -14244140625, 8), (5, 439892578125, 10), (3, -5865234375, 9), (1, 2255859375, 10)]⟩
def sc_fp_15 : FRow := ⟨4, [(14, 9068603515625, 11), (12, -33009716796875, 11), (10, 47361767578125, 11), (8, -33829833984375, 11), (6, 12463623046875, 11), (4, -2199462890625, 11), (2, 146630859375, 11), (0, -1611328125, 11)]⟩
def sc_fp_16 : FRow := ⟨4, [(15, 16323486328125, 11), (13, -63480224609375, 11), (11, 99029150390625, 11), (9, -78936279296875, 11), (7, 33829833984375, 11), (5, -7478173828125, 11), (3, 733154296875, 11), (1, -20947265625, 11)]⟩
def sc_fp_17 : FRow := ⟨4, [(16, 295863189697266, 12), (14, -122426147460938, 11), (12, 206310729980469, 11), (10, -181553442382813, 11), (8, 888033142089844, 12), (6, -236808837890625, 12), (4, 311590576171875, 13), (2, -1571044921875, 12), (0, 13092041015625, 15)]⟩
def sc_fp_18 : FRow := ⟨4, [(17, 539515228271484, 12), (15, -236690551757813, 11), (13, 428491516113281, 11), (11, -412621459960938, 11), (9, 226941802978516, 11), (7, -710426513671875, 12), (5, 118404418945313, 12), (3, -8902587890625, 12), (1, 196380615234375, 15)]⟩
def sc_fp_19 : FRow := ⟨4, [(18, 989111251831055, 12), (16, -458587944030762, 11), (14, 887589569091797, 11), (12, -928398284912109, 11), (10, 567354507446289, 11), (8, -204247622680664, 11), (6, 414415466308594, 12), (4, -422872924804688, 13), (2, 166923522949219, 14), (0, -109100341796875, 16)]⟩
def sc_fp_20 : FRow := ⟨4, [(19, 182204704284668, 11), (17, -890200126647949, 11), (15, 183435177612305, 10), (13, -207104232788086, 10), (11, 139259742736816, 10), (9, -567354507446289, 11), (7, 136165081787109, 11), (5, -177606628417969, 12), (3, 105718231201172, 13), (1, -185470581054688, 15)]⟩
def sc_fp_21 : FRow := ⟨4, [(20, 337078702926636, 11), (18, -173094469070435, 10), (16, 378335053825378, 10), (14, -458587944030762, 10), (12, 33654437828064, 9), (10, -153185717010498, 10), (8, 425515880584717, 11), (6, -680825408935547, 12), (4, 555020713806152, 13), (2, -176197052001953, 14), (0, 927352905273438, 17)]⟩
def sc_fp_22 : FRow := ⟨4, [(21, 626003305435181, 11), (19, -337078702926636, 10), (17, 778925110816956, 10), (15, -100889347686768, 9), (13, 802528902053833, 10), (11, -403853253936768, 10), (9, 127654764175415, 10), (7, -243151931762695, 11), (5, 25530952835083, 11), (3, -123337936401367, 13), (1, 176197052001953, 15)]⟩
def sc_fp_23 : FRow := ⟨4, [(22, 116664252376556, 10), (20, -65730347070694, 9), (18, 160112383890152, 9), (16, -220695448064804, 9), (14, 189167526912689, 9), (12, -104328757266998, 9), (10, 370198816108704, 10), (8, -820637769699097, 11), (6, 106378970146179, 11), (4, -709193134307861, 13), (2, 185006904602051, 14), (0, -800895690917969, 17)]⟩
def sc_fp_24 : FRow := ⟨4, [(23, 218111428356171, 10), (21, -128330677614212, 9), (19, 32865173535347, 8), (17, -480337151670456, 9), (15, 441390896129608, 9), (13, -264834537677765, 9), (11, 104328757266998, 9), (9, -264427725791931, 10), (7, 410318884849548, 11), (5, -354596567153931, 12), (3, 141838626861572, 13), (1, -168188095092773, 15)]⟩
def sc_fp_25 : FRow := ⟨4, [(24, 40895892816782, 9), (22, -250828142609596, 9), (20, 673736057474613, 9), (18, -104073049528599, 8), (16, 102071644729972, 8), (14, -662086344194412, 9), (12, 286904082484245, 9), (10, -819725949954987, 10), (8, 148740595757961, 10), (6, -159568455219269, 11), (4, 886491417884827, 13), (2, -193416309356689, 14), (0, 700783729553223, 17)]⟩
def sc_fp_26 : FRow := ⟨4, [(25, 768842784955502, 10), (23, -490750713801384, 9), (21, 137955478435278, 8), (19, -224578685824871, 8), (17, 234164361439347, 8), (15, -163314631567955, 8), (13, 772434068226814, 9), (11, -245917784986496, 9), (9, 512328718721867, 10), (7, -661069314479828, 11), (5, 478705365657806, 12), (3, -161180257797241, 13), (1, 161180257797241, 15)]⟩
def sc_fp_27 : FRow := ⟨4, [(26, 144897294087768, 9), (24, -961053481194377, 9), (22, 282181660435796, 8), (20, -482844174523473, 8), (18, 533374378834069, 8), (16, -39807941444689, 7), (14, 204143289459944, 8), (12, -717260206210613, 9), (10, 169068477178216, 9), (8, -256164359360933, 10), (6, 23137426006794, 10), (4, -108796674013138, 12), (2, 201475322246552, 14), (0, -619924068450928, 17)]⟩
def sc_fp_28 : FRow := ⟨4, [(27, 27369488883245, 8), (25, -188366482314098, 8), (23, 576632088716626, 8), (21, -103466608826458, 7), (19, 120711043630868, 7), (17, -960073881901324, 8), (15, 530772552595854, 8), (13, -204143289459944, 8), (11, 53794515465796, 8), (9, -939269317656755, 10), (7, 102465743744373, 10), (5, -631020709276199, 12), (3, 181327790021896, 13), (1, -154981017112732, 15)]⟩
def sc_fp_29 : FRow := ⟨4, [(28, 518065325289994, 9), (26, -369488099923807, 8), (24, 117729051446311, 7), (22, -221042300674707, 7), (20, 271599848169453, 7), (18, -22935098289865, 6), (16, 136010466602688, 7), (14, -568684877781272, 8), (12, 165866422686204, 8), (10, -328744261179864, 9), (8, 42267119294554, 9), (6, -32602736645937, 10), (4, 131462647765875, 12), (2, -209224373102188, 14), (0, 553503632545471, 17)]⟩

/-- `fp` (`bardell_functions.cpp` lines 192-250). -/
def sc_fp : List FRow := [sc_fp_0, sc_fp_1, sc_fp_2, sc_fp_3, sc_fp_4, sc_fp_5, sc_fp_6, sc_fp_7, sc_fp_8, sc_fp_9, sc_fp_10, sc_fp_11, sc_fp_12, sc_fp_13, sc_fp_14, sc_fp_15, sc_fp_16, sc_fp_17, sc_fp_18, sc_fp_19, sc_fp_20, sc_fp_21, sc_fp_22, sc_fp_23, sc_fp_24, sc_fp_25, sc_fp_26, sc_fp_27, sc_fp_28, sc_fp_29]

def sc_fpp_0 : FRow := ⟨0, [(1, 15, 1)]⟩
def sc_fpp_1 : FRow := ⟨1, [(1, 75, 2), (0, -25, 2)]⟩
def sc_fpp_2 : FRow := ⟨2, [(1, -15, 1)]⟩
def sc_fpp_3 : FRow := ⟨3, [(1, 75, 2), (0, 25, 2)]⟩
def sc_fpp_4 : FRow := ⟨4, [(2, 15, 1), (0, -5, 1)]⟩
def sc_fpp_5 : FRow := ⟨4, [(3, 25, 1), (1, -15, 1)]⟩
def sc_fpp_6 : FRow := ⟨4, [(4, 4375, 3), (2, -375, 2), (0, 375, 3)]⟩
def sc_fpp_7 : FRow := ⟨4, [(5, 7875, 3), (3, -875, 2), (1, 1875, 3)]⟩
def sc_fpp_8 : FRow := ⟨4, [(6, 144375, 4), (4, -196875, 4), (2, 65625, 4), (0, -3125, 4)]⟩
def sc_fpp_9 : FRow := ⟨4, [(7, 268125, 4), (5, -433125, 4), (3, 196875, 4), (1, -21875, 4)]⟩
def sc_fpp_10 : FRow := ⟨4, [(8, 502734375, 7), (6, -9384375, 5), (4, 54140625, 6), (2, -984375, 5), (0, 2734375, 7)]⟩
def sc_fpp_11 : FRow := ⟨4, [(9, 949609375, 7), (7, -20109375, 5), (5, 140765625, 6), (3, -3609375, 5), (1, 24609375, 7)]⟩
def sc_fpp_12 : FRow := ⟨4, [(10, 18042578125, 8), (8, -42732421875, 8), (6, 3519140625, 7), (4, -1173046875, 7), (2, 1353515625, 8), (0, -24609375, 8)]⟩
def sc_fpp_13 : FRow := ⟨4, [(11, 34444921875, 8), (9, -90212890625, 8), (7, 8546484375, 7), (5, -3519140625, 7), (3, 5865234375, 8), (1, -270703125, 8)]⟩
def sc_fpp_14 : FRow := ⟨4, [(12, 6601943359375, 10), (10, -1894470703125, 9), (8, 20297900390625, 10), (6, -99708984375, 8), (4, 2199462890625, 10), (2, -17595703125, 9), (0, 2255859375, 10)]⟩
def sc_fpp_15 : FRow := ⟨4, [(13, 12696044921875, 10), (11, -3961166015625, 9), (9, 47361767578125, 10), (7, -270638671875, 8), (5, 7478173828125, 10), (3, -87978515625, 9), (1, 29326171875, 10)]⟩
def sc_fpp_16 : FRow := ⟨4, [(14, 244852294921875, 11), (12, -825242919921875, 11), (10, 108932065429688, 10), (8, -710426513671875, 11), (6, 236808837890625, 11), (4, -37390869140625, 11), (2, 2199462890625, 11), (0, -20947265625, 11)]⟩
def sc_fpp_17 : FRow := ⟨4, [(15, 473381103515625, 11), (13, -171396606445313, 10), (11, 247572875976563, 10), (9, -181553442382813, 10), (7, 710426513671875, 11), (5, -142085302734375, 11), (3, 12463623046875, 11), (1, -314208984375, 11)]⟩
def sc_fpp_18 : FRow := ⟨4, [(16, 917175888061523, 11), (14, -355035827636719, 10), (12, 557038970947266, 10), (10, -453883605957031, 10), (8, 204247622680664, 10), (6, -497298559570313, 11), (4, 592022094726563, 12), (2, -26707763671875, 12), (0, 196380615234375, 15)]⟩
def sc_fpp_19 : FRow := ⟨4, [(17, 17804002532959, 9), (15, -733740710449219, 10), (13, 124262539672852, 9), (11, -111407794189453, 9), (9, 567354507446289, 10), (7, -163398098144531, 10), (5, 248649279785156, 11), (3, -169149169921875, 12), (1, 333847045898438, 14)]⟩
def sc_fpp_20 : FRow := ⟨4, [(18, 346188938140869, 10), (16, -151334021530151, 9), (14, 275152766418457, 9), (12, -269235502624512, 9), (10, 153185717010498, 9), (8, -51061905670166, 9), (6, 953155572509766, 11), (4, -888033142089844, 12), (2, 317154693603516, 13), (0, -185470581054688, 15)]⟩
def sc_fpp_21 : FRow := ⟨4, [(19, 674157405853271, 10), (17, -311570044326782, 9), (15, 605336086120605, 9), (13, -642023121643066, 9), (11, 403853253936768, 9), (9, -153185717010498, 9), (7, 340412704467773, 10), (5, -408495245361328, 11), (3, 222008285522461, 12), (1, -352394104003906, 14)]⟩
def sc_fpp_22 : FRow := ⟨4, [(20, 131460694141388, 9), (18, -640449535560608, 9), (16, 132417268838882, 8), (14, -151334021530151, 8), (12, 104328757266998, 8), (10, -444238579330444, 9), (8, 114889287757874, 9), (6, -170206352233887, 10), (4, 127654764175415, 11), (2, -370013809204102, 13), (0, 176197052001953, 15)]⟩
def sc_fpp_23 : FRow := ⟨4, [(21, 256661355228424, 9), (19, -131460694141388, 8), (17, 288202291002274, 8), (15, -353112716903687, 8), (13, 264834537677765, 8), (11, -125194508720398, 8), (9, 370198816108704, 9), (7, -656510215759277, 10), (5, 638273820877075, 11), (3, -283677253723145, 12), (1, 370013809204102, 14)]⟩
def sc_fpp_24 : FRow := ⟨4, [(22, 501656285219193, 9), (20, -269494422989845, 8), (18, 624438297171593, 8), (16, -816573157839775, 8), (14, 662086344194412, 8), (12, -344284898981094, 8), (10, 114761632993698, 8), (8, -237984953212738, 9), (6, 287223219394684, 10), (4, -177298283576965, 11), (2, 425515880584717, 13), (0, -168188095092773, 15)]⟩
def sc_fpp_25 : FRow := ⟨4, [(23, 981501427602768, 9), (21, -551821913741112, 8), (19, 134747211494923, 7), (17, -187331489151478, 7), (15, 163314631567955, 7), (13, -926920881872177, 8), (11, 344284898981094, 8), (9, -819725949954987, 9), (7, 118992476606369, 9), (5, -957410731315613, 11), (3, 354596567153931, 12), (1, -386832618713379, 14)]⟩
def sc_fpp_26 : FRow := ⟨4, [(24, 192210696238875, 8), (22, -112872664174318, 7), (20, 289706504714084, 7), (18, -426699503067255, 7), (16, 39807941444689, 6), (14, -244971947351933, 7), (12, 100416428869486, 7), (10, -270509563485146, 8), (8, 46109584684968, 8), (6, -46274852013588, 9), (4, 239352682828903, 11), (2, -483540773391724, 13), (0, 161180257797241, 15)]⟩
def sc_fpp_27 : FRow := ⟨4, [(25, 376732964628196, 8), (23, -23065283548665, 6), (21, 620799652958751, 7), (19, -965688349046946, 7), (17, 960073881901324, 7), (15, -636927063115025, 7), (13, 285800605243921, 7), (11, -860712247452736, 8), (9, 169068477178216, 8), (7, -204931487488747, 9), (5, 138824556040764, 10), (3, -435186696052551, 12), (1, 402950644493103, 14)]⟩
def sc_fpp_28 : FRow := ⟨4, [(26, 738976199847615, 8), (24, -470916205785245, 7), (22, 132625380404824, 6), (20, -217279878535563, 6), (18, 22935098289865, 5), (16, -163212559923225, 6), (14, 796158828893781, 7), (12, -265386276297927, 7), (10, 591739670123756, 8), (8, -84534238589108, 8), (6, 717260206210613, 10), (4, -3155103546381, 9), (2, 543983370065689, 13), (0, -154981017112732, 15)]⟩
def sc_fpp_29 : FRow := ⟨4, [(27, 145058291081198, 7), (25, -960669059801899, 7), (23, 282549723471147, 6), (21, -486293061484355, 6), (19, 543199696338907, 6), (17, -412831769217569, 6), (15, 2176167465643, 4), (13, -796158828893781, 7), (11, 199039707223445, 7), (9, -328744261179864, 8), (7, 338136954356432, 9), (5, -195616419875622, 10), (3, 525850591063499, 12), (1, -418448746204376, 14)]⟩

/-- `fpp` (`bardell_functions.cpp` lines 261-319). -/
def sc_fpp : List FRow := [sc_fpp_0, sc_fpp_1, sc_fpp_2, sc_fpp_3, sc_fpp_4, sc_fpp_5, sc_fpp_6, sc_fpp_7, sc_fpp_8, sc_fpp_9, sc_fpp_10, sc_fpp_11, sc_fpp_12, sc_fpp_13, sc_fpp_14, sc_fpp_15, sc_fpp_16, sc_fpp_17, sc_fpp_18, sc_fpp_19, sc_fpp_20, sc_fpp_21, sc_fpp_22, sc_fpp_23, sc_fpp_24, sc_fpp_25, sc_fpp_26, sc_fpp_27, sc_fpp_28, sc_fpp_29]

end Verif.Gen
