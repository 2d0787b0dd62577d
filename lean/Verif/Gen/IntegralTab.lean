import Verif.Model.TableTypes

/-!
# Tables of `panels/core/src/bardell.cpp`

Generated by `tools/tables.py`.  `(z, e)` stands for the printed decimal `z / 10^e`.
-/

namespace Verif.Gen

def i_ff_0 : List IEntry := [⟨0, 742857142857143, 15, 0, 0⟩, ⟨1, 104761904761905, 15, 0, 1⟩, ⟨2, 257142857142857, 15, 0, 2⟩, ⟨3, -619047619047619, 16, 0, 3⟩, ⟨4, 666666666666667, 16, 0, 4⟩, ⟨5, -126984126984127, 16, 0, 4⟩, ⟨7, 288600288600289, 18, 0, 4⟩]
def i_ff_1 : List IEntry := [⟨0, 104761904761905, 15, 1, 0⟩, ⟨1, 19047619047619, 15, 1, 1⟩, ⟨2, 619047619047619, 16, 1, 2⟩, ⟨3, -142857142857143, 16, 1, 3⟩, ⟨4, 142857142857143, 16, 1, 4⟩, ⟨5, -158730158730159, 17, 1, 4⟩, ⟨6, -529100529100529, 18, 1, 4⟩, ⟨7, 144300144300144, 18, 1, 4⟩]
def i_ff_2 : List IEntry := [⟨0, 257142857142857, 15, 2, 0⟩, ⟨1, 619047619047619, 16, 2, 1⟩, ⟨2, 742857142857143, 15, 2, 2⟩, ⟨3, -104761904761905, 15, 2, 3⟩, ⟨4, 666666666666667, 16, 2, 4⟩, ⟨5, 126984126984127, 16, 2, 4⟩, ⟨7, -288600288600289, 18, 2, 4⟩]
def i_ff_3 : List IEntry := [⟨0, -619047619047619, 16, 3, 0⟩, ⟨1, -142857142857143, 16, 3, 1⟩, ⟨2, -104761904761905, 15, 3, 2⟩, ⟨3, 19047619047619, 15, 3, 3⟩, ⟨4, -142857142857143, 16, 3, 4⟩, ⟨5, -158730158730159, 17, 3, 4⟩, ⟨6, 529100529100529, 18, 3, 4⟩, ⟨7, 144300144300144, 18, 3, 4⟩]
def i_ff_4 : List IEntry := [⟨0, 666666666666667, 16, 4, 0⟩, ⟨1, 142857142857143, 16, 4, 1⟩, ⟨2, 666666666666667, 16, 4, 2⟩, ⟨3, -142857142857143, 16, 4, 3⟩, ⟨4, 126984126984127, 16, 4, 4⟩, ⟨6, -76960076960077, 17, 4, 4⟩, ⟨8, 444000444000444, 19, 4, 4⟩]
def i_ff_5 : List IEntry := [⟨0, -126984126984127, 16, 4, 0⟩, ⟨1, -158730158730159, 17, 4, 1⟩, ⟨2, 126984126984127, 16, 4, 2⟩, ⟨3, -158730158730159, 17, 4, 3⟩, ⟨5, 115440115440115, 17, 4, 4⟩, ⟨7, -177600177600178, 18, 4, 4⟩, ⟨9, 148000148000148, 19, 4, 4⟩]
def i_ff_6 : List IEntry := [⟨1, -529100529100529, 18, 4, 1⟩, ⟨3, 529100529100529, 18, 4, 3⟩, ⟨4, -76960076960077, 17, 4, 4⟩, ⟨6, 266400266400266, 18, 4, 4⟩, ⟨8, -592000592000592, 19, 4, 4⟩, ⟨10, 609412374118256, 20, 4, 4⟩]
def i_ff_7 : List IEntry := [⟨0, 288600288600289, 18, 4, 0⟩, ⟨1, 144300144300144, 18, 4, 1⟩, ⟨2, -288600288600289, 18, 4, 2⟩, ⟨3, 144300144300144, 18, 4, 3⟩, ⟨5, -177600177600178, 18, 4, 4⟩, ⟨7, 888000888000888, 19, 4, 4⟩, ⟨9, -243764949647303, 19, 4, 4⟩, ⟨11, 288669019319174, 20, 4, 4⟩]
def i_ff_8 : List IEntry := [⟨4, 444000444000444, 19, 4, 4⟩, ⟨6, -592000592000592, 19, 4, 4⟩, ⟨8, 365647424470954, 19, 4, 4⟩, ⟨10, -11546760772767, 18, 4, 4⟩, ⟨12, 151207581548139, 20, 4, 4⟩]
def i_ff_9 : List IEntry := [⟨5, 148000148000148, 19, 4, 4⟩, ⟨7, -243764949647303, 19, 4, 4⟩, ⟨9, 173201411591504, 19, 4, 4⟩, ⟨11, -604830326192555, 20, 4, 4⟩, ⟨13, 854651547880785, 21, 4, 4⟩]
def i_ff_10 : List IEntry := [⟨6, 609412374118256, 20, 4, 4⟩, ⟨8, -11546760772767, 18, 4, 4⟩, ⟨10, 907245489288833, 20, 4, 4⟩, ⟨12, -341860619152314, 20, 4, 4⟩, ⟨14, 512790928728471, 21, 4, 4⟩]
def i_ff_11 : List IEntry := [⟨7, 288669019319174, 20, 4, 4⟩, ⟨9, -604830326192555, 20, 4, 4⟩, ⟨11, 512790928728471, 20, 4, 4⟩, ⟨13, -205116371491388, 20, 4, 4⟩, ⟨15, 322868362532741, 21, 4, 4⟩]
def i_ff_12 : List IEntry := [⟨8, 151207581548139, 20, 4, 4⟩, ⟨10, -341860619152314, 20, 4, 4⟩, ⟨12, 307674557237082, 20, 4, 4⟩, ⟨14, -129147345013096, 20, 4, 4⟩, ⟨16, 211534444418003, 21, 4, 4⟩]
def i_ff_13 : List IEntry := [⟨9, 854651547880785, 21, 4, 4⟩, ⟨11, -205116371491388, 20, 4, 4⟩, ⟨13, 193721017519645, 20, 4, 4⟩, ⟨15, -846137777672011, 21, 4, 4⟩, ⟨17, 143297526863808, 21, 4, 4⟩]
def i_ff_14 : List IEntry := [⟨10, 512790928728471, 21, 4, 4⟩, ⟨12, -129147345013096, 20, 4, 4⟩, ⟨14, 126920666650802, 20, 4, 4⟩, ⟨16, -573190107455233, 21, 4, 4⟩, ⟨18, 998740338747754, 22, 4, 4⟩]
def i_ff_15 : List IEntry := [⟨11, 322868362532741, 21, 4, 4⟩, ⟨13, -846137777672011, 21, 4, 4⟩, ⟨15, 859785161182849, 21, 4, 4⟩, ⟨17, -399496135499102, 21, 4, 4⟩, ⟨19, 713385956248396, 22, 4, 4⟩]
def i_ff_16 : List IEntry := [⟨12, 211534444418003, 21, 4, 4⟩, ⟨14, -573190107455233, 21, 4, 4⟩, ⟨16, 599244203248653, 21, 4, 4⟩, ⟨18, -285354382499358, 21, 4, 4⟩, ⟨20, 520578941046127, 22, 4, 4⟩]
def i_ff_17 : List IEntry := [⟨13, 143297526863808, 21, 4, 4⟩, ⟨15, -399496135499102, 21, 4, 4⟩, ⟨17, 428031573749038, 21, 4, 4⟩, ⟨19, -208231576418451, 21, 4, 4⟩, ⟨21, 38709716129071, 21, 4, 4⟩]
def i_ff_18 : List IEntry := [⟨14, 998740338747754, 22, 4, 4⟩, ⟨16, -285354382499358, 21, 4, 4⟩, ⟨18, 312347364627676, 21, 4, 4⟩, ⟨20, -154838864516284, 21, 4, 4⟩, ⟨22, 292683219512488, 22, 4, 4⟩]
def i_ff_19 : List IEntry := [⟨15, 713385956248396, 22, 4, 4⟩, ⟨17, -208231576418451, 21, 4, 4⟩, ⟨19, 232258296774426, 21, 4, 4⟩, ⟨21, -117073287804995, 21, 4, 4⟩, ⟨23, 224617354509584, 22, 4, 4⟩]
def i_ff_20 : List IEntry := [⟨16, 520578941046127, 22, 4, 4⟩, ⟨18, -154838864516284, 21, 4, 4⟩, ⟨20, 175609931707493, 21, 4, 4⟩, ⟨22, -898469418038335, 22, 4, 4⟩, ⟨24, 174702386840787, 22, 4, 4⟩]
def i_ff_21 : List IEntry := [⟨17, 38709716129071, 21, 4, 4⟩, ⟨19, -117073287804995, 21, 4, 4⟩, ⟨21, 13477041270575, 20, 4, 4⟩, ⟨23, -698809547363149, 22, 4, 4⟩, ⟨25, 137531666236364, 22, 4, 4⟩]
def i_ff_22 : List IEntry := [⟨18, 292683219512488, 22, 4, 4⟩, ⟨20, -898469418038335, 22, 4, 4⟩, ⟨22, 104821432104472, 21, 4, 4⟩, ⟨24, -550126664945458, 22, 4, 4⟩, ⟨26, 109463979249351, 22, 4, 4⟩]
def i_ff_23 : List IEntry := [⟨19, 224617354509584, 22, 4, 4⟩, ⟨21, -698809547363149, 22, 4, 4⟩, ⟨23, 825189997418187, 22, 4, 4⟩, ⟨25, -437855916997405, 22, 4, 4⟩, ⟨27, 880004539063412, 23, 4, 4⟩]
def i_ff_24 : List IEntry := [⟨20, 174702386840787, 22, 4, 4⟩, ⟨22, -550126664945458, 22, 4, 4⟩, ⟨24, 656783875496108, 22, 4, 4⟩, ⟨26, -352001815625365, 22, 4, 4⟩, ⟨28, 713965946787297, 23, 4, 4⟩]
def i_ff_25 : List IEntry := [⟨21, 137531666236364, 22, 4, 4⟩, ⟨23, -437855916997405, 22, 4, 4⟩, ⟨25, 528002723438047, 22, 4, 4⟩, ⟨27, -285586378714919, 22, 4, 4⟩, ⟨29, 584153956462334, 23, 4, 4⟩]
def i_ff_26 : List IEntry := [⟨22, 109463979249351, 22, 4, 4⟩, ⟨24, -352001815625365, 22, 4, 4⟩, ⟨26, 428379568072378, 22, 4, 4⟩, ⟨28, -233661582584934, 22, 4, 4⟩]
def i_ff_27 : List IEntry := [⟨23, 880004539063412, 23, 4, 4⟩, ⟨25, -285586378714919, 22, 4, 4⟩, ⟨27, 3504923738774, 20, 4, 4⟩, ⟨29, -192668322482314, 22, 4, 4⟩]
def i_ff_28 : List IEntry := [⟨24, 713965946787297, 23, 4, 4⟩, ⟨26, -233661582584934, 22, 4, 4⟩, ⟨28, 28900248372347, 21, 4, 4⟩]
def i_ff_29 : List IEntry := [⟨25, 584153956462334, 23, 4, 4⟩, ⟨27, -192668322482314, 22, 4, 4⟩, ⟨29, 240019011905933, 22, 4, 4⟩]

/-- `integral_ff` (`bardell.cpp` lines 16-488). -/
def i_ff : List (List IEntry) := [i_ff_0, i_ff_1, i_ff_2, i_ff_3, i_ff_4, i_ff_5, i_ff_6, i_ff_7, i_ff_8, i_ff_9, i_ff_10, i_ff_11, i_ff_12, i_ff_13, i_ff_14, i_ff_15, i_ff_16, i_ff_17, i_ff_18, i_ff_19, i_ff_20, i_ff_21, i_ff_22, i_ff_23, i_ff_24, i_ff_25, i_ff_26, i_ff_27, i_ff_28, i_ff_29]

def i_ffp_0 : List IEntry := [⟨0, -5, 1, 0, 0⟩, ⟨1, 1, 1, 0, 1⟩, ⟨2, 5, 1, 0, 2⟩, ⟨3, -1, 1, 0, 3⟩, ⟨4, 857142857142857, 16, 0, 4⟩, ⟨6, -317460317460317, 17, 0, 4⟩]
def i_ffp_1 : List IEntry := [⟨0, -1, 1, 1, 0⟩, ⟨2, 1, 1, 1, 2⟩, ⟨3, -166666666666667, 16, 1, 3⟩, ⟨4, 952380952380952, 17, 1, 4⟩, ⟨5, 476190476190476, 17, 1, 4⟩, ⟨6, -158730158730159, 17, 1, 4⟩]
def i_ffp_2 : List IEntry := [⟨0, -5, 1, 2, 0⟩, ⟨1, -1, 1, 2, 1⟩, ⟨2, 5, 1, 2, 2⟩, ⟨3, 1, 1, 2, 3⟩, ⟨4, -857142857142857, 16, 2, 4⟩, ⟨6, 317460317460317, 17, 2, 4⟩]
def i_ffp_3 : List IEntry := [⟨0, 1, 1, 3, 0⟩, ⟨1, 166666666666667, 16, 3, 1⟩, ⟨2, -1, 1, 3, 2⟩, ⟨4, 952380952380952, 17, 3, 4⟩, ⟨5, -476190476190476, 17, 3, 4⟩, ⟨6, -158730158730159, 17, 3, 4⟩]
def i_ffp_4 : List IEntry := [⟨0, -857142857142857, 16, 4, 0⟩, ⟨1, -952380952380952, 17, 4, 1⟩, ⟨2, 857142857142857, 16, 4, 2⟩, ⟨3, -952380952380952, 17, 4, 3⟩, ⟨5, 634920634920635, 17, 4, 4⟩, ⟨7, -577200577200577, 18, 4, 4⟩]
def i_ffp_5 : List IEntry := [⟨1, -476190476190476, 17, 4, 1⟩, ⟨3, 476190476190476, 17, 4, 3⟩, ⟨4, -634920634920635, 17, 4, 4⟩, ⟨6, 173160173160173, 17, 4, 4⟩, ⟨8, -222000222000222, 18, 4, 4⟩]
def i_ffp_6 : List IEntry := [⟨0, 317460317460317, 17, 4, 0⟩, ⟨1, 158730158730159, 17, 4, 1⟩, ⟨2, -317460317460317, 17, 4, 2⟩, ⟨3, 158730158730159, 17, 4, 3⟩, ⟨5, -173160173160173, 17, 4, 4⟩, ⟨7, 666000666000666, 18, 4, 4⟩, ⟨9, -103600103600104, 18, 4, 4⟩]
def i_ffp_7 : List IEntry := [⟨4, 577200577200577, 18, 4, 4⟩, ⟨6, -666000666000666, 18, 4, 4⟩, ⟨8, 310800310800311, 18, 4, 4⟩, ⟨10, -548471136706431, 19, 4, 4⟩]
def i_ffp_8 : List IEntry := [⟨5, 222000222000222, 18, 4, 4⟩, ⟨7, -310800310800311, 18, 4, 4⟩, ⟨9, 164541341011929, 18, 4, 4⟩, ⟨11, -317535921251092, 19, 4, 4⟩]
def i_ffp_9 : List IEntry := [⟨6, 103600103600104, 18, 4, 4⟩, ⟨8, -164541341011929, 18, 4, 4⟩, ⟨10, 952607763753275, 19, 4, 4⟩, ⟨12, -19656985601258, 18, 4, 4⟩]
def i_ffp_10 : List IEntry := [⟨7, 548471136706431, 19, 4, 4⟩, ⟨9, -952607763753275, 19, 4, 4⟩, ⟨11, 589709568037741, 19, 4, 4⟩, ⟨13, -128197732182118, 19, 4, 4⟩]
def i_ffp_11 : List IEntry := [⟨8, 317535921251092, 19, 4, 4⟩, ⟨10, -589709568037741, 19, 4, 4⟩, ⟨12, 384593196546353, 19, 4, 4⟩, ⟨14, -8717445788384, 18, 4, 4⟩]
def i_ffp_12 : List IEntry := [⟨9, 19656985601258, 18, 4, 4⟩, ⟨11, -384593196546353, 19, 4, 4⟩, ⟨13, 26152337365152, 18, 4, 4⟩, ⟨15, -613449888812208, 20, 4, 4⟩]
def i_ffp_13 : List IEntry := [⟨10, 128197732182118, 19, 4, 4⟩, ⟨12, -26152337365152, 18, 4, 4⟩, ⟨14, 184034966643662, 19, 4, 4⟩, ⟨16, -444222333277806, 20, 4, 4⟩]
def i_ffp_14 : List IEntry := [⟨11, 8717445788384, 18, 4, 4⟩, ⟨13, -184034966643662, 19, 4, 4⟩, ⟨15, 133266699983342, 19, 4, 4⟩, ⟨17, -329584311786759, 20, 4, 4⟩]
def i_ffp_15 : List IEntry := [⟨12, 613449888812208, 20, 4, 4⟩, ⟨14, -133266699983342, 19, 4, 4⟩, ⟨16, 988752935360277, 20, 4, 4⟩, ⟨18, -249685084686939, 20, 4, 4⟩]
def i_ffp_16 : List IEntry := [⟨13, 444222333277806, 20, 4, 4⟩, ⟨15, -988752935360277, 20, 4, 4⟩, ⟨17, 749055254060816, 20, 4, 4⟩, ⟨19, -192614208187067, 20, 4, 4⟩]
def i_ffp_17 : List IEntry := [⟨14, 329584311786759, 20, 4, 4⟩, ⟨16, -749055254060816, 20, 4, 4⟩, ⟨18, 577842624561201, 20, 4, 4⟩, ⟨20, -150967892903377, 20, 4, 4⟩]
def i_ffp_18 : List IEntry := [⟨15, 249685084686939, 20, 4, 4⟩, ⟨17, -577842624561201, 20, 4, 4⟩, ⟨19, 45290367871013, 19, 4, 4⟩, ⟨21, -12000012000012, 19, 4, 4⟩]
def i_ffp_19 : List IEntry := [⟨16, 192614208187067, 20, 4, 4⟩, ⟨18, -45290367871013, 19, 4, 4⟩, ⟨20, 36000036000036, 19, 4, 4⟩, ⟨22, -96585462439121, 20, 4, 4⟩]
def i_ffp_20 : List IEntry := [⟨17, 150967892903377, 20, 4, 4⟩, ⟨19, -36000036000036, 19, 4, 4⟩, ⟨21, 289756387317363, 20, 4, 4⟩, ⟨23, -786160740783543, 21, 4, 4⟩]
def i_ffp_21 : List IEntry := [⟨18, 12000012000012, 19, 4, 4⟩, ⟨20, -289756387317363, 20, 4, 4⟩, ⟨22, 235848222235063, 20, 4, 4⟩, ⟨24, -646398831310913, 21, 4, 4⟩]
def i_ffp_22 : List IEntry := [⟨19, 96585462439121, 20, 4, 4⟩, ⟨21, -235848222235063, 20, 4, 4⟩, ⟨23, 193919649393274, 20, 4, 4⟩, ⟨25, -536373498321821, 21, 4, 4⟩]
def i_ffp_23 : List IEntry := [⟨20, 786160740783543, 21, 4, 4⟩, ⟨22, -193919649393274, 20, 4, 4⟩, ⟨24, 160912049496546, 20, 4, 4⟩, ⟨26, -44880231492234, 20, 4, 4⟩]
def i_ffp_24 : List IEntry := [⟨21, 646398831310913, 21, 4, 4⟩, ⟨23, -160912049496546, 20, 4, 4⟩, ⟨25, 134640694476702, 20, 4, 4⟩, ⟨27, -378401951797267, 21, 4, 4⟩]
def i_ffp_25 : List IEntry := [⟨22, 536373498321821, 21, 4, 4⟩, ⟨24, -134640694476702, 20, 4, 4⟩, ⟨26, 11352058553918, 19, 4, 4⟩, ⟨28, -321284676054284, 21, 4, 4⟩]
def i_ffp_26 : List IEntry := [⟨23, 44880231492234, 20, 4, 4⟩, ⟨25, -11352058553918, 19, 4, 4⟩, ⟨27, 963854028162851, 21, 4, 4⟩, ⟨29, -274552359537297, 21, 4, 4⟩]
def i_ffp_27 : List IEntry := [⟨24, 378401951797267, 21, 4, 4⟩, ⟨26, -963854028162851, 21, 4, 4⟩, ⟨28, 823657078611891, 21, 4, 4⟩]
def i_ffp_28 : List IEntry := [⟨25, 321284676054284, 21, 4, 4⟩, ⟨27, -823657078611891, 21, 4, 4⟩, ⟨29, 708056085122503, 21, 4, 4⟩]
def i_ffp_29 : List IEntry := [⟨26, 274552359537297, 21, 4, 4⟩, ⟨28, -708056085122503, 21, 4, 4⟩]

/-- `integral_ffp` (`bardell.cpp` lines 498-906). -/
def i_ffp : List (List IEntry) := [i_ffp_0, i_ffp_1, i_ffp_2, i_ffp_3, i_ffp_4, i_ffp_5, i_ffp_6, i_ffp_7, i_ffp_8, i_ffp_9, i_ffp_10, i_ffp_11, i_ffp_12, i_ffp_13, i_ffp_14, i_ffp_15, i_ffp_16, i_ffp_17, i_ffp_18, i_ffp_19, i_ffp_20, i_ffp_21, i_ffp_22, i_ffp_23, i_ffp_24, i_ffp_25, i_ffp_26, i_ffp_27, i_ffp_28, i_ffp_29]

def i_ffpp_0 : List IEntry := [⟨0, -6, 1, 0, 0⟩, ⟨1, -55, 2, 0, 1⟩, ⟨2, 6, 1, 0, 2⟩, ⟨3, -5, 2, 0, 3⟩, ⟨5, 285714285714286, 16, 0, 4⟩]
def i_ffpp_1 : List IEntry := [⟨0, -5, 2, 1, 0⟩, ⟨1, -666666666666667, 16, 1, 1⟩, ⟨2, 5, 2, 1, 2⟩, ⟨3, 166666666666667, 16, 1, 3⟩, ⟨4, -333333333333333, 16, 1, 4⟩, ⟨5, 142857142857143, 16, 1, 4⟩]
def i_ffpp_2 : List IEntry := [⟨0, 6, 1, 2, 0⟩, ⟨1, 5, 2, 2, 1⟩, ⟨2, -6, 1, 2, 2⟩, ⟨3, 55, 2, 2, 3⟩, ⟨5, -285714285714286, 16, 2, 4⟩]
def i_ffpp_3 : List IEntry := [⟨0, -5, 2, 3, 0⟩, ⟨1, 166666666666667, 16, 3, 1⟩, ⟨2, 5, 2, 3, 2⟩, ⟨3, -666666666666667, 16, 3, 3⟩, ⟨4, 333333333333333, 16, 3, 4⟩, ⟨5, 142857142857143, 16, 3, 4⟩]
def i_ffpp_4 : List IEntry := [⟨1, -333333333333333, 16, 4, 1⟩, ⟨3, 333333333333333, 16, 4, 3⟩, ⟨4, -380952380952381, 16, 4, 4⟩, ⟨6, 634920634920635, 17, 4, 4⟩]
def i_ffpp_5 : List IEntry := [⟨0, 285714285714286, 16, 4, 0⟩, ⟨1, 142857142857143, 16, 4, 1⟩, ⟨2, -285714285714286, 16, 4, 2⟩, ⟨3, 142857142857143, 16, 4, 3⟩, ⟨5, -126984126984127, 16, 4, 4⟩, ⟨7, 288600288600289, 17, 4, 4⟩]
def i_ffpp_6 : List IEntry := [⟨4, 634920634920635, 17, 4, 4⟩, ⟨6, -577200577200577, 17, 4, 4⟩, ⟨8, 155400155400155, 17, 4, 4⟩]
def i_ffpp_7 : List IEntry := [⟨5, 288600288600289, 17, 4, 4⟩, ⟨7, -310800310800311, 17, 4, 4⟩, ⟨9, 932400932400932, 18, 4, 4⟩]
def i_ffpp_8 : List IEntry := [⟨6, 155400155400155, 17, 4, 4⟩, ⟨8, -186480186480186, 17, 4, 4⟩, ⟨10, 603318250377074, 18, 4, 4⟩]
def i_ffpp_9 : List IEntry := [⟨7, 932400932400932, 18, 4, 4⟩, ⟨9, -120663650075415, 17, 4, 4⟩, ⟨11, 412796697626419, 18, 4, 4⟩]
def i_ffpp_10 : List IEntry := [⟨8, 603318250377074, 18, 4, 4⟩, ⟨10, -825593395252838, 18, 4, 4⟩, ⟨12, 294854784018871, 18, 4, 4⟩]
def i_ffpp_11 : List IEntry := [⟨9, 412796697626419, 18, 4, 4⟩, ⟨11, -589709568037741, 18, 4, 4⟩, ⟨13, 2179361447096, 16, 4, 4⟩]
def i_ffpp_12 : List IEntry := [⟨10, 294854784018871, 18, 4, 4⟩, ⟨12, -4358722894192, 16, 4, 4⟩, ⟨14, 165631469979296, 18, 4, 4⟩]
def i_ffpp_13 : List IEntry := [⟨11, 2179361447096, 16, 4, 4⟩, ⟨13, -331262939958592, 18, 4, 4⟩, ⟨15, 128824476650564, 18, 4, 4⟩]
def i_ffpp_14 : List IEntry := [⟨12, 165631469979296, 18, 4, 4⟩, ⟨14, -257648953301127, 18, 4, 4⟩, ⟨16, 102171136653895, 18, 4, 4⟩]
def i_ffpp_15 : List IEntry := [⟨13, 128824476650564, 18, 4, 4⟩, ⟨15, -204342273307791, 18, 4, 4⟩, ⟨17, 823960779466897, 19, 4, 4⟩]
def i_ffpp_16 : List IEntry := [⟨14, 102171136653895, 18, 4, 4⟩, ⟨16, -164792155893379, 18, 4, 4⟩, ⟨18, 674149728654734, 19, 4, 4⟩]
def i_ffpp_17 : List IEntry := [⟨15, 823960779466897, 19, 4, 4⟩, ⟨17, -134829945730947, 18, 4, 4⟩, ⟨19, 558581203742494, 19, 4, 4⟩]
def i_ffpp_18 : List IEntry := [⟨16, 674149728654734, 19, 4, 4⟩, ⟨18, -111716240748499, 18, 4, 4⟩, ⟨20, 468000468000468, 19, 4, 4⟩]
def i_ffpp_19 : List IEntry := [⟨17, 558581203742494, 19, 4, 4⟩, ⟨19, -936000936000936, 19, 4, 4⟩, ⟨21, 396000396000396, 19, 4, 4⟩]
def i_ffpp_20 : List IEntry := [⟨18, 468000468000468, 19, 4, 4⟩, ⟨20, -792000792000792, 19, 4, 4⟩, ⟨22, 338049118536923, 19, 4, 4⟩]
def i_ffpp_21 : List IEntry := [⟨19, 396000396000396, 19, 4, 4⟩, ⟨21, -676098237073847, 19, 4, 4⟩, ⟨23, 290879474089911, 19, 4, 4⟩]
def i_ffpp_22 : List IEntry := [⟨20, 338049118536923, 19, 4, 4⟩, ⟨22, -581758948179822, 19, 4, 4⟩, ⟨24, 252095544211256, 19, 4, 4⟩]
def i_ffpp_23 : List IEntry := [⟨21, 290879474089911, 19, 4, 4⟩, ⟨23, -504191088422512, 19, 4, 4⟩, ⟨25, 219913134311947, 19, 4, 4⟩]
def i_ffpp_24 : List IEntry := [⟨22, 252095544211256, 19, 4, 4⟩, ⟨24, -439826268623894, 19, 4, 4⟩, ⟨26, 192984995416606, 19, 4, 4⟩]
def i_ffpp_25 : List IEntry := [⟨23, 219913134311947, 19, 4, 4⟩, ⟨25, -385969990833213, 19, 4, 4⟩, ⟨27, 17028087830877, 18, 4, 4⟩]
def i_ffpp_26 : List IEntry := [⟨24, 192984995416606, 19, 4, 4⟩, ⟨26, -340561756617541, 19, 4, 4⟩, ⟨28, 151003797745513, 19, 4, 4⟩]
def i_ffpp_27 : List IEntry := [⟨25, 17028087830877, 18, 4, 4⟩, ⟨27, -302007595491027, 19, 4, 4⟩, ⟨29, 134530656173275, 19, 4, 4⟩]
def i_ffpp_28 : List IEntry := [⟨26, 151003797745513, 19, 4, 4⟩, ⟨28, -269061312346551, 19, 4, 4⟩]
def i_ffpp_29 : List IEntry := [⟨27, 134530656173275, 19, 4, 4⟩, ⟨29, -240739068941651, 19, 4, 4⟩]

/-- `integral_ffpp` (`bardell.cpp` lines 916-1268). -/
def i_ffpp : List (List IEntry) := [i_ffpp_0, i_ffpp_1, i_ffpp_2, i_ffpp_3, i_ffpp_4, i_ffpp_5, i_ffpp_6, i_ffpp_7, i_ffpp_8, i_ffpp_9, i_ffpp_10, i_ffpp_11, i_ffpp_12, i_ffpp_13, i_ffpp_14, i_ffpp_15, i_ffpp_16, i_ffpp_17, i_ffpp_18, i_ffpp_19, i_ffpp_20, i_ffpp_21, i_ffpp_22, i_ffpp_23, i_ffpp_24, i_ffpp_25, i_ffpp_26, i_ffpp_27, i_ffpp_28, i_ffpp_29]

def i_fpfp_0 : List IEntry := [⟨0, 6, 1, 0, 0⟩, ⟨1, 5, 2, 0, 1⟩, ⟨2, -6, 1, 0, 2⟩, ⟨3, 5, 2, 0, 3⟩, ⟨5, -285714285714286, 16, 0, 4⟩]
def i_fpfp_1 : List IEntry := [⟨0, 5, 2, 1, 0⟩, ⟨1, 666666666666667, 16, 1, 1⟩, ⟨2, -5, 2, 1, 2⟩, ⟨3, -166666666666667, 16, 1, 3⟩, ⟨4, 333333333333333, 16, 1, 4⟩, ⟨5, -142857142857143, 16, 1, 4⟩]
def i_fpfp_2 : List IEntry := [⟨0, -6, 1, 2, 0⟩, ⟨1, -5, 2, 2, 1⟩, ⟨2, 6, 1, 2, 2⟩, ⟨3, -5, 2, 2, 3⟩, ⟨5, 285714285714286, 16, 2, 4⟩]
def i_fpfp_3 : List IEntry := [⟨0, 5, 2, 3, 0⟩, ⟨1, -166666666666667, 16, 3, 1⟩, ⟨2, -5, 2, 3, 2⟩, ⟨3, 666666666666667, 16, 3, 3⟩, ⟨4, -333333333333333, 16, 3, 4⟩, ⟨5, -142857142857143, 16, 3, 4⟩]
def i_fpfp_4 : List IEntry := [⟨1, 333333333333333, 16, 4, 1⟩, ⟨3, -333333333333333, 16, 4, 3⟩, ⟨4, 380952380952381, 16, 4, 4⟩, ⟨6, -634920634920635, 17, 4, 4⟩]
def i_fpfp_5 : List IEntry := [⟨0, -285714285714286, 16, 4, 0⟩, ⟨1, -142857142857143, 16, 4, 1⟩, ⟨2, 285714285714286, 16, 4, 2⟩, ⟨3, -142857142857143, 16, 4, 3⟩, ⟨5, 126984126984127, 16, 4, 4⟩, ⟨7, -288600288600289, 17, 4, 4⟩]
def i_fpfp_6 : List IEntry := [⟨4, -634920634920635, 17, 4, 4⟩, ⟨6, 577200577200577, 17, 4, 4⟩, ⟨8, -155400155400155, 17, 4, 4⟩]
def i_fpfp_7 : List IEntry := [⟨5, -288600288600289, 17, 4, 4⟩, ⟨7, 310800310800311, 17, 4, 4⟩, ⟨9, -932400932400932, 18, 4, 4⟩]
def i_fpfp_8 : List IEntry := [⟨6, -155400155400155, 17, 4, 4⟩, ⟨8, 186480186480186, 17, 4, 4⟩, ⟨10, -603318250377074, 18, 4, 4⟩]
def i_fpfp_9 : List IEntry := [⟨7, -932400932400932, 18, 4, 4⟩, ⟨9, 120663650075415, 17, 4, 4⟩, ⟨11, -412796697626419, 18, 4, 4⟩]
def i_fpfp_10 : List IEntry := [⟨8, -603318250377074, 18, 4, 4⟩, ⟨10, 825593395252838, 18, 4, 4⟩, ⟨12, -294854784018871, 18, 4, 4⟩]
def i_fpfp_11 : List IEntry := [⟨9, -412796697626419, 18, 4, 4⟩, ⟨11, 589709568037741, 18, 4, 4⟩, ⟨13, -2179361447096, 16, 4, 4⟩]
def i_fpfp_12 : List IEntry := [⟨10, -294854784018871, 18, 4, 4⟩, ⟨12, 4358722894192, 16, 4, 4⟩, ⟨14, -165631469979296, 18, 4, 4⟩]
def i_fpfp_13 : List IEntry := [⟨11, -2179361447096, 16, 4, 4⟩, ⟨13, 331262939958592, 18, 4, 4⟩, ⟨15, -128824476650564, 18, 4, 4⟩]
def i_fpfp_14 : List IEntry := [⟨12, -165631469979296, 18, 4, 4⟩, ⟨14, 257648953301127, 18, 4, 4⟩, ⟨16, -102171136653895, 18, 4, 4⟩]
def i_fpfp_15 : List IEntry := [⟨13, -128824476650564, 18, 4, 4⟩, ⟨15, 204342273307791, 18, 4, 4⟩, ⟨17, -823960779466897, 19, 4, 4⟩]
def i_fpfp_16 : List IEntry := [⟨14, -102171136653895, 18, 4, 4⟩, ⟨16, 164792155893379, 18, 4, 4⟩, ⟨18, -674149728654734, 19, 4, 4⟩]
def i_fpfp_17 : List IEntry := [⟨15, -823960779466897, 19, 4, 4⟩, ⟨17, 134829945730947, 18, 4, 4⟩, ⟨19, -558581203742494, 19, 4, 4⟩]
def i_fpfp_18 : List IEntry := [⟨16, -674149728654734, 19, 4, 4⟩, ⟨18, 111716240748499, 18, 4, 4⟩, ⟨20, -468000468000468, 19, 4, 4⟩]
def i_fpfp_19 : List IEntry := [⟨17, -558581203742494, 19, 4, 4⟩, ⟨19, 936000936000936, 19, 4, 4⟩, ⟨21, -396000396000396, 19, 4, 4⟩]
def i_fpfp_20 : List IEntry := [⟨18, -468000468000468, 19, 4, 4⟩, ⟨20, 792000792000792, 19, 4, 4⟩, ⟨22, -338049118536923, 19, 4, 4⟩]
def i_fpfp_21 : List IEntry := [⟨19, -396000396000396, 19, 4, 4⟩, ⟨21, 676098237073847, 19, 4, 4⟩, ⟨23, -290879474089911, 19, 4, 4⟩]
def i_fpfp_22 : List IEntry := [⟨20, -338049118536923, 19, 4, 4⟩, ⟨22, 581758948179822, 19, 4, 4⟩, ⟨24, -252095544211256, 19, 4, 4⟩]
def i_fpfp_23 : List IEntry := [⟨21, -290879474089911, 19, 4, 4⟩, ⟨23, 504191088422512, 19, 4, 4⟩, ⟨25, -219913134311947, 19, 4, 4⟩]
def i_fpfp_24 : List IEntry := [⟨22, -252095544211256, 19, 4, 4⟩, ⟨24, 439826268623894, 19, 4, 4⟩, ⟨26, -192984995416606, 19, 4, 4⟩]
def i_fpfp_25 : List IEntry := [⟨23, -219913134311947, 19, 4, 4⟩, ⟨25, 385969990833213, 19, 4, 4⟩, ⟨27, -17028087830877, 18, 4, 4⟩]
def i_fpfp_26 : List IEntry := [⟨24, -192984995416606, 19, 4, 4⟩, ⟨26, 340561756617541, 19, 4, 4⟩, ⟨28, -151003797745513, 19, 4, 4⟩]
def i_fpfp_27 : List IEntry := [⟨25, -17028087830877, 18, 4, 4⟩, ⟨27, 302007595491027, 19, 4, 4⟩, ⟨29, -134530656173275, 19, 4, 4⟩]
def i_fpfp_28 : List IEntry := [⟨26, -151003797745513, 19, 4, 4⟩, ⟨28, 269061312346551, 19, 4, 4⟩]
def i_fpfp_29 : List IEntry := [⟨27, -134530656173275, 19, 4, 4⟩, ⟨29, 240739068941651, 19, 4, 4⟩]

/-- `integral_fpfp` (`bardell.cpp` lines 1278-1630). -/
def i_fpfp : List (List IEntry) := [i_fpfp_0, i_fpfp_1, i_fpfp_2, i_fpfp_3, i_fpfp_4, i_fpfp_5, i_fpfp_6, i_fpfp_7, i_fpfp_8, i_fpfp_9, i_fpfp_10, i_fpfp_11, i_fpfp_12, i_fpfp_13, i_fpfp_14, i_fpfp_15, i_fpfp_16, i_fpfp_17, i_fpfp_18, i_fpfp_19, i_fpfp_20, i_fpfp_21, i_fpfp_22, i_fpfp_23, i_fpfp_24, i_fpfp_25, i_fpfp_26, i_fpfp_27, i_fpfp_28, i_fpfp_29]

def i_fpfpp_0 : List IEntry := [⟨1, 25, 2, 0, 1⟩, ⟨3, -25, 2, 0, 3⟩, ⟨4, 2, 1, 0, 4⟩]
def i_fpfpp_1 : List IEntry := [⟨0, -25, 2, 1, 0⟩, ⟨1, -125, 3, 1, 1⟩, ⟨2, 25, 2, 1, 2⟩, ⟨3, -125, 3, 1, 3⟩, ⟨4, 1, 1, 1, 4⟩]
def i_fpfpp_2 : List IEntry := [⟨1, -25, 2, 2, 1⟩, ⟨3, 25, 2, 2, 3⟩, ⟨4, -2, 1, 2, 4⟩]
def i_fpfpp_3 : List IEntry := [⟨0, 25, 2, 3, 0⟩, ⟨1, 125, 3, 3, 1⟩, ⟨2, -25, 2, 3, 2⟩, ⟨3, 125, 3, 3, 3⟩, ⟨4, 1, 1, 3, 4⟩]
def i_fpfpp_4 : List IEntry := [⟨0, -2, 1, 4, 0⟩, ⟨1, -1, 1, 4, 1⟩, ⟨2, 2, 1, 4, 2⟩, ⟨3, -1, 1, 4, 3⟩, ⟨5, 571428571428571, 16, 4, 4⟩]
def i_fpfpp_5 : List IEntry := [⟨4, -571428571428571, 16, 4, 4⟩, ⟨6, 317460317460317, 16, 4, 4⟩]
def i_fpfpp_6 : List IEntry := [⟨5, -317460317460317, 16, 4, 4⟩, ⟨7, 202020202020202, 16, 4, 4⟩]
def i_fpfpp_7 : List IEntry := [⟨6, -202020202020202, 16, 4, 4⟩, ⟨8, 13986013986014, 15, 4, 4⟩]
def i_fpfpp_8 : List IEntry := [⟨7, -13986013986014, 15, 4, 4⟩, ⟨9, 102564102564103, 16, 4, 4⟩]
def i_fpfpp_9 : List IEntry := [⟨8, -102564102564103, 16, 4, 4⟩, ⟨10, 784313725490196, 17, 4, 4⟩]
def i_fpfpp_10 : List IEntry := [⟨9, -784313725490196, 17, 4, 4⟩, ⟨11, 619195046439629, 17, 4, 4⟩]
def i_fpfpp_11 : List IEntry := [⟨10, -619195046439629, 17, 4, 4⟩, ⟨12, 50125313283208, 16, 4, 4⟩]
def i_fpfpp_12 : List IEntry := [⟨11, -50125313283208, 16, 4, 4⟩, ⟨13, 41407867494824, 16, 4, 4⟩]
def i_fpfpp_13 : List IEntry := [⟨12, -41407867494824, 16, 4, 4⟩, ⟨14, 347826086956522, 17, 4, 4⟩]
def i_fpfpp_14 : List IEntry := [⟨13, -347826086956522, 17, 4, 4⟩, ⟨15, 296296296296296, 17, 4, 4⟩]
def i_fpfpp_15 : List IEntry := [⟨14, -296296296296296, 17, 4, 4⟩, ⟨16, 255427841634738, 17, 4, 4⟩]
def i_fpfpp_16 : List IEntry := [⟨15, -255427841634738, 17, 4, 4⟩, ⟨17, 222469410456062, 17, 4, 4⟩]
def i_fpfpp_17 : List IEntry := [⟨16, -222469410456062, 17, 4, 4⟩, ⟨18, 195503421309873, 17, 4, 4⟩]
def i_fpfpp_18 : List IEntry := [⟨17, -195503421309873, 17, 4, 4⟩, ⟨19, 173160173160173, 17, 4, 4⟩]
def i_fpfpp_19 : List IEntry := [⟨18, -173160173160173, 17, 4, 4⟩, ⟨20, 154440154440154, 17, 4, 4⟩]
def i_fpfpp_20 : List IEntry := [⟨19, -154440154440154, 17, 4, 4⟩, ⟨21, 138600138600139, 17, 4, 4⟩]
def i_fpfpp_21 : List IEntry := [⟨20, -138600138600139, 17, 4, 4⟩, ⟨22, 125078173858662, 17, 4, 4⟩]
def i_fpfpp_22 : List IEntry := [⟨21, -125078173858662, 17, 4, 4⟩, ⟨23, 113442994895065, 17, 4, 4⟩]
def i_fpfpp_23 : List IEntry := [⟨22, -113442994895065, 17, 4, 4⟩, ⟨24, 103359173126615, 17, 4, 4⟩]
def i_fpfpp_24 : List IEntry := [⟨23, -103359173126615, 17, 4, 4⟩, ⟨25, 945626477541371, 18, 4, 4⟩]
def i_fpfpp_25 : List IEntry := [⟨24, -945626477541371, 18, 4, 4⟩, ⟨26, 868432479374729, 18, 4, 4⟩]
def i_fpfpp_26 : List IEntry := [⟨25, -868432479374729, 18, 4, 4⟩, ⟨27, 800320128051221, 18, 4, 4⟩]
def i_fpfpp_27 : List IEntry := [⟨26, -800320128051221, 18, 4, 4⟩, ⟨28, 739918608953015, 18, 4, 4⟩]
def i_fpfpp_28 : List IEntry := [⟨27, -739918608953015, 18, 4, 4⟩, ⟨29, 686106346483705, 18, 4, 4⟩]
def i_fpfpp_29 : List IEntry := [⟨28, -686106346483705, 18, 4, 4⟩]

/-- `integral_fpfpp` (`bardell.cpp` lines 1640-1928). -/
def i_fpfpp : List (List IEntry) := [i_fpfpp_0, i_fpfpp_1, i_fpfpp_2, i_fpfpp_3, i_fpfpp_4, i_fpfpp_5, i_fpfpp_6, i_fpfpp_7, i_fpfpp_8, i_fpfpp_9, i_fpfpp_10, i_fpfpp_11, i_fpfpp_12, i_fpfpp_13, i_fpfpp_14, i_fpfpp_15, i_fpfpp_16, i_fpfpp_17, i_fpfpp_18, i_fpfpp_19, i_fpfpp_20, i_fpfpp_21, i_fpfpp_22, i_fpfpp_23, i_fpfpp_24, i_fpfpp_25, i_fpfpp_26, i_fpfpp_27, i_fpfpp_28, i_fpfpp_29]

def i_fppfpp_0 : List IEntry := [⟨0, 15, 1, 0, 0⟩, ⟨1, 75, 2, 0, 1⟩, ⟨2, -15, 1, 0, 2⟩, ⟨3, 75, 2, 0, 3⟩]
def i_fppfpp_1 : List IEntry := [⟨0, 75, 2, 1, 0⟩, ⟨1, 5, 1, 1, 1⟩, ⟨2, -75, 2, 1, 2⟩, ⟨3, 25, 2, 1, 3⟩]
def i_fppfpp_2 : List IEntry := [⟨0, -15, 1, 2, 0⟩, ⟨1, -75, 2, 2, 1⟩, ⟨2, 15, 1, 2, 2⟩, ⟨3, -75, 2, 2, 3⟩]
def i_fppfpp_3 : List IEntry := [⟨0, 75, 2, 3, 0⟩, ⟨1, 25, 2, 3, 1⟩, ⟨2, -75, 2, 3, 2⟩, ⟨3, 5, 1, 3, 3⟩]
def i_fppfpp_4 : List IEntry := [⟨4, 4, 1, 4, 4⟩]
def i_fppfpp_5 : List IEntry := [⟨5, 285714285714286, 15, 4, 4⟩]
def i_fppfpp_6 : List IEntry := [⟨6, 222222222222222, 15, 4, 4⟩]
def i_fppfpp_7 : List IEntry := [⟨7, 181818181818182, 15, 4, 4⟩]
def i_fppfpp_8 : List IEntry := [⟨8, 153846153846154, 15, 4, 4⟩]
def i_fppfpp_9 : List IEntry := [⟨9, 133333333333333, 15, 4, 4⟩]
def i_fppfpp_10 : List IEntry := [⟨10, 117647058823529, 15, 4, 4⟩]
def i_fppfpp_11 : List IEntry := [⟨11, 105263157894737, 15, 4, 4⟩]
def i_fppfpp_12 : List IEntry := [⟨12, 952380952380952, 16, 4, 4⟩]
def i_fppfpp_13 : List IEntry := [⟨13, 869565217391304, 16, 4, 4⟩]
def i_fppfpp_14 : List IEntry := [⟨14, 8, 2, 4, 4⟩]
def i_fppfpp_15 : List IEntry := [⟨15, 740740740740741, 16, 4, 4⟩]
def i_fppfpp_16 : List IEntry := [⟨16, 689655172413793, 16, 4, 4⟩]
def i_fppfpp_17 : List IEntry := [⟨17, 645161290322581, 16, 4, 4⟩]
def i_fppfpp_18 : List IEntry := [⟨18, 606060606060606, 16, 4, 4⟩]
def i_fppfpp_19 : List IEntry := [⟨19, 571428571428571, 16, 4, 4⟩]
def i_fppfpp_20 : List IEntry := [⟨20, 540540540540541, 16, 4, 4⟩]
def i_fppfpp_21 : List IEntry := [⟨21, 512820512820513, 16, 4, 4⟩]
def i_fppfpp_22 : List IEntry := [⟨22, 487804878048781, 16, 4, 4⟩]
def i_fppfpp_23 : List IEntry := [⟨23, 465116279069767, 16, 4, 4⟩]
def i_fppfpp_24 : List IEntry := [⟨24, 444444444444444, 16, 4, 4⟩]
def i_fppfpp_25 : List IEntry := [⟨25, 425531914893617, 16, 4, 4⟩]
def i_fppfpp_26 : List IEntry := [⟨26, 408163265306122, 16, 4, 4⟩]
def i_fppfpp_27 : List IEntry := [⟨27, 392156862745098, 16, 4, 4⟩]
def i_fppfpp_28 : List IEntry := [⟨28, 377358490566038, 16, 4, 4⟩]
def i_fppfpp_29 : List IEntry := [⟨29, 363636363636364, 16, 4, 4⟩]

/-- `integral_fppfpp` (`bardell.cpp` lines 1938-2170). -/
def i_fppfpp : List (List IEntry) := [i_fppfpp_0, i_fppfpp_1, i_fppfpp_2, i_fppfpp_3, i_fppfpp_4, i_fppfpp_5, i_fppfpp_6, i_fppfpp_7, i_fppfpp_8, i_fppfpp_9, i_fppfpp_10, i_fppfpp_11, i_fppfpp_12, i_fppfpp_13, i_fppfpp_14, i_fppfpp_15, i_fppfpp_16, i_fppfpp_17, i_fppfpp_18, i_fppfpp_19, i_fppfpp_20, i_fppfpp_21, i_fppfpp_22, i_fppfpp_23, i_fppfpp_24, i_fppfpp_25, i_fppfpp_26, i_fppfpp_27, i_fppfpp_28, i_fppfpp_29]

end Verif.Gen
