import Verif.Model.TableTypes

/-!
# Tables of `panels/core/src/legendre_gauss_quadrature.cpp`

Pairs (point, weight), both multiplied by `10^56`

Generated by `tools/tables.py`.  `(z, e)` stands for the printed decimal `z / 10^e`.
-/

namespace Verif.Gen

/-- `case 2`, line 11. -/
def g2 : List (ℤ × ℤ) := [(-57735026918962576450914878050195745564760175127012687600, 100000000000000000000000000000000000000000000000000000000),
  (57735026918962576450914878050195745564760175127012687600, 100000000000000000000000000000000000000000000000000000000)]

/-- `case 3`, line 17. -/
def g3 : List (ℤ × ℤ) := [(-77459666924148337703585307995647992216658434105831816500, 55555555555555555555555555555555555555555555555555555600),
  (0, 88888888888888888888888888888888888888888888888888888900),
  (77459666924148337703585307995647992216658434105831816500, 55555555555555555555555555555555555555555555555555555600)]

/-- `case 4`, line 25. -/
def g4 : List (ℤ × ℤ) := [(-86113631159405257522394648889280950509572537962971763800, 34785484513745385737306394922199940723534869583389354000),
  (-33998104358485626480266575910324468720057586977091435300, 65214515486254614262693605077800059276465130416610646000),
  (33998104358485626480266575910324468720057586977091435300, 65214515486254614262693605077800059276465130416610646000),
  (86113631159405257522394648889280950509572537962971763800, 34785484513745385737306394922199940723534869583389354000)]

/-- `case 5`, line 35. -/
def g5 : List (ℤ × ℤ) := [(-90617984593866399279762687829939296512565191076253086300, 23692688505618908751426404071991736264326000221241401600),
  (-53846931010568309103631442070020880496728660690555995600, 47862867049936646804129151483563819291229555334314154000),
  (0, 56888888888888888888888888888888888888888888888888888900),
  (53846931010568309103631442070020880496728660690555995600, 47862867049936646804129151483563819291229555334314154000),
  (90617984593866399279762687829939296512565191076253086300, 23692688505618908751426404071991736264326000221241401600)]

/-- `case 6`, line 47. -/
def g6 : List (ℤ × ℤ) := [(-93246951420315202781230155449399460913476573771228982500, 17132449237917034504029614217273289352682250148404398200),
  (-66120938646626451366139959501990534700644856439517007100, 36076157304813860756983351383771611166152189274674548200),
  (-23861918608319690863050172168071193541861063014002135000, 46791393457269104738987034398955099481165560576921053500),
  (23861918608319690863050172168071193541861063014002135000, 46791393457269104738987034398955099481165560576921053500),
  (66120938646626451366139959501990534700644856439517007100, 36076157304813860756983351383771611166152189274674548200),
  (93246951420315202781230155449399460913476573771228982500, 17132449237917034504029614217273289352682250148404398200)]

/-- `case 7`, line 61. -/
def g7 : List (ℤ × ℤ) := [(-94910791234275852452618968404785126240077093767061778400, 12948496616886969327061143267908201832858740225994666400),
  (-74153118559939443986386477328078840707414764714139026000, 27970539148927666790146777142377958248692506522659876500),
  (-40584515137739716690660641207696146334738201409937012600, 38183005050511894495036977548897513387836508353386273500),
  (0, 41795918367346938775510204081632653061224489795918367300),
  (40584515137739716690660641207696146334738201409937012600, 38183005050511894495036977548897513387836508353386273500),
  (74153118559939443986386477328078840707414764714139026000, 27970539148927666790146777142377958248692506522659876500),
  (94910791234275852452618968404785126240077093767061778400, 12948496616886969327061143267908201832858740225994666400)]

/-- `case 8`, line 77. -/
def g8 : List (ℤ × ℤ) := [(-96028985649753623168356086856947299042823523430145203800, 10122853629037625915253135430996219011539409105168495710),
  (-79666647741362673959155393647583043683717173161596483200, 22238103445337447054435599442624088443013087005124956500),
  (-52553240991632898581773904918924634904196424312039285800, 31370664587788728733796220198660131326032899900273493800),
  (-18343464249564980493947614236018398066675781291297378200, 36268378337836198296515044927719561219414603989433054100),
  (18343464249564980493947614236018398066675781291297378200, 36268378337836198296515044927719561219414603989433054100),
  (52553240991632898581773904918924634904196424312039285800, 31370664587788728733796220198660131326032899900273493800),
  (79666647741362673959155393647583043683717173161596483200, 22238103445337447054435599442624088443013087005124956500),
  (96028985649753623168356086856947299042823523430145203800, 10122853629037625915253135430996219011539409105168495710)]

/-- `case 9`, line 95. -/
def g9 : List (ℤ × ℤ) := [(-96816023950762608983557620290367287004940480049192533000, 8127438836157441197189215811052365067566172078241075070),
  (-83603110732663579429942978806973487654410671812467599600, 18064816069485740405847203124291280951433782173204048400),
  (-61337143270059039730870203934147418478572060494056469300, 26061069640293546231874286941863284977184020443729995200),
  (-32425342340380892903853801464333660857195626073697308900, 31234707704000284006863040658444366559875486126190464600),
  (0, 33023935500125976316452506928697404887881078357268833500),
  (32425342340380892903853801464333660857195626073697308900, 31234707704000284006863040658444366559875486126190464600),
  (61337143270059039730870203934147418478572060494056469300, 26061069640293546231874286941863284977184020443729995200),
  (83603110732663579429942978806973487654410671812467599600, 18064816069485740405847203124291280951433782173204048400),
  (96816023950762608983557620290367287004940480049192533000, 8127438836157441197189215811052365067566172078241075070)]

/-- `case 10`, line 115. -/
def g10 : List (ℤ × ℤ) := [(-97390652851717172007796401208445205342826994669238211900, 6667134430868813759356880989333179285786483432015814510),
  (-86506336668898451073209668842349304852754301496533045300, 14945134915058059314577633965769733240255663966942736800),
  (-67940956829902440623432736511487357576929471183480946800, 21908636251598204399553493422816319245877187052267709000),
  (-43339539412924719079926594316578416220007183765624649700, 26926671930999635509122692156946935285975993846088379600),
  (-14887433898163121088482600112971998461756485942069169600, 29552422471475287017389299465133832942104671702685360100),
  (14887433898163121088482600112971998461756485942069169600, 29552422471475287017389299465133832942104671702685360100),
  (43339539412924719079926594316578416220007183765624649700, 26926671930999635509122692156946935285975993846088379600),
  (67940956829902440623432736511487357576929471183480946800, 21908636251598204399553493422816319245877187052267709000),
  (86506336668898451073209668842349304852754301496533045300, 14945134915058059314577633965769733240255663966942736800),
  (97390652851717172007796401208445205342826994669238211900, 6667134430868813759356880989333179285786483432015814510)]

/-- `case 11`, line 137. -/
def g11 : List (ℤ × ℤ) := [(-97822865814605699280393800112285739077142240891978441500, 5566856711617366648275372044254857872851562569689814830),
  (-88706259976809529907515776930392726663167575122531438500, 12558036946490462463469429922394010019761579139540350100),
  (-73015200557404932409341625203115345804964306202613031200, 18629021092773425142609764143165589169128474804020341200),
  (-51909612920681181592572566945860955448022711511992848900, 23319376459199047991852370484317513943179817231695850900),
  (-26954315595234497233153198540086152467962186243905228200, 26280454451024666218068886989050919537276467760314455600),
  (0, 27292508677790063071448352833634218915604196989478374800),
  (26954315595234497233153198540086152467962186243905228200, 26280454451024666218068886989050919537276467760314455600),
  (51909612920681181592572566945860955448022711511992848900, 23319376459199047991852370484317513943179817231695850900),
  (73015200557404932409341625203115345804964306202613031200, 18629021092773425142609764143165589169128474804020341200),
  (88706259976809529907515776930392726663167575122531438500, 12558036946490462463469429922394010019761579139540350100),
  (97822865814605699280393800112285739077142240891978441500, 5566856711617366648275372044254857872851562569689814830)]

/-- `case 12`, line 161. -/
def g12 : List (ℤ × ℤ) := [(-98156063424671925069054909014928082296015519981373151000, 4717533638651182719461596148501706031702907399484708960),
  (-90411725637047485667846586611909619253759670921329754700, 10693932599531843096025471819399622421457017347032488000),
  (-76990267419430468703689383321281807598492575001893163800, 16007832854334622633465252954335907187201173049086417800),
  (-58731795428661744729670241894053428036909851404805248200, 20316742672306592174906445580979837650651814727459014600),
  (-36783149899818019375269153664371756125636014133540962100, 23349253653835480876084989892487805625940997219975487500),
  (-12523340851146891547244136946385312998339691630544427300, 24914704581340278500056243604295121083046090256961883100),
  (12523340851146891547244136946385312998339691630544427300, 24914704581340278500056243604295121083046090256961883100),
  (36783149899818019375269153664371756125636014133540962100, 23349253653835480876084989892487805625940997219975487500),
  (58731795428661744729670241894053428036909851404805248200, 20316742672306592174906445580979837650651814727459014600),
  (76990267419430468703689383321281807598492575001893163800, 16007832854334622633465252954335907187201173049086417800),
  (90411725637047485667846586611909619253759670921329754700, 10693932599531843096025471819399622421457017347032488000),
  (98156063424671925069054909014928082296015519981373151000, 4717533638651182719461596148501706031702907399484708960)]

/-- `case 13`, line 187. -/
def g13 : List (ℤ × ℤ) := [(-98418305471858814947282944880710961106499056192587490900, 4048400476531587952002159220098606004198654574498886810),
  (-91759839922297796520654783650071951239047479011168329600, 9212149983772844791442177595379712092368399986223683910),
  (-80157809073330991279420648958285989030561572479050003000, 13887351021978723846360177686887146762186271826329822800),
  (-64234933944034022064398460699551565007169739826157685700, 17814598076194573828004669199609799551281265066101650300),
  (-44849275103644685287791285212763986780192166744175787900, 20781604753688850231252321930605276338658260919950354900),
  (-23045831595513479406552812109798883521154237588353116300, 22628318026289723841209018603977661843475773761555702000),
  (0, 23255155323087391019458951526883594815662747730679798600),
  (23045831595513479406552812109798883521154237588353116300, 22628318026289723841209018603977661843475773761555702000),
  (44849275103644685287791285212763986780192166744175787900, 20781604753688850231252321930605276338658260919950354900),
  (64234933944034022064398460699551565007169739826157685700, 17814598076194573828004669199609799551281265066101650300),
  (80157809073330991279420648958285989030561572479050003000, 13887351021978723846360177686887146762186271826329822800),
  (91759839922297796520654783650071951239047479011168329600, 9212149983772844791442177595379712092368399986223683910),
  (98418305471858814947282944880710961106499056192587490900, 4048400476531587952002159220098606004198654574498886810)]

/-- `case 14`, line 215. -/
def g14 : List (ℤ × ℤ) := [(-98628380869681233884159726670405280167609140723922588200, 3511946033175186303183287613819178061970560927712727660),
  (-92843488366357351733639113937787426447703921040983761900, 8015808715976020980563327706285430958369778539459476520),
  (-82720131506976499318979474265039496103970110147508118200, 12151857068790318468941480907247662595666934569007467200),
  (-68729290481168547014801980301933413753840121274717067600, 15720316715819353456960193862384215660566803733732337500),
  (-51524863635815409196529071855118866230888528256930603700, 18553839747793781374171659012515703624892260293733165900),
  (-31911236892788976043567182416847546683426120353384395700, 20519846372129560396592406566121805571033906130941945200),
  (-10805494870734366206624465021983474761195160547423755700, 21526385346315779019587644331626003527499755805412880000),
  (10805494870734366206624465021983474761195160547423755700, 21526385346315779019587644331626003527499755805412880000),
  (31911236892788976043567182416847546683426120353384395700, 20519846372129560396592406566121805571033906130941945200),
  (51524863635815409196529071855118866230888528256930603700, 18553839747793781374171659012515703624892260293733165900),
  (68729290481168547014801980301933413753840121274717067600, 15720316715819353456960193862384215660566803733732337500),
  (82720131506976499318979474265039496103970110147508118200, 12151857068790318468941480907247662595666934569007467200),
  (92843488366357351733639113937787426447703921040983761900, 8015808715976020980563327706285430958369778539459476520),
  (98628380869681233884159726670405280167609140723922588200, 3511946033175186303183287613819178061970560927712727660)]

/-- `case 15`, line 245. -/
def g15 : List (ℤ × ℤ) := [(-98799251802048542848956571858661258114697281712376149000, 3075324199611726835462839357720441772174814483343407430),
  (-93727339240070590430775894771020947124399627351530445800, 7036604748810812470926741645066733846670803275433071980),
  (-84820658341042721620064832077421685136625617473699263400, 10715922046717193501186954668586930341554371575810198100),
  (-72441773136017004741618605461393800963089929458410256400, 13957067792615431444780479451102832252085027531551124300),
  (-57097217260853884753722673725391064123838639628274960500, 16626920581699393355320086048120881113090018009841290700),
  (-39415134707756336989720737098104546836275277615869825500, 18616100001556221102680056186642282450622601227792840300),
  (-20119409399743452230062830339459620781283645446263768000, 19843148532711157645611832644383932481869255995754199300),
  (0, 20257824192556127288062019996751931483866215800947735700),
  (20119409399743452230062830339459620781283645446263768000, 19843148532711157645611832644383932481869255995754199300),
  (39415134707756336989720737098104546836275277615869825500, 18616100001556221102680056186642282450622601227792840300),
  (57097217260853884753722673725391064123838639628274960500, 16626920581699393355320086048120881113090018009841290700),
  (72441773136017004741618605461393800963089929458410256400, 13957067792615431444780479451102832252085027531551124300),
  (84820658341042721620064832077421685136625617473699263400, 10715922046717193501186954668586930341554371575810198100),
  (93727339240070590430775894771020947124399627351530445800, 7036604748810812470926741645066733846670803275433071980),
  (98799251802048542848956571858661258114697281712376149000, 3075324199611726835462839357720441772174814483343407430)]

/-- `case 16`, line 277. -/
def g16 : List (ℤ × ℤ) := [(-98940093499164993259615417345033262742627407165764513000, 2715245941175409485178057245601810351226737556676079800),
  (-94457502307323257607798841553460834509113927259107260100, 6225352393864789286284383699437769427498650835290685790),
  (-86563120238783174388046789771239313238733538484752670800, 9515851168249278480992510760224622635526350318371265820),
  (-75540440835500303389510119484744226835381365645750301000, 12462897125553387205247628219201642014488685922220268000),
  (-61787624440264374844667176404879101899188221776565779400, 14959598881657673208150173054747854897049106820783646700),
  (-45801677765722738634241944298357757354003161303552349100, 16915651939500253818931207903035996221163947341602828200),
  (-28160355077925891323046050146049610648606949077059980100, 18260341504492358886676366796921993938355622365464928200),
  (-9501250983763744018531933542495806313035305568906545670, 18945061045506849628539672320828310514690898839590297500),
  (9501250983763744018531933542495806313035305568906545670, 18945061045506849628539672320828310514690898839590297500),
  (28160355077925891323046050146049610648606949077059980100, 18260341504492358886676366796921993938355622365464928200),
  (45801677765722738634241944298357757354003161303552349100, 16915651939500253818931207903035996221163947341602828200),
  (61787624440264374844667176404879101899188221776565779400, 14959598881657673208150173054747854897049106820783646700),
  (75540440835500303389510119484744226835381365645750301000, 12462897125553387205247628219201642014488685922220268000),
  (86563120238783174388046789771239313238733538484752670800, 9515851168249278480992510760224622635526350318371265820),
  (94457502307323257607798841553460834509113927259107260100, 6225352393864789286284383699437769427498650835290685790),
  (98940093499164993259615417345033262742627407165764513000, 2715245941175409485178057245601810351226737556676079800)]

/-- `case 17`, line 311. -/
def g17 : List (ℤ × ℤ) := [(-99057547531441733567543401994066527650778985045956430300, 2414830286854793196011002628756532469169731594502527830),
  (-95067552176876776122271695789580302144338504655910870800, 5545952937398720112944016535824466051284625195322884700),
  (-88023915372698590212295569448815569262341681793442790000, 8503614831717918088353537019106207385049138921850547580),
  (-78151400389680140692523005552047605022397247274056851300, 11188384719340397109478838562635592673584342426307705000),
  (-65767115921669076585030221664300233514780589147597324400, 13513636846852547328631998170235019737212585323448902000),
  (-51269053708647696788624656862955187458292372241117290600, 15404576107681028808143159480195861194048305847101793400),
  (-35123176345387631529718551709534600504053975157567502300, 16800410215645004450997066378832315502119812896507401400),
  (-17848418149584785585067749365406555747541933269152564400, 17656270536699264632527099011319723915092441800074811800),
  (0, 17944647035620652545826564426188562144878031989766852400),
  (17848418149584785585067749365406555747541933269152564400, 17656270536699264632527099011319723915092441800074811800),
  (35123176345387631529718551709534600504053975157567502300, 16800410215645004450997066378832315502119812896507401400),
  (51269053708647696788624656862955187458292372241117290600, 15404576107681028808143159480195861194048305847101793400),
  (65767115921669076585030221664300233514780589147597324400, 13513636846852547328631998170235019737212585323448902000),
  (78151400389680140692523005552047605022397247274056851300, 11188384719340397109478838562635592673584342426307705000),
  (88023915372698590212295569448815569262341681793442790000, 8503614831717918088353537019106207385049138921850547580),
  (95067552176876776122271695789580302144338504655910870800, 5545952937398720112944016535824466051284625195322884700),
  (99057547531441733567543401994066527650778985045956430300, 2414830286854793196011002628756532469169731594502527830)]

/-- `case 18`, line 347. -/
def g18 : List (ℤ × ℤ) := [(-99156516842093094673001600470615077025257893684543969300, 2161601352648331031334271026645246938768523147558994550),
  (-95582394957139775518119589292977630997284413481130647900, 4971454889496979645333494620263864168086624612891020220),
  (-89260246649755573920606059112714551540789527135229821400, 7642573025488905652912967761663652560531790620835828740),
  (-80370495897252311568241745501459079710329892161192248200, 10094204410628716556281398492483460706280113888767890200),
  (-69168704306035320787489108128884838945227057281750775900, 12255520671147846018451912680020155522816389733343909700),
  (-55977083107394753460787154852532913692762648577070941700, 14064291467065065120473130375194722809550241033097256000),
  (-41175116146284264603593179383305163707898968212002551100, 15468467512626524492541800383637477219321839626735417300),
  (-25188622569150550958897285487791123016286176565964045800, 16427648374583272298605377646592759041233895399735295300),
  (-8477501304173530124226185293578381173331738690608992000, 16914238296314359184065647013498661033410581937034388000),
  (8477501304173530124226185293578381173331738690608992000, 16914238296314359184065647013498661033410581937034388000),
  (25188622569150550958897285487791123016286176565964045800, 16427648374583272298605377646592759041233895399735295300),
  (41175116146284264603593179383305163707898968212002551100, 15468467512626524492541800383637477219321839626735417300),
  (55977083107394753460787154852532913692762648577070941700, 14064291467065065120473130375194722809550241033097256000),
  (69168704306035320787489108128884838945227057281750775900, 12255520671147846018451912680020155522816389733343909700),
  (80370495897252311568241745501459079710329892161192248200, 10094204410628716556281398492483460706280113888767890200),
  (89260246649755573920606059112714551540789527135229821400, 7642573025488905652912967761663652560531790620835828740),
  (95582394957139775518119589292977630997284413481130647900, 4971454889496979645333494620263864168086624612891020220),
  (99156516842093094673001600470615077025257893684543969300, 2161601352648331031334271026645246938768523147558994550)]

/-- `case 19`, line 385. -/
def g19 : List (ℤ × ℤ) := [(-99240684384358440318901767025326049358931640140321078700, 1946178822972647703631204146443843575290660906928664080),
  (-96020815213483003085277884068765152661509150327413810600, 4481422676569960033283815740199421195175422746785760210),
  (-90315590361481790164266092853231248780939393405735581800, 6904454273764122658070825800601304496184803168761313110),
  (-82271465653714282497892248671271390177453848620683004100, 9149002162244999946446209412383965266091165129659878470),
  (-72096617733522937861709586082378162965714183290866677500, 11156664554733399471602390168176599748133185383989377600),
  (-60054530466168102346963816494623927986832208273229256800, 12875396253933622767551578485687711705583957709346303500),
  (-46457074137596094571726714810410236797628571462413659700, 14260670217360661177574610944190297247566834482447386100),
  (-31656409996362983199011732884984491789228521913288724500, 15276604206585966677885540089766299846100826723642862400),
  (-16035864564022537586809611574074354950487350047087537900, 15896884339395434764995643946504720167878015819512609600),
  (0, 16105444984878369597916362532091673503990255857851690200),
  (16035864564022537586809611574074354950487350047087537900, 15896884339395434764995643946504720167878015819512609600),
  (31656409996362983199011732884984491789228521913288724500, 15276604206585966677885540089766299846100826723642862400),
  (46457074137596094571726714810410236797628571462413659700, 14260670217360661177574610944190297247566834482447386100),
  (60054530466168102346963816494623927986832208273229256800, 12875396253933622767551578485687711705583957709346303500),
  (72096617733522937861709586082378162965714183290866677500, 11156664554733399471602390168176599748133185383989377600),
  (82271465653714282497892248671271390177453848620683004100, 9149002162244999946446209412383965266091165129659878470),
  (90315590361481790164266092853231248780939393405735581800, 6904454273764122658070825800601304496184803168761313110),
  (96020815213483003085277884068765152661509150327413810600, 4481422676569960033283815740199421195175422746785760210),
  (99240684384358440318901767025326049358931640140321078700, 1946178822972647703631204146443843575290660906928664080)]

/-- `case 20`, line 425. -/
def g20 : List (ℤ × ℤ) := [(-99312859918509492478612238847132027822264713090165589600, 1761400713915211831186196235185281636214310554333673250),
  (-96397192727791379126766613119727722191206032780618885600, 4060142980038694133103995227493210987909063998995153680),
  (-91223442825132590586775244120329811304918479742369177500, 6267204833410906356950653518704160635160107657843636410),
  (-83911697182221882339452906170152068532962936506563737300, 8327674157670474872475814322204620610017782858316329070),
  (-74633190646015079261430507035564159031073067956917644400, 10193011981724043503675013548034987616669165602339255600),
  (-63605368072651502545283669622628593674338911679936846400, 11819453196151841731237737771138228700504121954896877500),
  (-51086700195082709800436405095525099842549132920242683300, 13168863844917662689849449974816313491611051114698352700),
  (-37370608871541956067254817702492723739574632170568271200, 14209610931838205132929832506716493303451541339202030300),
  (-22778585114164507808049619536857462474308893768292747200, 14917298647260374678782873700196943669267990408136831600),
  (-7652652113349733375464040939883821100479626681349750080, 15275338713072585069808433195509759349194864511237859700),
  (7652652113349733375464040939883821100479626681349750080, 15275338713072585069808433195509759349194864511237859700),
  (22778585114164507808049619536857462474308893768292747200, 14917298647260374678782873700196943669267990408136831600),
  (37370608871541956067254817702492723739574632170568271200, 14209610931838205132929832506716493303451541339202030300),
  (51086700195082709800436405095525099842549132920242683300, 13168863844917662689849449974816313491611051114698352700),
  (63605368072651502545283669622628593674338911679936846400, 11819453196151841731237737771138228700504121954896877500),
  (74633190646015079261430507035564159031073067956917644400, 10193011981724043503675013548034987616669165602339255600),
  (83911697182221882339452906170152068532962936506563737300, 8327674157670474872475814322204620610017782858316329070),
  (91223442825132590586775244120329811304918479742369177500, 6267204833410906356950653518704160635160107657843636410),
  (96397192727791379126766613119727722191206032780618885600, 4060142980038694133103995227493210987909063998995153680),
  (99312859918509492478612238847132027822264713090165589600, 1761400713915211831186196235185281636214310554333673250)]

/-- `case 21`, line 467. -/
def g21 : List (ℤ × ℤ) := [(-99375217062038950026024203593794092919333845478232918600, 1601722825777433332422461685847101526589042211790248250),
  (-96722683856630629431662221490769516142469368732984685000, 3695378977085249379995066829932966618894430814872983740),
  (-92009933415040082879018713371496889415914760964822169700, 5713442542685720828363582647244795749128759682625604140),
  (-85336336458331728364725063858756767027610580317934397100, 7610011362837930201705165330018317922615435242396602850),
  (-76843996347567790861587785130622803482097670577136955100, 9344442345603386155328974111393208848352664736159284490),
  (-66713880419741231930596666999033916259702934331140284200, 10879729916714837766347457807010564203369959579385633100),
  (-55161883588721980705901879672431328662206022423067966500, 12183141605372853419536717712573359835633762556153745000),
  (-42434212020743878357366888854378805209644523183963458400, 13226893863333746178105257449677560432901154014315682300),
  (-28802131680240109660079251606460031990901826364603322900, 13988739479107315472213342386758311089279316095491960400),
  (-14556185416089509093703098233868633011632602443793775700, 14452440398997005906382716655375254360994996219709983500),
  (0, 14608113364969042719198514768337118824480957694196544400),
  (14556185416089509093703098233868633011632602443793775700, 14452440398997005906382716655375254360994996219709983500),
  (28802131680240109660079251606460031990901826364603322900, 13988739479107315472213342386758311089279316095491960400),
  (42434212020743878357366888854378805209644523183963458400, 13226893863333746178105257449677560432901154014315682300),
  (55161883588721980705901879672431328662206022423067966500, 12183141605372853419536717712573359835633762556153745000),
  (66713880419741231930596666999033916259702934331140284200, 10879729916714837766347457807010564203369959579385633100),
  (76843996347567790861587785130622803482097670577136955100, 9344442345603386155328974111393208848352664736159284490),
  (85336336458331728364725063858756767027610580317934397100, 7610011362837930201705165330018317922615435242396602850),
  (92009933415040082879018713371496889415914760964822169700, 5713442542685720828363582647244795749128759682625604140),
  (96722683856630629431662221490769516142469368732984685000, 3695378977085249379995066829932966618894430814872983740),
  (99375217062038950026024203593794092919333845478232918600, 1601722825777433332422461685847101526589042211790248250)]

/-- `case 22`, line 511. -/
def g22 : List (ℤ × ℤ) := [(-99429458548239929207303142116129898039305419839603153500, 1462799529827220068499109804718544519021194912432373090),
  (-97006049783542872712395098676526871080596892313780297000, 3377490158481415479330224686591290134916931447447466040),
  (-92695677218717400052069293925905319663532965337205198200, 5229333515268328594031205127321125611215009356923631610),
  (-86581257772030013653642563701937872908479675558844615600, 6979646842452048809496141893021765739877505295508052740),
  (-78781680597920816200427795540835152138817867133156315800, 8594160621706772741444368137270286618914440534907978330),
  (-69448726318668278005068983576225677126734228997743516100, 10041414444288096493207883783053628235081108876769962600),
  (-58764040350691159295887692763864734887761560357371784000, 11293229608053921839340060742178431911426333212099470400),
  (-46935583798675702640633071096640634609534379113073654800, 12325237681051242428556098615481447195944499900496797200),
  (-34193582089208422515814742042737961955917329917068734400, 13117350478706237073296499253030744587574189418803065300),
  (-20786042668822128547884653391954573421567510909793365000, 13654149834601517135257383123151739658636765298868616800),
  (-6973927331972222121384179611862808182229629948023147470, 13925187285563199337541024834180995787392021745742585800),
  (6973927331972222121384179611862808182229629948023147470, 13925187285563199337541024834180995787392021745742585800),
  (20786042668822128547884653391954573421567510909793365000, 13654149834601517135257383123151739658636765298868616800),
  (34193582089208422515814742042737961955917329917068734400, 13117350478706237073296499253030744587574189418803065300),
  (46935583798675702640633071096640634609534379113073654800, 12325237681051242428556098615481447195944499900496797200),
  (58764040350691159295887692763864734887761560357371784000, 11293229608053921839340060742178431911426333212099470400),
  (69448726318668278005068983576225677126734228997743516100, 10041414444288096493207883783053628235081108876769962600),
  (78781680597920816200427795540835152138817867133156315800, 8594160621706772741444368137270286618914440534907978330),
  (86581257772030013653642563701937872908479675558844615600, 6979646842452048809496141893021765739877505295508052740),
  (92695677218717400052069293925905319663532965337205198200, 5229333515268328594031205127321125611215009356923631610),
  (97006049783542872712395098676526871080596892313780297000, 3377490158481415479330224686591290134916931447447466040),
  (99429458548239929207303142116129898039305419839603153500, 1462799529827220068499109804718544519021194912432373090)]

/-- `case 23`, line 557. -/
def g23 : List (ℤ × ℤ) := [(-99476933499755212352392571544557436057362737245887042100, 1341185948714177208130949345861506497661833410573723340),
  (-97254247121811523195602407682077737518161379535397394200, 3098800585697944431069421964188450538377252899992806640),
  (-93297108682601610234919698903842297823570182015139077100, 4803767173108466857164107163203399656121630830351161130),
  (-87675235827044166737815688593414567163892902996065063500, 6423242140852585212716961515891099803915827575480683050),
  (-80488840161883989215111840699677855794143013973030802300, 7928141177671895492289252474204322691371199193840650260),
  (-71866136313195019446162448374861884832992974513129279600, 9291576606003514747701861736976464860346007174312989370),
  (-61960987576364615638509731164959565338718065880709229600, 10489209146454141007408618501474385485847158319397500600),
  (-50950147784600754968979304786684643054484276918485762300, 11499664022241136494164351293396130149141052292958560700),
  (-39030103803029083142148887288060545857805085069250348100, 12304908430672953046757840067200965481585281254647057400),
  (-26413568097034493053386953828330960297901325019413960500, 12890572218808214997859533939979365325971549719178349200),
  (-13325682429846611093174268224176613701040527625338215700, 13246203940469661737164246470331692580503566947422352400),
  (0, 13365457218610617535145711054584433858315280763688331700),
  (13325682429846611093174268224176613701040527625338215700, 13246203940469661737164246470331692580503566947422352400),
  (26413568097034493053386953828330960297901325019413960500, 12890572218808214997859533939979365325971549719178349200),
  (39030103803029083142148887288060545857805085069250348100, 12304908430672953046757840067200965481585281254647057400),
  (50950147784600754968979304786684643054484276918485762300, 11499664022241136494164351293396130149141052292958560700),
  (61960987576364615638509731164959565338718065880709229600, 10489209146454141007408618501474385485847158319397500600),
  (71866136313195019446162448374861884832992974513129279600, 9291576606003514747701861736976464860346007174312989370),
  (80488840161883989215111840699677855794143013973030802300, 7928141177671895492289252474204322691371199193840650260),
  (87675235827044166737815688593414567163892902996065063500, 6423242140852585212716961515891099803915827575480683050),
  (93297108682601610234919698903842297823570182015139077100, 4803767173108466857164107163203399656121630830351161130),
  (97254247121811523195602407682077737518161379535397394200, 3098800585697944431069421964188450538377252899992806640),
  (99476933499755212352392571544557436057362737245887042100, 1341185948714177208130949345861506497661833410573723340)]

/-- `case 24`, line 605. -/
def g24 : List (ℤ × ℤ) := [(-99518721999702136017999740970073681187459769259600287700, 1234122979998719954680566707003729157591004089136651680),
  (-97472855597130949819839199300816906174118305304017872000, 2853138862893366318130781595187828644919779793190811660),
  (-93827455200273275852364900170872144965481965807745134700, 4427743881741980616860274821133822885931284183385789670),
  (-88641552700440103421315434198219675508733304330892004000, 5929858491543678074636775850010858454120012656521349100),
  (-82000198597390292195394987266974520807612647766785558700, 7334648141108030573403361525311651811933650984849947140),
  (-74012419157855436424382810309997842552329248701418545700, 8619016153195327591718520298374266718508058823793300560),
  (-64809365193697556925249578691074762666965829861895678000, 9761865210411388826988066446424715442791896885368594410),
  (-54542147138883953565837561721837237001078399258761817500, 10744427011596563478257734244660622279462869013422002200),
  (-43379350762604513848708423191334971245242151092796880800, 11550566805372560135334448390678355986227031137649647100),
  (-31504267969616337438679329131981024078647826082481726900, 12167047292780339120446315347626242560702955920380577900),
  (-19111886747361630915863982075706963184040510331475335600, 12583745634682829612137538251118368872640332558134540400),
  (-6405689286260562608504308262474503859099919542074739340, 12793819534675215697405616522469537185171123954166788200),
  (6405689286260562608504308262474503859099919542074739340, 12793819534675215697405616522469537185171123954166788200),
  (19111886747361630915863982075706963184040510331475335600, 12583745634682829612137538251118368872640332558134540400),
  (31504267969616337438679329131981024078647826082481726900, 12167047292780339120446315347626242560702955920380577900),
  (43379350762604513848708423191334971245242151092796880800, 11550566805372560135334448390678355986227031137649647100),
  (54542147138883953565837561721837237001078399258761817500, 10744427011596563478257734244660622279462869013422002200),
  (64809365193697556925249578691074762666965829861895678000, 9761865210411388826988066446424715442791896885368594410),
  (74012419157855436424382810309997842552329248701418545700, 8619016153195327591718520298374266718508058823793300560),
  (82000198597390292195394987266974520807612647766785558700, 7334648141108030573403361525311651811933650984849947140),
  (88641552700440103421315434198219675508733304330892004000, 5929858491543678074636775850010858454120012656521349100),
  (93827455200273275852364900170872144965481965807745134700, 4427743881741980616860274821133822885931284183385789670),
  (97472855597130949819839199300816906174118305304017872000, 2853138862893366318130781595187828644919779793190811660),
  (99518721999702136017999740970073681187459769259600287700, 1234122979998719954680566707003729157591004089136651680)]

/-- `case 25`, line 655. -/
def g25 : List (ℤ × ℤ) := [(-99555696979049809790878494689390161725756264940480817100, 1139379850102628794790296411323477360332052629290969640),
  (-97666392145951751149831538647959406774537055531440674500, 2635498661503213726190181529529914493596328170332246880),
  (-94297457122897433941401116965847053190520157060899014200, 4093915670130631265562348771164595366084578336410434650),
  (-89499199787827536885104200678280495417455484975358390300, 5490469597583519192593689154047332416010998555311134900),
  (-83344262876083400142102110869356956946096411382352078600, 6803833381235691720718718565670796855470949435463656260),
  (-75925926303735763057728286520436097638752201889833412100, 8014070033500101801323495966911130229022573285367589370),
  (-67356636847346836448512063324762217588341672807274931700, 9102826198296364981149722070289165338099255895933431100),
  (-57766293024122296772368984161265406739573503929151825700, 10053594906705064420220689039268582698846609452814190700),
  (-47300273144571496052218211500919204133181773846162729100, 10851962447426365311609395705011661934007758798672201600),
  (-36117230580938783773582173012764066742207834704337507000, 11485825914571164833932554586955580864093619166818015000),
  (-24386688372098843204519036279745158640563315632598447600, 11945576353578477222817812651290104739017670141372642600),
  (-12286469261071039638735981880803680553220534604978373800, 12224244299031004168895951894585150583505924756305904100),
  (0, 12317605372671545120390287307905014243823362751815166500),
  (12286469261071039638735981880803680553220534604978373800, 12224244299031004168895951894585150583505924756305904100),
  (24386688372098843204519036279745158640563315632598447600, 11945576353578477222817812651290104739017670141372642600),
  (36117230580938783773582173012764066742207834704337507000, 11485825914571164833932554586955580864093619166818015000),
  (47300273144571496052218211500919204133181773846162729100, 10851962447426365311609395705011661934007758798672201600),
  (57766293024122296772368984161265406739573503929151825700, 10053594906705064420220689039268582698846609452814190700),
  (67356636847346836448512063324762217588341672807274931700, 9102826198296364981149722070289165338099255895933431100),
  (75925926303735763057728286520436097638752201889833412100, 8014070033500101801323495966911130229022573285367589370),
  (83344262876083400142102110869356956946096411382352078600, 6803833381235691720718718565670796855470949435463656260),
  (89499199787827536885104200678280495417455484975358390300, 5490469597583519192593689154047332416010998555311134900),
  (94297457122897433941401116965847053190520157060899014200, 4093915670130631265562348771164595366084578336410434650),
  (97666392145951751149831538647959406774537055531440674500, 2635498661503213726190181529529914493596328170332246880),
  (99555696979049809790878494689390161725756264940480817100, 1139379850102628794790296411323477360332052629290969640)]

/-- `case 26`, line 707. -/
def g26 : List (ℤ × ℤ) := [(-99588570114561692900321695932290602595685785511955966700, 1055137261734300715565118768525197790434573717969461460),
  (-97838544595647099110058035431192630544691656374731850200, 2441785109263190878961582751978840024049592619727034210),
  (-94715906666171425013591528351803675452071033768431527000, 3796238329436276395030314124885049469077042174404895770),
  (-90263786198430707421766559923121025134112400537290537300, 5097582529714781199831990072407337952587931854297193480),
  (-84544594278849801879750706146783816157207510209132956900, 6327404632957483553945368990704509572222284201269451070),
  (-77638594882067885619296724724228386697621825625519487200, 7468414976565974588707579610284833863874716188104068080),
  (-69642726041995726486381391372942469786075331779081915200, 8504589431348523921044776507998169658392031677667827620),
  (-60669229301761806323197874691688705443526457226590989000, 9421380035591414846366488306730319854916574591420727990),
  (-50844071482450571769570306472556917537630675418575081400, 10205916109442542323841407025343079232720881135424201000),
  (-40305175512348630648107737709888310365993740969931618300, 10847184052857659065657942672799758228943820342130664500),
  (-29200483948595689514283538207783029688471938696299037800, 11336181654631966654944071844259814524595036292501521400),
  (-17685882035689018396905774841834474997738376380126426100, 11666044348529658204466250754036221363196488122192421600),
  (-5923009342931320709371857519840336079023473538903558220, 11832141527926227651637108570046868464989027082890531800),
  (5923009342931320709371857519840336079023473538903558220, 11832141527926227651637108570046868464989027082890531800),
  (17685882035689018396905774841834474997738376380126426100, 11666044348529658204466250754036221363196488122192421600),
  (29200483948595689514283538207783029688471938696299037800, 11336181654631966654944071844259814524595036292501521400),
  (40305175512348630648107737709888310365993740969931618300, 10847184052857659065657942672799758228943820342130664500),
  (50844071482450571769570306472556917537630675418575081400, 10205916109442542323841407025343079232720881135424201000),
  (60669229301761806323197874691688705443526457226590989000, 9421380035591414846366488306730319854916574591420727990),
  (69642726041995726486381391372942469786075331779081915200, 8504589431348523921044776507998169658392031677667827620),
  (77638594882067885619296724724228386697621825625519487200, 7468414976565974588707579610284833863874716188104068080),
  (84544594278849801879750706146783816157207510209132956900, 6327404632957483553945368990704509572222284201269451070),
  (90263786198430707421766559923121025134112400537290537300, 5097582529714781199831990072407337952587931854297193480),
  (94715906666171425013591528351803675452071033768431527000, 3796238329436276395030314124885049469077042174404895770),
  (97838544595647099110058035431192630544691656374731850200, 2441785109263190878961582751978840024049592619727034210),
  (99588570114561692900321695932290602595685785511955966700, 1055137261734300715565118768525197790434573717969461460)]

/-- `case 27`, line 761. -/
def g27 : List (ℤ × ℤ) := [(-99617926288898856693888720838122999026068805556587118800, 979899605129436026115005509125909809822581893509159217),
  (-97992347596150122285587335566104718456764222138995076300, 2268623159618062319603420644676148881276772028816635560),
  (-95090055781470500685190803064388289309258993348441765100, 3529705375741971102257828930471164113613888952294181160),
  (-90948232067749110430064501820968925494804433559496095900, 4744941252061506270409671011418471822472562016618472850),
  (-85620790801829449030273722270684279776428699860350582700, 5898353685983359911030083371953163316524059070641216250),
  (-79177163907050822714439734410727073291940106574786351200, 6974882376624559298432288835666727613282469325695200040),
  (-71701347373942369929481621164233954975067205209856314300, 7960486777305777126307495900984240297614667298700295140),
  (-63290797194649514092773463763448861210307601756933669700, 8842315854375695019432280285374911105653675005109910980),
  (-54055156457945689490030094155998282095918044898718169000, 9608872737002850756565264655810585916021162953702933440),
  (-44114825175002688058597415568928145244768459516309938800, 10250163781774579867124771153266380932440989491471733000),
  (-33599390363850889973031903420728454179002001890759419100, 10757828578853318721216298442665740481896609906376466600),
  (-22645936543953685885723910736023017117944673292820367700, 11125248835684519267216309604284867483292038008508326700),
  (-11397258560952996693289498386997662717328053397814099500, 11347634610896514862036994809209925792052451881047202600),
  (0, 11422086737895698904504573690183524868072144335016533000),
  (11397258560952996693289498386997662717328053397814099500, 11347634610896514862036994809209925792052451881047202600),
  (22645936543953685885723910736023017117944673292820367700, 11125248835684519267216309604284867483292038008508326700),
  (33599390363850889973031903420728454179002001890759419100, 10757828578853318721216298442665740481896609906376466600),
  (44114825175002688058597415568928145244768459516309938800, 10250163781774579867124771153266380932440989491471733000),
  (54055156457945689490030094155998282095918044898718169000, 9608872737002850756565264655810585916021162953702933440),
  (63290797194649514092773463763448861210307601756933669700, 8842315854375695019432280285374911105653675005109910980),
  (71701347373942369929481621164233954975067205209856314300, 7960486777305777126307495900984240297614667298700295140),
  (79177163907050822714439734410727073291940106574786351200, 6974882376624559298432288835666727613282469325695200040),
  (85620790801829449030273722270684279776428699860350582700, 5898353685983359911030083371953163316524059070641216250),
  (90948232067749110430064501820968925494804433559496095900, 4744941252061506270409671011418471822472562016618472850),
  (95090055781470500685190803064388289309258993348441765100, 3529705375741971102257828930471164113613888952294181160),
  (97992347596150122285587335566104718456764222138995076300, 2268623159618062319603420644676148881276772028816635560),
  (99617926288898856693888720838122999026068805556587118800, 979899605129436026115005509125909809822581893509159217)]

/-- `case 28`, line 817. -/
def g28 : List (ℤ × ℤ) := [(-99644249757395444995043639048331099175013043209642590500, 912428259309451773881615392295170624034449109829099942),
  (-98130316537087275369455994580783027644415495325313831000, 2113211259277125975150038099326543445136935072328563780),
  (-95425928062893819725410183970521558900340387408795167500, 3290142778230437997763081917053204598153081742009718790),
  (-91563302639213207386968942332992714635249679520912150900, 4427293475900422783958787765320739061499411270856684370),
  (-86589252257439504894225456737968680434186283078422633700, 5510734567571674543148291822694559121905796422566538840),
  (-80564137091717917144788595542527765867170141480831166800, 6527292396699959579339756677550463635363543116260702630),
  (-73561087801363177202814451029253436801606101999304189300, 7464621423456877902393188717302203802163586120633344740),
  (-65665109403886496121989817650674282156960169024992996200, 8311341722890121839039649824433247986113441344385133300),
  (-56972047181140171930800328335643093312471268565664722800, 9057174439303284094218603133678412982285748545448487240),
  (-47587422495511826103441184766743404262721614537865595100, 9693065799792991585048900609544060176503312335646160500),
  (-37625151608907871022135720955608698287169397704322291000, 10211296757806076981421663850571213504658000235792054100),
  (-27206162763517807767682635612576973482476129669352295200, 10605576592284641791041643699681082878992296268515951700),
  (-16456928213338077128147177789116545714572541560116817600, 10871119225829413525357151930367336787527845466604396800),
  (-5507928988403427042651652734187997785079599106083368370, 11004701301647519628237626560181761395662552949123163300),
  (5507928988403427042651652734187997785079599106083368370, 11004701301647519628237626560181761395662552949123163300),
  (16456928213338077128147177789116545714572541560116817600, 10871119225829413525357151930367336787527845466604396800),
  (27206162763517807767682635612576973482476129669352295200, 10605576592284641791041643699681082878992296268515951700),
  (37625151608907871022135720955608698287169397704322291000, 10211296757806076981421663850571213504658000235792054100),
  (47587422495511826103441184766743404262721614537865595100, 9693065799792991585048900609544060176503312335646160500),
  (56972047181140171930800328335643093312471268565664722800, 9057174439303284094218603133678412982285748545448487240),
  (65665109403886496121989817650674282156960169024992996200, 8311341722890121839039649824433247986113441344385133300),
  (73561087801363177202814451029253436801606101999304189300, 7464621423456877902393188717302203802163586120633344740),
  (80564137091717917144788595542527765867170141480831166800, 6527292396699959579339756677550463635363543116260702630),
  (86589252257439504894225456737968680434186283078422633700, 5510734567571674543148291822694559121905796422566538840),
  (91563302639213207386968942332992714635249679520912150900, 4427293475900422783958787765320739061499411270856684370),
  (95425928062893819725410183970521558900340387408795167500, 3290142778230437997763081917053204598153081742009718790),
  (98130316537087275369455994580783027644415495325313831000, 2113211259277125975150038099326543445136935072328563780),
  (99644249757395444995043639048331099175013043209642590500, 912428259309451773881615392295170624034449109829099942)]

/-- `case 29`, line 875. -/
def g29 : List (ℤ × ℤ) := [(-99667944226059658616319153254935388565177345325088000200, 851690387874640965426381330224980300239888979851848605),
  (-98254550526141317487092601578637695610678194890643155900, 1973208505612270598385980164039563114960656819036158770),
  (-95728559577808772579820803698082356373755955395409707100, 3074049220209362264440852537461674974711626096870951030),
  (-92118023295305878509375343608310642540883934331229359800, 4140206251868283610483001011407692153349078038857439730),
  (-87463780492010279041779342125657854691061686311904137100, 5159482690249792391259438117954259791962211064614206770),
  (-81818548761525244498957221457878497563002156188229377100, 6120309065707913854210984802390704492406453977913020830),
  (-75246285173447713391261007721213819021259196822898660800, 7011793325505127856958148694887917310239488867477358190),
  (-67821453760268651515618500539198592638826293001464516300, 7823832713576378382814488865968033136687907695966970950),
  (-59628179713822782037958621118898978007818681038557763800, 8547225736617252754534484929720807138169825661359339530),
  (-50759295512422764210262791962752015335122384038458416400, 9173775713925876334796641107711080689822902098195457130),
  (-41315288817400866389070658603161682332343851873631392000, 9696383409440860630190007488268875917635627792180356430),
  (-31403163786763993494819592319104744825844881909082748100, 10109127375991496612182054690749736364756727885252519900),
  (-21135228616600107450637572890293749905665081771209514800, 10407331007772937391332847128512006891065222067546769200),
  (-10627823013267923017098239243037698091719543929560713600, 10587615509732094140659132785218789307483131374227804000),
  (0, 10647938171831424424651112690967756833018503161299598000),
  (10627823013267923017098239243037698091719543929560713600, 10587615509732094140659132785218789307483131374227804000),
  (21135228616600107450637572890293749905665081771209514800, 10407331007772937391332847128512006891065222067546769200),
  (31403163786763993494819592319104744825844881909082748100, 10109127375991496612182054690749736364756727885252519900),
  (41315288817400866389070658603161682332343851873631392000, 9696383409440860630190007488268875917635627792180356430),
  (50759295512422764210262791962752015335122384038458416400, 9173775713925876334796641107711080689822902098195457130),
  (59628179713822782037958621118898978007818681038557763800, 8547225736617252754534484929720807138169825661359339530),
  (67821453760268651515618500539198592638826293001464516300, 7823832713576378382814488865968033136687907695966970950),
  (75246285173447713391261007721213819021259196822898660800, 7011793325505127856958148694887917310239488867477358190),
  (81818548761525244498957221457878497563002156188229377100, 6120309065707913854210984802390704492406453977913020830),
  (87463780492010279041779342125657854691061686311904137100, 5159482690249792391259438117954259791962211064614206770),
  (92118023295305878509375343608310642540883934331229359800, 4140206251868283610483001011407692153349078038857439730),
  (95728559577808772579820803698082356373755955395409707100, 3074049220209362264440852537461674974711626096870951030),
  (98254550526141317487092601578637695610678194890643155900, 1973208505612270598385980164039563114960656819036158770),
  (99667944226059658616319153254935388565177345325088000200, 851690387874640965426381330224980300239888979851848605)]

/-- `case 30`, line 935. -/
def g30 : List (ℤ × ℤ) := [(-99689348407464954027163005091869528334088203811775079000, 796819249616660561546588347467362245048069658715172123),
  (-98366812327974720997003258160566280194031785470971136400, 1846646831109095914230213191204726909620653396818140340),
  (-96002186496830751221687102558179766293035921740392339900, 2878470788332336934971917961129204363958889454628749650),
  (-92620004742927432587932427708047400408647453682532906100, 3879919256962704959680193644634769203320097676639535210),
  (-88256053579205268154311646253022559005668914714648423200, 4840267283059405290293814042280751781527180919737273630),
  (-82956576238276839744289811973250191643906869617034167900, 5749315621761906648172168940205612879712067072176313450),
  (-76777743210482619491797734097450313169488361723290845300, 6597422988218049512812851511596236123744295365666037900),
  (-69785049479331579693229238802664006838235380065395465600, 7375597473770520626824385002219073415377052603704943890),
  (-62052618298924286114047755643118929920736469282952813300, 8075589522942021535469493846052973087589280370843929990),
  (-53662414814201989926416979331107279416417800693029710500, 8689978720108297980238753071512570257675332874354534400),
  (-44703376953808917678060990032285400016240759386142441000, 9212252223778612871763270708761876719691323441823410750),
  (-35270472553087811347103720708937386065363100802142562700, 9636873717464425963946862635180986509640646143016024590),
  (-25463692616788984643980512981780510788278930330251842600, 9959342058679526706278028210356947652986926366670427720),
  (-15386991360858354696379467274325592041855197124433846200, 10176238974840550459642895216855404463270628948712684100),
  (-5147184255531769583302521316672257374914145366656956430, 10285265289355884034128563670541504386837555706492822300),
  (5147184255531769583302521316672257374914145366656956430, 10285265289355884034128563670541504386837555706492822300),
  (15386991360858354696379467274325592041855197124433846200, 10176238974840550459642895216855404463270628948712684100),
  (25463692616788984643980512981780510788278930330251842600, 9959342058679526706278028210356947652986926366670427720),
  (35270472553087811347103720708937386065363100802142562700, 9636873717464425963946862635180986509640646143016024590),
  (44703376953808917678060990032285400016240759386142441000, 9212252223778612871763270708761876719691323441823410750),
  (53662414814201989926416979331107279416417800693029710500, 8689978720108297980238753071512570257675332874354534400),
  (62052618298924286114047755643118929920736469282952813300, 8075589522942021535469493846052973087589280370843929990),
  (69785049479331579693229238802664006838235380065395465600, 7375597473770520626824385002219073415377052603704943890),
  (76777743210482619491797734097450313169488361723290845300, 6597422988218049512812851511596236123744295365666037900),
  (82956576238276839744289811973250191643906869617034167900, 5749315621761906648172168940205612879712067072176313450),
  (88256053579205268154311646253022559005668914714648423200, 4840267283059405290293814042280751781527180919737273630),
  (92620004742927432587932427708047400408647453682532906100, 3879919256962704959680193644634769203320097676639535210),
  (96002186496830751221687102558179766293035921740392339900, 2878470788332336934971917961129204363958889454628749650),
  (98366812327974720997003258160566280194031785470971136400, 1846646831109095914230213191204726909620653396818140340),
  (99689348407464954027163005091869528334088203811775079000, 796819249616660561546588347467362245048069658715172123)]

/-- `case 31`, line 997. -/
def g31 : List (ℤ × ℤ) := [(-99708748181947707405562655422310250825144533411706963100, 747083157924877585869687503221240702215085248404803970),
  (-98468590966515248400246516673468471093851826951464367100, 1731862079031058246315799608682114136627286276799577660),
  (-96250392509294966178905240410585830189721948515255837700, 2700901918497942180060870809193215614235664600211664590),
  (-93075699789664816495694575972926351281339768725808203600, 3643227391238546402439201046780344232714533204766768590),
  (-88976002994827104337419200898215926154359741186519095000, 4549370752720110290231585789462967726355271931002896490),
  (-83992032014626734008690453594017835605473730107474952300, 5410308242491685371166625908662004272038946259621180770),
  (-78173314841662494040636002019468449109541037201339888000, 6217478656102842691034354368669666715872879936465131530),
  (-71577678458685328390597086536648595589019347616958843300, 6962858323541036616775612625512571051508570739734339370),
  (-64270672292426034618441820323250145399169068333620675700, 7639038659877661642635767490133064492575691369420865410),
  (-56324916140714926272094492359516142794860227316688703100, 8239299176158926390382336743196177061576826655664627780),
  (-47819378204490248044059403935648574843952337149742312500, 8757674060847787612619806969533309222925815977120425150),
  (-38838590160823294306135146128752010198510626789354403600, 9189011389364147821536287160715012549731082537915780420),
  (-29471806998170161661790389767170433875285518527835855700, 9529024291231951280720419748759668454132473824695902270),
  (-19812119933557062877241299603283393777479481216155488000, 9774333538632872509347401097899670383572878867609511450),
  (-9955531215234152032517479011894073383899535877752730610, 9922501122667230787487551442861501401754321995556306980),
  (0, 9972054479342645142753383373434943964325341150020435150),
  (9955531215234152032517479011894073383899535877752730610, 9922501122667230787487551442861501401754321995556306980),
  (19812119933557062877241299603283393777479481216155488000, 9774333538632872509347401097899670383572878867609511450),
  (29471806998170161661790389767170433875285518527835855700, 9529024291231951280720419748759668454132473824695902270),
  (38838590160823294306135146128752010198510626789354403600, 9189011389364147821536287160715012549731082537915780420),
  (47819378204490248044059403935648574843952337149742312500, 8757674060847787612619806969533309222925815977120425150),
  (56324916140714926272094492359516142794860227316688703100, 8239299176158926390382336743196177061576826655664627780),
  (64270672292426034618441820323250145399169068333620675700, 7639038659877661642635767490133064492575691369420865410),
  (71577678458685328390597086536648595589019347616958843300, 6962858323541036616775612625512571051508570739734339370),
  (78173314841662494040636002019468449109541037201339888000, 6217478656102842691034354368669666715872879936465131530),
  (83992032014626734008690453594017835605473730107474952300, 5410308242491685371166625908662004272038946259621180770),
  (88976002994827104337419200898215926154359741186519095000, 4549370752720110290231585789462967726355271931002896490),
  (93075699789664816495694575972926351281339768725808203600, 3643227391238546402439201046780344232714533204766768590),
  (96250392509294966178905240410585830189721948515255837700, 2700901918497942180060870809193215614235664600211664590),
  (98468590966515248400246516673468471093851826951464367100, 1731862079031058246315799608682114136627286276799577660),
  (99708748181947707405562655422310250825144533411706963100, 747083157924877585869687503221240702215085248404803970)]

/-- `case 32`, line 1061. -/
def g32 : List (ℤ × ℤ) := [(-99726386184948156354498112866504072713853766372946115900, 701861000947009660040706373885318251337722072893960323),
  (-98561151154526833540017504463090197863239571433580631800, 1627439473090567060517056220638661817954296379520956640),
  (-96476225558750643077381192811827496038889522044301871900, 2539206530926205945575258978922402928755404754694872090),
  (-93490607593773968917091913483540932552867143228283721800, 3427386291302143310268773225237270699484020291162743380),
  (-89632115576605212396530724371921226847899649679575957700, 4283589802222668065687864660612552849281085759894073960),
  (-84936761373256997013369300496774253895488679304975923300, 5099805926237617619616324468952169526018477673976284370),
  (-79448379596794240696309729897042890209547940163883545300, 5868409347853554714528363730017088675012046745754675870),
  (-73218211874028968038742666509126714663027048350662910100, 6582222277636184683765006370693877287753644737324651540),
  (-66304426693021520097511516866323836897702228596050530100, 7234579410884850622539935647848779160433698330182487070),
  (-58771575724076232904074547640182685845094011545442057300, 7819389578707030647174091882830667103978679848215919030),
  (-50689990893222939002374747437782123018028369959943546400, 8331192422694675522219907460434861153874688394283445980),
  (-42135127613063534536411943617242647833587728863244333100, 8765209300440381114277146275180228754844972170175722230),
  (-33186860228212764977991680573018799619577513680505983600, 9117387869576388471286857711163706254486141327539000530),
  (-23928736225213707454460320916550152060885542196025301600, 9384439908080456563918023766811726003610007574623645010),
  (-14447196158279649348518637359881065220384599131563555200, 9563872007927485941908200220413110059489050816200555100),
  (-4830766568773831623481257044050216369084725173084889720, 9654008851472780056676483006357579473686063123557006870),
  (4830766568773831623481257044050216369084725173084889720, 9654008851472780056676483006357579473686063123557006870),
  (14447196158279649348518637359881065220384599131563555200, 9563872007927485941908200220413110059489050816200555100),
  (23928736225213707454460320916550152060885542196025301600, 9384439908080456563918023766811726003610007574623645010),
  (33186860228212764977991680573018799619577513680505983600, 9117387869576388471286857711163706254486141327539000530),
  (42135127613063534536411943617242647833587728863244333100, 8765209300440381114277146275180228754844972170175722230),
  (50689990893222939002374747437782123018028369959943546400, 8331192422694675522219907460434861153874688394283445980),
  (58771575724076232904074547640182685845094011545442057300, 7819389578707030647174091882830667103978679848215919030),
  (66304426693021520097511516866323836897702228596050530100, 7234579410884850622539935647848779160433698330182487070),
  (73218211874028968038742666509126714663027048350662910100, 6582222277636184683765006370693877287753644737324651540),
  (79448379596794240696309729897042890209547940163883545300, 5868409347853554714528363730017088675012046745754675870),
  (84936761373256997013369300496774253895488679304975923300, 5099805926237617619616324468952169526018477673976284370),
  (89632115576605212396530724371921226847899649679575957700, 4283589802222668065687864660612552849281085759894073960),
  (93490607593773968917091913483540932552867143228283721800, 3427386291302143310268773225237270699484020291162743380),
  (96476225558750643077381192811827496038889522044301871900, 2539206530926205945575258978922402928755404754694872090),
  (98561151154526833540017504463090197863239571433580631800, 1627439473090567060517056220638661817954296379520956640),
  (99726386184948156354498112866504072713853766372946115900, 701861000947009660040706373885318251337722072893960323)]

/-- `case 33`, line 1127. -/
def g33 : List (ℤ × ℤ) := [(-99742469424645521726616801758040416107822901088136192100, 660622784758737805864923520847385503105916250321107135),
  (-98645572623064248811037569826462592158917111421565110000, 1532170151293467612794576853366186675753535478075623680),
  (-96682290968999276892837770667859224521831433657998660000, 2391554810174948035053325752918624206600836114451491920),
  (-93869437261116835035583512436355371261443448409654682600, 3230035863232895328156144724943128806825272305067292720),
  (-90231676774343358304053133151876160747520555819091811500, 4040154133166959156340979052739849616686278838265391690),
  (-85800965267650406464306148014606847332735106889672006600, 4814774281871169567014688013811964974175114867696906130),
  (-80616235627416658979620087078277717569771061813544611200, 5547084663166356128494449543925911042050840715022044030),
  (-74723049644956215785905512489794826885428808646382447900, 6230648253031748003162772577089761142176842757931310680),
  (-68173195996974278626821594691932813466893518071429402900, 6859457281865671280595507301495865248736109294038869770),
  (-61024234583637902730728751353809743140634293088803394900, 7427985484395414934247217591847204671009839319625532350),
  (-53338990478634764354889426499549212545266509222442246900, 7931236479488673836390838494199758808868802939229864270),
  (-45185001727245069572599327724076705379877173439053117700, 8364787606703870761392801451766059742032768654582601650),
  (-36633925774807334107022062325387111129693468110014017200, 8724828761884433760728167094544645656669607129390228840),
  (-27760909715249702940324806729832100575475832927824321900, 9008195866063857723974370550022362118737068207949148500),
  (-18643929882799157233579875921882398783734430282316534200, 9212398664331684621324097771736306072147100320398172060),
  (-9363106585473338567074292412253772132150577815263688130, 9335642606559611616099912627427546495200398608863080500),
  (0, 9376844616020999656730454154634878438447336398182668130),
  (9363106585473338567074292412253772132150577815263688130, 9335642606559611616099912627427546495200398608863080500),
  (18643929882799157233579875921882398783734430282316534200, 9212398664331684621324097771736306072147100320398172060),
  (27760909715249702940324806729832100575475832927824321900, 9008195866063857723974370550022362118737068207949148500),
  (36633925774807334107022062325387111129693468110014017200, 8724828761884433760728167094544645656669607129390228840),
  (45185001727245069572599327724076705379877173439053117700, 8364787606703870761392801451766059742032768654582601650),
  (53338990478634764354889426499549212545266509222442246900, 7931236479488673836390838494199758808868802939229864270),
  (61024234583637902730728751353809743140634293088803394900, 7427985484395414934247217591847204671009839319625532350),
  (68173195996974278626821594691932813466893518071429402900, 6859457281865671280595507301495865248736109294038869770),
  (74723049644956215785905512489794826885428808646382447900, 6230648253031748003162772577089761142176842757931310680),
  (80616235627416658979620087078277717569771061813544611200, 5547084663166356128494449543925911042050840715022044030),
  (85800965267650406464306148014606847332735106889672006600, 4814774281871169567014688013811964974175114867696906130),
  (90231676774343358304053133151876160747520555819091811500, 4040154133166959156340979052739849616686278838265391690),
  (93869437261116835035583512436355371261443448409654682600, 3230035863232895328156144724943128806825272305067292720),
  (96682290968999276892837770667859224521831433657998660000, 2391554810174948035053325752918624206600836114451491920),
  (98645572623064248811037569826462592158917111421565110000, 1532170151293467612794576853366186675753535478075623680),
  (99742469424645521726616801758040416107822901088136192100, 660622784758737805864923520847385503105916250321107135)]

/-- `case 34`, line 1195. -/
def g34 : List (ℤ × ℤ) := [(-99757175379084191924337243745462923140050988268492977300, 622914055590868471860646107143778612452732842980484594),
  (-98722781640630948504975043109968497294877014866013221900, 1445016274859503541520221032874699068754043358465606010),
  (-96870826253334428176464657305599351096780874535347333600, 2256372198549497008409408871495426124903458838818783380),
  (-94216239740510709163167602546057290300620569233711755800, 3049138063844613180944238768131759103062684538958078750),
  (-90780967771832446880089988901928746016239757280315209400, 3816659379638751632176592028997655882394700612666735160),
  (-86593463833456446926357209067129984469663530173678306900, 4552561152335327245382256339527060299823841899631538210),
  (-81688422790093366459157890658697325839314991097425390200, 5250741457267810616824597484246759965871968094696986590),
  (-76106487662987301418740896897873683360449936672619692200, 5905413582752449319396097235052619082848618234650448300),
  (-69893911321626290793300010657577718263776403145575631000, 6511152155407641137854443006489377358363724607281319190),
  (-63102172708052854531777575551900827781089725407344353100, 7062937581425572499903879656768535500116272049090596510),
  (-55787550066974664273645988621627458133744137804535389500, 7556197466003193127083397422843572405881926948134146250),
  (-48010654519032703419410268050739710858735494890390578400, 7986844433977184473881883280643799355055587197219429960),
  (-39835927775864594063149475293235152934246212965564821500, 8351309969984565518702022804614939058071559385754669160),
  (-31331108133946324745831676565097799477122986558449294100, 8646573974703574978424685628074758031407069090181757250),
  (-22566669161644948386864118093434724435218972104798055300, 8870189783569386928707645736488071274428300670380413100),
  (-13615235725918297589442882433111783149728061776453628200, 9020304437064072957394224201749392884102950005063063570),
  (-4550982195310254274907567085193016383108415018720540200, 9095674033025987361533760394857795992460561626025944010),
  (4550982195310254274907567085193016383108415018720540200, 9095674033025987361533760394857795992460561626025944010),
  (13615235725918297589442882433111783149728061776453628200, 9020304437064072957394224201749392884102950005063063570),
  (22566669161644948386864118093434724435218972104798055300, 8870189783569386928707645736488071274428300670380413100),
  (31331108133946324745831676565097799477122986558449294100, 8646573974703574978424685628074758031407069090181757250),
  (39835927775864594063149475293235152934246212965564821500, 8351309969984565518702022804614939058071559385754669160),
  (48010654519032703419410268050739710858735494890390578400, 7986844433977184473881883280643799355055587197219429960),
  (55787550066974664273645988621627458133744137804535389500, 7556197466003193127083397422843572405881926948134146250),
  (63102172708052854531777575551900827781089725407344353100, 7062937581425572499903879656768535500116272049090596510),
  (69893911321626290793300010657577718263776403145575631000, 6511152155407641137854443006489377358363724607281319190),
  (76106487662987301418740896897873683360449936672619692200, 5905413582752449319396097235052619082848618234650448300),
  (81688422790093366459157890658697325839314991097425390200, 5250741457267810616824597484246759965871968094696986590),
  (86593463833456446926357209067129984469663530173678306900, 4552561152335327245382256339527060299823841899631538210),
  (90780967771832446880089988901928746016239757280315209400, 3816659379638751632176592028997655882394700612666735160),
  (94216239740510709163167602546057290300620569233711755800, 3049138063844613180944238768131759103062684538958078750),
  (96870826253334428176464657305599351096780874535347333600, 2256372198549497008409408871495426124903458838818783380),
  (98722781640630948504975043109968497294877014866013221900, 1445016274859503541520221032874699068754043358465606010),
  (99757175379084191924337243745462923140050988268492977300, 622914055590868471860646107143778612452732842980484594)]

/-- `case 35`, line 1265. -/
def g35 : List (ℤ × ℤ) := [(-99770656909960029726016313931209472519327463717101331700, 588343342044308497575389624011262403075431779823297371),
  (-98793576444385149803511708918548598531300829571417435500, 1365082834836149226640400292051638397399403784142492100),
  (-97043761603922983321507048258477014252488123931237660700, 2132297991148358088343798396620507832380964471993620730),
  (-94534514820782732953872598552997464486281125124787315400, 2882926010889425404871603971448491626152772662959499970),
  (-91285426135931761446493706355576423048806101362555800500, 3611011586346338053271696964754993830853577896998694320),
  (-87321912502522233152328234914138526664433890227937494700, 4310842232617021878230645937490820342280658716399020870),
  (-82674989909222540683405061274855757904689061798230734100, 4976937040135352980519967608499495859449495319457316370),
  (-77381025228691255526742300920988748101181007297154592600, 5604081621237012857832774716510096444034853490455634550),
  (-71481450155662878326440863122444674696204396852173051200, 6187367196608018888701413878868865226537122580409643510),
  (-65022436466589038867579280898455926336976232592837400100, 6722228526908690396430550874814855854709311914960480850),
  (-58054534474976450993450200818969007093207020356433243400, 7204479477256006466546190978527775614726739302742726060),
  (-50632277324148861502429755583732737658608793863636924800, 7630345715544205353865853788422622552708008189563653440),
  (-42813754151781425418762061300147985878471844648853384400, 7996494224232426293266208098504575632883549943008884740),
  (-34660155443081394587697983493023823180840876937729210900, 8300059372885658837992652821617700348517450381345112000),
  (-26235294120929605797089520045558051348630439864578128400, 8538665339209912522594398739111756764119098828375075110),
  (-17605106116598956997430365644505992967542971232975704700, 8710444699718353424332203160554093668505671509385493140),
  (-8837134327565926360092943349754880342411743476509814140, 8814053043027546297073880759309664142545431727449083720),
  (0, 8848679490710429063820738777761566918240915001060542330),
  (8837134327565926360092943349754880342411743476509814140, 8814053043027546297073880759309664142545431727449083720),
  (17605106116598956997430365644505992967542971232975704700, 8710444699718353424332203160554093668505671509385493140),
  (26235294120929605797089520045558051348630439864578128400, 8538665339209912522594398739111756764119098828375075110),
  (34660155443081394587697983493023823180840876937729210900, 8300059372885658837992652821617700348517450381345112000),
  (42813754151781425418762061300147985878471844648853384400, 7996494224232426293266208098504575632883549943008884740),
  (50632277324148861502429755583732737658608793863636924800, 7630345715544205353865853788422622552708008189563653440),
  (58054534474976450993450200818969007093207020356433243400, 7204479477256006466546190978527775614726739302742726060),
  (65022436466589038867579280898455926336976232592837400100, 6722228526908690396430550874814855854709311914960480850),
  (71481450155662878326440863122444674696204396852173051200, 6187367196608018888701413878868865226537122580409643510),
  (77381025228691255526742300920988748101181007297154592600, 5604081621237012857832774716510096444034853490455634550),
  (82674989909222540683405061274855757904689061798230734100, 4976937040135352980519967608499495859449495319457316370),
  (87321912502522233152328234914138526664433890227937494700, 4310842232617021878230645937490820342280658716399020870),
  (91285426135931761446493706355576423048806101362555800500, 3611011586346338053271696964754993830853577896998694320),
  (94534514820782732953872598552997464486281125124787315400, 2882926010889425404871603971448491626152772662959499970),
  (97043761603922983321507048258477014252488123931237660700, 2132297991148358088343798396620507832380964471993620730),
  (98793576444385149803511708918548598531300829571417435500, 1365082834836149226640400292051638397399403784142492100),
  (99770656909960029726016313931209472519327463717101331700, 588343342044308497575389624011262403075431779823297371)]

/-- `case 36`, line 1337. -/
def g36 : List (ℤ × ℤ) := [(-99783046248408583619882834558075023864981646239663131300, 556571966424504536125598439054783741722459189417851018),
  (-98858647890221223807339510787710744660716252006528705600, 1291594728406557440450341149779164919196121285147967190),
  (-97202769104969794933560504843110832761604639626595174100, 2018151529773547153209892895822112741958651024086156530),
  (-94827298439950754520247411494522784628937652533367363300, 2729862149856877909441718086798335799045682814205085540),
  (-91749777451565906607586722302615639993690946781365485600, 3421381077030722992124506156271455407009691132677648350),
  (-87992980089039713198242733746583558877329284208075692800, 4087575092364489547411454514326319154793706111907814620),
  (-83584716699247530641882087249860065334677937939232514400, 4723508349026597841661682961667483207315178743436963030),
  (-78557623013220651282776896508029260330233050583960136100, 5324471397775991909202562828621964968892961105894292070),
  (-72948917159355658209026047900610898556584304690519700400, 5886014424532481730967539981892003594275409578255928920),
  (-66800123658552106209719134434091763916470249021263765300, 6403979735501548955638479862585633974602147055084072490),
  (-60156765813598053507994497507359475174295415598675191000, 6874532383573644261368963936361320834173076464213849120),
  (-53068028592624516164070908012156981766122287264682207600, 7294188500565306135387337694127421828694695261699054440),
  (-45586394443342026720721766932744092595784238829685747300, 7659841064587067452875773372150164172792755683199183380),
  (-37767254711968921632273638966990762216617280488528786600, 7968782891207160190872466550186390732753415751472602020),
  (-29668499534402827050323904774517045270024182295982532700, 8218726670433970951722347354494230286496307293462212100),
  (-21350089231686557894322622890271391675846173127276819500, 8407821897966193493345762429159582120393591395760604550),
  (-12873610380938478865199338800515230117728972459937313400, 8534668573933862749185054307648977099878658549729129410),
  (-4301819847370860722696897822836343455429479480600918980, 8598327567039474749008517479052655416005491560349585230),
  (4301819847370860722696897822836343455429479480600918980, 8598327567039474749008517479052655416005491560349585230),
  (12873610380938478865199338800515230117728972459937313400, 8534668573933862749185054307648977099878658549729129410),
  (21350089231686557894322622890271391675846173127276819500, 8407821897966193493345762429159582120393591395760604550),
  (29668499534402827050323904774517045270024182295982532700, 8218726670433970951722347354494230286496307293462212100),
  (37767254711968921632273638966990762216617280488528786600, 7968782891207160190872466550186390732753415751472602020),
  (45586394443342026720721766932744092595784238829685747300, 7659841064587067452875773372150164172792755683199183380),
  (53068028592624516164070908012156981766122287264682207600, 7294188500565306135387337694127421828694695261699054440),
  (60156765813598053507994497507359475174295415598675191000, 6874532383573644261368963936361320834173076464213849120),
  (66800123658552106209719134434091763916470249021263765300, 6403979735501548955638479862585633974602147055084072490),
  (72948917159355658209026047900610898556584304690519700400, 5886014424532481730967539981892003594275409578255928920),
  (78557623013220651282776896508029260330233050583960136100, 5324471397775991909202562828621964968892961105894292070),
  (83584716699247530641882087249860065334677937939232514400, 4723508349026597841661682961667483207315178743436963030),
  (87992980089039713198242733746583558877329284208075692800, 4087575092364489547411454514326319154793706111907814620),
  (91749777451565906607586722302615639993690946781365485600, 3421381077030722992124506156271455407009691132677648350),
  (94827298439950754520247411494522784628937652533367363300, 2729862149856877909441718086798335799045682814205085540),
  (97202769104969794933560504843110832761604639626595174100, 2018151529773547153209892895822112741958651024086156530),
  (98858647890221223807339510787710744660716252006528705600, 1291594728406557440450341149779164919196121285147967190),
  (99783046248408583619882834558075023864981646239663131300, 556571966424504536125598439054783741722459189417851018)]

/-- `case 37`, line 1411. -/
def g37 : List (ℤ × ℤ) := [(-99794458247791364894080307431736328366900784948672915400, 527305727949793935172205423353038918308830590652726543),
  (-98918596321431918668409906058427230896245291758067398000, 1223878010030755652630485243634657594229095311126608230),
  (-97349303005648574432889047566575934481538461670860826800, 1912904448908396604350194794010617413029523574621032570),
  (-95097234326209482132857609681632593399754857980457738600, 2588603699055893352275948136248729802948418257510327040),
  (-92178143741246374266814368670071348878159526716232966100, 3246163984752148106723425350145872879909455912252466640),
  (-88612496215548607894614950901688644010681323482689630800, 3880960250193454448896237032847601996738918927368540080),
  (-84425298734055596798745627617486023169063449589762218400, 4488536466243716665741030411019636019472330651441393300),
  (-79645920050990229339304633550032452348563115894052160800, 5064629765482460160387586308671634405270576294535410970),
  (-74307883398196526254704741747381287908990185326301260200, 5605198799827491780853923966425266642675385528776707880),
  (-68448630913095935744552321243115370804434381097007768700, 6106451652322598613098810450049658567799400906236310490),
  (-62109260840892448314815259159505731004172640060413515900, 6564872287275124948402376629797121819667732114972492650),
  (-55334239186158178123509835822926447347228655224098232400, 6977245155570034488508135679301929118602367869775608740),
  (-48171087780320555414719286888263917198952243434735039600, 7340677724848817272462663151979546498346994219764821460),
  (-40670050931832611010093159161396660852247127935055890000, 7652620757052923788588799120662251549536331553154405160),
  (-32883742988370699949847180133994048368002257529230803800, 7910886183752938076721218739664523851600693506418236600),
  (-24866779279136575880556775148771621853167765168294515800, 8113662450846503050987760179979226356646004497462493850),
  (-16675393023985197696867173041182443746664839603127634900, 8259527223643725089123030115283847077330645260203976820),
  (-8367040895476990194304833173639917756352163203515229360, 8347457362586278725225300948451869902043531020302605010),
  (0, 8376836099313890479701736636945939171687528006847671920),
  (8367040895476990194304833173639917756352163203515229360, 8347457362586278725225300948451869902043531020302605010),
  (16675393023985197696867173041182443746664839603127634900, 8259527223643725089123030115283847077330645260203976820),
  (24866779279136575880556775148771621853167765168294515800, 8113662450846503050987760179979226356646004497462493850),
  (32883742988370699949847180133994048368002257529230803800, 7910886183752938076721218739664523851600693506418236600),
  (40670050931832611010093159161396660852247127935055890000, 7652620757052923788588799120662251549536331553154405160),
  (48171087780320555414719286888263917198952243434735039600, 7340677724848817272462663151979546498346994219764821460),
  (55334239186158178123509835822926447347228655224098232400, 6977245155570034488508135679301929118602367869775608740),
  (62109260840892448314815259159505731004172640060413515900, 6564872287275124948402376629797121819667732114972492650),
  (68448630913095935744552321243115370804434381097007768700, 6106451652322598613098810450049658567799400906236310490),
  (74307883398196526254704741747381287908990185326301260200, 5605198799827491780853923966425266642675385528776707880),
  (79645920050990229339304633550032452348563115894052160800, 5064629765482460160387586308671634405270576294535410970),
  (84425298734055596798745627617486023169063449589762218400, 4488536466243716665741030411019636019472330651441393300),
  (88612496215548607894614950901688644010681323482689630800, 3880960250193454448896237032847601996738918927368540080),
  (92178143741246374266814368670071348878159526716232966100, 3246163984752148106723425350145872879909455912252466640),
  (95097234326209482132857609681632593399754857980457738600, 2588603699055893352275948136248729802948418257510327040),
  (97349303005648574432889047566575934481538461670860826800, 1912904448908396604350194794010617413029523574621032570),
  (98918596321431918668409906058427230896245291758067398000, 1223878010030755652630485243634657594229095311126608230),
  (99794458247791364894080307431736328366900784948672915400, 527305727949793935172205423353038918308830590652726543)]

/-- `case 38`, line 1487. -/
def g38 : List (ℤ × ℤ) := [(-99804993053568761981284707655158099749046537027458809000, 500288074963934567589954209189937046383927186262170591),
  (-98973945426638557194442589110567934732438124690802220600, 1161344471646867417766830120043742735723674786011232970),
  (-97484632859015350764088554094638864259197535876607351600, 1815657770961323689887612575478220226291233903979712240),
  (-95346633093352959567054215311744121738577897072292871000, 2457973973823237589520120544670628744595916222720204670),
  (-92574133204858439682510956221305091148091787648110552100, 3083950054517505465873108631330868892041189549719851880),
  (-89185573900463221679493703197391751157989905323451536100, 3689408159402473816494016233681495034735611724058349000),
  (-85203502193236218885964971124727628044038503732763096900, 4270315850467443423587843435880770867841748456815214420),
  (-80654416760531681555156537597969832573177298132931962100, 4822806186075868337435217991142022418936100278527613230),
  (-75568590375397068073773809677938741350383757074670392700, 5343201991033231997375699063124875607691531033875608560),
  (-69979868037918435591282584062741587563820701530059043800, 5828039914699720602230586825814005591512770215855598650),
  (-63925441582968170718034486950026027170117039540966142900, 6274093339213305405296967152513706432090388899690875830),
  (-57445602104780708113292750092447251021019959785379876500, 6678393797914041193504615152901925995595215603527924170),
  (-50583471792793110324053371646765200279384655063718764500, 7038250706689895473928296759365884083926170176246120650),
  (-43384716943237648437325616251784220400592380040683912400, 7351269258474345714520644484833647857663719509243175540),
  (-35897244047943501325671762145653429179606294921136807400, 7615366354844639606599354110447252799634521883255451880),
  (-28170880979016526136011407141870007676967050878361133200, 7828784465821094807537540333573626256490374485784182560),
  (-20257045389211670320397778151460705737165508575370351700, 7990103324352782158602768392518569655030123958968157900),
  (-12208402533786741986961238132940711656811814149930000900, 8098249377059710062326946994905814193651516978408875410),
  (-4078514790457823991331643232978492078477364268365481170, 8152502928038578669921876988583005560164265147049679840),
  (4078514790457823991331643232978492078477364268365481170, 8152502928038578669921876988583005560164265147049679840),
  (12208402533786741986961238132940711656811814149930000900, 8098249377059710062326946994905814193651516978408875410),
  (20257045389211670320397778151460705737165508575370351700, 7990103324352782158602768392518569655030123958968157900),
  (28170880979016526136011407141870007676967050878361133200, 7828784465821094807537540333573626256490374485784182560),
  (35897244047943501325671762145653429179606294921136807400, 7615366354844639606599354110447252799634521883255451880),
  (43384716943237648437325616251784220400592380040683912400, 7351269258474345714520644484833647857663719509243175540),
  (50583471792793110324053371646765200279384655063718764500, 7038250706689895473928296759365884083926170176246120650),
  (57445602104780708113292750092447251021019959785379876500, 6678393797914041193504615152901925995595215603527924170),
  (63925441582968170718034486950026027170117039540966142900, 6274093339213305405296967152513706432090388899690875830),
  (69979868037918435591282584062741587563820701530059043800, 5828039914699720602230586825814005591512770215855598650),
  (75568590375397068073773809677938741350383757074670392700, 5343201991033231997375699063124875607691531033875608560),
  (80654416760531681555156537597969832573177298132931962100, 4822806186075868337435217991142022418936100278527613230),
  (85203502193236218885964971124727628044038503732763096900, 4270315850467443423587843435880770867841748456815214420),
  (89185573900463221679493703197391751157989905323451536100, 3689408159402473816494016233681495034735611724058349000),
  (92574133204858439682510956221305091148091787648110552100, 3083950054517505465873108631330868892041189549719851880),
  (95346633093352959567054215311744121738577897072292871000, 2457973973823237589520120544670628744595916222720204670),
  (97484632859015350764088554094638864259197535876607351600, 1815657770961323689887612575478220226291233903979712240),
  (98973945426638557194442589110567934732438124690802220600, 1161344471646867417766830120043742735723674786011232970),
  (99804993053568761981284707655158099749046537027458809000, 500288074963934567589954209189937046383927186262170591)]

/-- `case 39`, line 1565. -/
def g39 : List (ℤ × ℤ) := [(-99814738306643290600547230285182044183200974004966421200, 475294469163510137077621315490694198569508454183706144),
  (-99025153685468598363977511724707820470969382104019179600, 1103478893916459424267680545217728945350713937311815590),
  (-97609870933347105384485031988951849429074741268010170300, 1725622909372491904080547118335504721371590189046231540),
  (-95577521232465227711089189719108220300177179063887613600, 2336938483217816459471234444292469889119755546375666590),
  (-92940914848673822969781696435773456184410280950770352700, 2933495598390337859215598635625142561141146710160456530),
  (-89716711929299288784829109086081365106569207797562300200, 3511511149813133076106518529723281636666148761972668560),
  (-85925293799990615391379743912604237053508444531982206100, 4067327684793384393905655608226140368757243599606290480),
  (-81590629743014310435323267840962982772781406052092385700, 4597430110891663188417663939923278059886169303399946390),
  (-76740124293106349983227240422834294547283411345901066200, 5098466529212940521402103367658133501761308388128490530),
  (-71404443589453467913386703615183078966434528189369821500, 5567269034091629990739113978968148270696094807358006840),
  (-65617321343201091073442593497625618488010761157697043100, 6000873608859614957494177354881949973667822709184630430),
  (-59415345495727798869289007461910606816559154467812653500, 6396538813868238898670640441006364485577691688997987970),
  (-52837726866043747389634363580822250534071765348542477600, 6751763096623126536302132804644859377515270808347703580),
  (-45926051230913604866324663310957236293874915369601723800, 7064300597060876077011493152813113646742968415902816930),
  (-38724016397156145585388196563696269601257617271682661600, 7332175341426861738115393286504830644789342425097513080),
  (-31277155924818592253599691178562873960190560997753935000, 7553693732283605770478444699080939909418797859002184430),
  (-23632551246183576733600632733265044806571922479405759600, 7727455254468201672851163673311729912049525148879115090),
  (-15838533999783779992270106136139938446682623686514314000, 7852361328737117672506330098552347152258147640924886090),
  (-7944380460875547758191708319264064688500316510674193330, 7927622256836847101015577175450793052380414867826642470),
  (0, 7952762213944285241741819660585099384560677476586481430),
  (7944380460875547758191708319264064688500316510674193330, 7927622256836847101015577175450793052380414867826642470),
  (15838533999783779992270106136139938446682623686514314000, 7852361328737117672506330098552347152258147640924886090),
  (23632551246183576733600632733265044806571922479405759600, 7727455254468201672851163673311729912049525148879115090),
  (31277155924818592253599691178562873960190560997753935000, 7553693732283605770478444699080939909418797859002184430),
  (38724016397156145585388196563696269601257617271682661600, 7332175341426861738115393286504830644789342425097513080),
  (45926051230913604866324663310957236293874915369601723800, 7064300597060876077011493152813113646742968415902816930),
  (52837726866043747389634363580822250534071765348542477600, 6751763096623126536302132804644859377515270808347703580),
  (59415345495727798869289007461910606816559154467812653500, 6396538813868238898670640441006364485577691688997987970),
  (65617321343201091073442593497625618488010761157697043100, 6000873608859614957494177354881949973667822709184630430),
  (71404443589453467913386703615183078966434528189369821500, 5567269034091629990739113978968148270696094807358006840),
  (76740124293106349983227240422834294547283411345901066200, 5098466529212940521402103367658133501761308388128490530),
  (81590629743014310435323267840962982772781406052092385700, 4597430110891663188417663939923278059886169303399946390),
  (85925293799990615391379743912604237053508444531982206100, 4067327684793384393905655608226140368757243599606290480),
  (89716711929299288784829109086081365106569207797562300200, 3511511149813133076106518529723281636666148761972668560),
  (92940914848673822969781696435773456184410280950770352700, 2933495598390337859215598635625142561141146710160456530),
  (95577521232465227711089189719108220300177179063887613600, 2336938483217816459471234444292469889119755546375666590),
  (97609870933347105384485031988951849429074741268010170300, 1725622909372491904080547118335504721371590189046231540),
  (99025153685468598363977511724707820470969382104019179600, 1103478893916459424267680545217728945350713937311815590),
  (99814738306643290600547230285182044183200974004966421200, 475294469163510137077621315490694198569508454183706144)]

/-- `case 40`, line 1645. -/
def g40 : List (ℤ × ℤ) := [(-99823770971055920034962270242058649233577038159504590700, 452127709853319125847173287818533272783111019970599070),
  (-99072623869945700645305435222137215496222208135108653800, 1049828453115281361474217106727965237679262131579677970),
  (-97725994998377426266337028371290380697866793203798609600, 1642105838190788871286348488236392729234229334695776200),
  (-95791681921379165580454099945275928509488349060274703200, 2224584919416695726150432418420857320703319667935442790),
  (-93281280827867653336085216684520571643475357528269244900, 2793700698002340109848915750772107730255086205076639840),
  (-90209880696887429672825333086849310358448808105766946800, 3346019528254784739267818308641084897724178665376435040),
  (-86595950321225950382078180835461996357054655301110164900, 3878216797447201763997203129044616225345921123202585780),
  (-82461223083331166319632023066609877390724038424298780000, 4387090818567327199167468604171549581100683717023688980),
  (-77830565142651938769497154550649484802069131612689179400, 4869580763507223206143416044814638806784302737711977510),
  (-72731825518992710328099645175493054855737867353332813800, 5322784698393682435499647977226050455532117182200645080),
  (-67195668461417954837935451496149410997032598138385115000, 5743976909939155136661773091042598560010483585445362650),
  (-61255388966798023795261245023069487738012378168314961100, 6130624249292893916653799640839859590259376351117432200),
  (-54946712509512820207593130552951797023397510159565146500, 6480401345660103807455452956675273003269296420848890640),
  (-48307580168617871290856657424482300459902239553311410100, 6791204581523390382569010823192398598419723837928595470),
  (-41377920437160500152487974580371368297409962405291823800, 7061164739128677969548363085528683235955910399558609730),
  (-34199409082575847300749248117919431006695362002732579600, 7288658239580405906051068344251783585755908098579863050),
  (-26815218500725368114118434480859618342480437323624698100, 7472316905796826420018933626132467319120293442035982170),
  (-19269758070137109971551685206514989481409202110520887500, 7611036190062624237155807592249482301255955384507110710),
  (-11608407067525520848345128440802411376872853085421594900, 7703981816424796558830753428381024852443975416394041550),
  (-3877241750605082193319344402462329467936463438314159920, 7750594797842481126372396295832632696366865278810643570),
  (3877241750605082193319344402462329467936463438314159920, 7750594797842481126372396295832632696366865278810643570),
  (11608407067525520848345128440802411376872853085421594900, 7703981816424796558830753428381024852443975416394041550),
  (19269758070137109971551685206514989481409202110520887500, 7611036190062624237155807592249482301255955384507110710),
  (26815218500725368114118434480859618342480437323624698100, 7472316905796826420018933626132467319120293442035982170),
  (34199409082575847300749248117919431006695362002732579600, 7288658239580405906051068344251783585755908098579863050),
  (41377920437160500152487974580371368297409962405291823800, 7061164739128677969548363085528683235955910399558609730),
  (48307580168617871290856657424482300459902239553311410100, 6791204581523390382569010823192398598419723837928595470),
  (54946712509512820207593130552951797023397510159565146500, 6480401345660103807455452956675273003269296420848890640),
  (61255388966798023795261245023069487738012378168314961100, 6130624249292893916653799640839859590259376351117432200),
  (67195668461417954837935451496149410997032598138385115000, 5743976909939155136661773091042598560010483585445362650),
  (72731825518992710328099645175493054855737867353332813800, 5322784698393682435499647977226050455532117182200645080),
  (77830565142651938769497154550649484802069131612689179400, 4869580763507223206143416044814638806784302737711977510),
  (82461223083331166319632023066609877390724038424298780000, 4387090818567327199167468604171549581100683717023688980),
  (86595950321225950382078180835461996357054655301110164900, 3878216797447201763997203129044616225345921123202585780),
  (90209880696887429672825333086849310358448808105766946800, 3346019528254784739267818308641084897724178665376435040),
  (93281280827867653336085216684520571643475357528269244900, 2793700698002340109848915750772107730255086205076639840),
  (95791681921379165580454099945275928509488349060274703200, 2224584919416695726150432418420857320703319667935442790),
  (97725994998377426266337028371290380697866793203798609600, 1642105838190788871286348488236392729234229334695776200),
  (99072623869945700645305435222137215496222208135108653800, 1049828453115281361474217106727965237679262131579677970),
  (99823770971055920034962270242058649233577038159504590700, 452127709853319125847173287818533272783111019970599070)]

/-- `case 41`, line 1727. -/
def g41 : List (ℤ × ℤ) := [(-99832158857477144151918850808837756793150435151367016600, 430614035816488768400447790465448618636220399530170482),
  (-99116710969901630825015889457316965769275601357000304700, 999993877390594533849629662969883955022493577115020595),
  (-97833867356108338446917070667396719837563678191865428200, 1564493840781858853082684447953367744081788936964635640),
  (-95990689173034622609944169606868658206695109082946635100, 2120106336877955307569703349337662657171705432735830820),
  (-93597698749785382568231827528476626627123711808734477500, 2663589920711044546754857525871327704469049200524813800),
  (-90668594475810117295834041323072297335430718532228485400, 3191821173169928178706694685714554370118775329751101260),
  (-87220151169244140883367057423432946028204265553953300200, 3701771670350798843526125158016066860627154632186754280),
  (-83272120040136133124427277904854379997697599297858213300, 4190519519590968942934027431104883793626637743202238330),
  (-78847114504740937273622178146677028899471207909872721000, 4655264836901434206075658686461142313099019858059018500),
  (-73970480306992618106016874446855900039525443905256896500, 5093345429461749478117035711568863142080344678687032880),
  (-68670150203495128958460385652913481206643846014967312900, 5502251924257874188014681017142226997377533660536959050),
  (-62976483907219632048864909169510350107851478073947087400, 5879642094987194499118585338073427400088123860272694090),
  (-56922094161021586965474721528298025161045692397954524400, 6223354258096631647157341708334648543015986994494342940),
  (-50541659919940603270833607020269476495107554601518024600, 6531419645352741043616371265379634041985923672106812630),
  (-43871727705140708851711985672803924842178575875946864300, 6802073676087676673553323972624892825669912013859416540),
  (-36950502264048144142836691329993520562408697133187607900, 7033766062081749748165898996988145600123338016781027970),
  (-29817627734182486592298288047892430413995586844614852600, 7225169686102307339634639834878735488529477052487254890),
  (-22513960563342277560578625665547233029991242064424322200, 7375188202722346993928081832484867947791628042833964270),
  (-15081335486399216357437796788458237577563094532949783100, 7482962317622155189130507263350532294568306737803071760),
  (-7562325898916299692376619365120026748105063560665694880, 7547874709271582402724706267461674907360636090306277620),
  (0, 7569553564729837231877996107636025589111888139523123310),
  (7562325898916299692376619365120026748105063560665694880, 7547874709271582402724706267461674907360636090306277620),
  (15081335486399216357437796788458237577563094532949783100, 7482962317622155189130507263350532294568306737803071760),
  (22513960563342277560578625665547233029991242064424322200, 7375188202722346993928081832484867947791628042833964270),
  (29817627734182486592298288047892430413995586844614852600, 7225169686102307339634639834878735488529477052487254890),
  (36950502264048144142836691329993520562408697133187607900, 7033766062081749748165898996988145600123338016781027970),
  (43871727705140708851711985672803924842178575875946864300, 6802073676087676673553323972624892825669912013859416540),
  (50541659919940603270833607020269476495107554601518024600, 6531419645352741043616371265379634041985923672106812630),
  (56922094161021586965474721528298025161045692397954524400, 6223354258096631647157341708334648543015986994494342940),
  (62976483907219632048864909169510350107851478073947087400, 5879642094987194499118585338073427400088123860272694090),
  (68670150203495128958460385652913481206643846014967312900, 5502251924257874188014681017142226997377533660536959050),
  (73970480306992618106016874446855900039525443905256896500, 5093345429461749478117035711568863142080344678687032880),
  (78847114504740937273622178146677028899471207909872721000, 4655264836901434206075658686461142313099019858059018500),
  (83272120040136133124427277904854379997697599297858213300, 4190519519590968942934027431104883793626637743202238330),
  (87220151169244140883367057423432946028204265553953300200, 3701771670350798843526125158016066860627154632186754280),
  (90668594475810117295834041323072297335430718532228485400, 3191821173169928178706694685714554370118775329751101260),
  (93597698749785382568231827528476626627123711808734477500, 2663589920711044546754857525871327704469049200524813800),
  (95990689173034622609944169606868658206695109082946635100, 2120106336877955307569703349337662657171705432735830820),
  (97833867356108338446917070667396719837563678191865428200, 1564493840781858853082684447953367744081788936964635640),
  (99116710969901630825015889457316965769275601357000304700, 999993877390594533849629662969883955022493577115020595),
  (99832158857477144151918850808837756793150435151367016600, 430614035816488768400447790465448618636220399530170482)]

/-- `case 42`, line 1811. -/
def g42 : List (ℤ × ℤ) := [(-99839961899006241502286812684705027617787608352278125200, 410599860464908461060277949683596265701677337480229036),
  (-99157728834086091979236125328086883345269326473710401800, 953622030174850241182010029269799818868479873501257251),
  (-97934250806374819370898256654285609558647498012906292900, 1492244369735749414467767810586576762009274749010789660),
  (-96175936533820448874692715785332268117172128891403199900, 2022786956905264475705571907935418508267142655242209620),
  (-93892355735498817853317343362559197025138781845017187100, 2542295952611304788674244290943086438613541037397895490),
  (-91095972490412745258384787920850654231890035133945560400, 3047924069960346836290473352339239779176965424440089480),
  (-87802056981217274271198510347862353406281971624391859900, 3536907109759211083266218112650754190574852178064145010),
  (-84028598326181690092543999508609981782339857519356835700, 4006573518069226176059612483003693455373370186574561510),
  (-79796205325548741323270595254637666013237551129065413400, 4454357777196587787431636598523424131859546603712758120),
  (-75127993568948048956847217591465865550256451982954092500, 4877814079280324502744936312840272392111769693422690300),
  (-70049459055617121374156992905546553430017594180009318100, 5274629569917407034394253904409747703156598782718611960),
  (-64588338886924783395749630371841170116908654384014386500, 5642636935801838164642685513969568939887315857628850740),
  (-58774459748510932284071134547399571990543130482800164600, 5979826222758665431283154575353485150985341869594390950),
  (-52639574993119228759286755879190146143573976492990992900, 6284355804500257640931825132377988915279704392188973870),
  (-46217191207042192975907502993063598510966490847360863100, 6554562436490897892700510785179442560978229408579308230),
  (-39542385204297505767709395459437198079917857648635348800, 6788970337652194485536340221376630726613473465859319790),
  (-32651612446541151219715658937546566905841147049858452400, 6986299249259415976615478638148220444392731304743209370),
  (-25582507934287908396641479101870844876876645646540095500, 7145471426517098292181044411746215502258986387750371860),
  (-18373680656485455085275563938074294093332396162251510000, 7265617524380410488790576149253303127678368396842723000),
  (-11064502720851986834912254500264100486734402448363080700, 7346081345346752826402825705430393873365578345040523940),
  (-3694894316535177581309598003755942664170845224922253130, 7386423423217287999638556114979141312847052050207090810),
  (3694894316535177581309598003755942664170845224922253130, 7386423423217287999638556114979141312847052050207090810),
  (11064502720851986834912254500264100486734402448363080700, 7346081345346752826402825705430393873365578345040523940),
  (18373680656485455085275563938074294093332396162251510000, 7265617524380410488790576149253303127678368396842723000),
  (25582507934287908396641479101870844876876645646540095500, 7145471426517098292181044411746215502258986387750371860),
  (32651612446541151219715658937546566905841147049858452400, 6986299249259415976615478638148220444392731304743209370),
  (39542385204297505767709395459437198079917857648635348800, 6788970337652194485536340221376630726613473465859319790),
  (46217191207042192975907502993063598510966490847360863100, 6554562436490897892700510785179442560978229408579308230),
  (52639574993119228759286755879190146143573976492990992900, 6284355804500257640931825132377988915279704392188973870),
  (58774459748510932284071134547399571990543130482800164600, 5979826222758665431283154575353485150985341869594390950),
  (64588338886924783395749630371841170116908654384014386500, 5642636935801838164642685513969568939887315857628850740),
  (70049459055617121374156992905546553430017594180009318100, 5274629569917407034394253904409747703156598782718611960),
  (75127993568948048956847217591465865550256451982954092500, 4877814079280324502744936312840272392111769693422690300),
  (79796205325548741323270595254637666013237551129065413400, 4454357777196587787431636598523424131859546603712758120),
  (84028598326181690092543999508609981782339857519356835700, 4006573518069226176059612483003693455373370186574561510),
  (87802056981217274271198510347862353406281971624391859900, 3536907109759211083266218112650754190574852178064145010),
  (91095972490412745258384787920850654231890035133945560400, 3047924069960346836290473352339239779176965424440089480),
  (93892355735498817853317343362559197025138781845017187100, 2542295952611304788674244290943086438613541037397895490),
  (96175936533820448874692715785332268117172128891403199900, 2022786956905264475705571907935418508267142655242209620),
  (97934250806374819370898256654285609558647498012906292900, 1492244369735749414467767810586576762009274749010789660),
  (99157728834086091979236125328086883345269326473710401800, 953622030174850241182010029269799818868479873501257251),
  (99839961899006241502286812684705027617787608352278125200, 410599860464908461060277949683596265701677337480229036)]

/-- `case 43`, line 1897. -/
def g43 : List (ℤ × ℤ) := [(-99847233224250771351763618731839241196205071784760914300, 391949025384412728296716519257643543366036457269087234),
  (-99195955759324414642071834132961801638705322595895272800, 910399663740140331886860829589672381301797555982670408),
  (-98027822098025533150552938218113639018086759651957348400, 1424875643157648610854160172200419357207399314416233530),
  (-96348661301407999341019496357424393986761891227871254600, 1931990142368390039612461089207135231702355908825696860),
  (-94167195684763786181847739039793827146647608981382775800, 2429045661383881590201832425424924845523703933581213750),
  (-91494790720613872945610287079928561674578010310842305700, 2913441326149849491594042482578119378755056984019203200),
  (-88345376521861686333767801164216741786216669424245159900, 3382649208686029234496847575380209105330161064713236690),
  (-84735371620931504899908608582179251751259654747723988400, 3834222219413265757212842466284911488007256286839717550),
  (-80683596413693863527907474087751212606088624348175259700, 4265805719798208376380720533851389410494709123676725070),
  (-76211174719495512146032846302904618780759525868595775600, 4675149475434658001064676633710293393286309593566385680),
  (-71341423526895705485192087799090410264252916711363611600, 5060119278439015652385039895301474574989800909801219100),
  (-66099731375149813316513476374134539411315681253421329300, 5418708031888178686337317832626541358839055267071128470),
  (-60513425963960093572508307112395522143836980789452728900, 5749046195691051942760891684441651192786886819456543270),
  (-54611631666008471914040504717966083665485422412475580300, 6049411524999129451967874199136279335850887987042858740),
  (-48425117678573472406963343474851377799357708187172329600, 6318238044939611232562981777340826425669623463946884670),
  (-41986137602926925248727939456056802607498890771457094800, 6554124212632279749123376424920783022496253377845482630),
  (-35328261286430380664547636414346787178044503014256554200, 6755840222936516919240790475626559214294629258572960830),
  (-28486199803291362710572289483833793178587981775426117000, 6922334419365668428229947912263514780930498957092782380),
  (-21495624486051820901487838147367495373722428638545304400, 7052738776508502812628635547794074318373616678496415010),
  (-14392980951071331077029993761074468868278888347134264800, 7146373425251414129758111770291024858090001936779567320),
  (-7215299087458623542232725095556109485765527666061430550, 7202750197142197434530755167085708775350424594741470160),
  (0, 7221575169379898797746233171373688014707069052525034900),
  (7215299087458623542232725095556109485765527666061430550, 7202750197142197434530755167085708775350424594741470160),
  (14392980951071331077029993761074468868278888347134264800, 7146373425251414129758111770291024858090001936779567320),
  (21495624486051820901487838147367495373722428638545304400, 7052738776508502812628635547794074318373616678496415010),
  (28486199803291362710572289483833793178587981775426117000, 6922334419365668428229947912263514780930498957092782380),
  (35328261286430380664547636414346787178044503014256554200, 6755840222936516919240790475626559214294629258572960830),
  (41986137602926925248727939456056802607498890771457094800, 6554124212632279749123376424920783022496253377845482630),
  (48425117678573472406963343474851377799357708187172329600, 6318238044939611232562981777340826425669623463946884670),
  (54611631666008471914040504717966083665485422412475580300, 6049411524999129451967874199136279335850887987042858740),
  (60513425963960093572508307112395522143836980789452728900, 5749046195691051942760891684441651192786886819456543270),
  (66099731375149813316513476374134539411315681253421329300, 5418708031888178686337317832626541358839055267071128470),
  (71341423526895705485192087799090410264252916711363611600, 5060119278439015652385039895301474574989800909801219100),
  (76211174719495512146032846302904618780759525868595775600, 4675149475434658001064676633710293393286309593566385680),
  (80683596413693863527907474087751212606088624348175259700, 4265805719798208376380720533851389410494709123676725070),
  (84735371620931504899908608582179251751259654747723988400, 3834222219413265757212842466284911488007256286839717550),
  (88345376521861686333767801164216741786216669424245159900, 3382649208686029234496847575380209105330161064713236690),
  (91494790720613872945610287079928561674578010310842305700, 2913441326149849491594042482578119378755056984019203200),
  (94167195684763786181847739039793827146647608981382775800, 2429045661383881590201832425424924845523703933581213750),
  (96348661301407999341019496357424393986761891227871254600, 1931990142368390039612461089207135231702355908825696860),
  (98027822098025533150552938218113639018086759651957348400, 1424875643157648610854160172200419357207399314416233530),
  (99195955759324414642071834132961801638705322595895272800, 910399663740140331886860829589672381301797555982670408),
  (99847233224250771351763618731839241196205071784760914300, 391949025384412728296716519257643543366036457269087234)]

/-- `case 44`, line 1985. -/
def g44 : List (ℤ × ℤ) := [(-99854020063677422493605672060665034905603003317541459800, 374540480311277751517377883176153847769791634328217317),
  (-99231639213851580848333800361353856881189778435221007700, 870048136752484412256562342431314020846842115836189609),
  (-98115183307791396666274900535048782880567555553965774000, 1361958675557998552020506639006137887326671975487072330),
  (-96509965042249313939439805058023497471687713858988509300, 1847148173681474917204222374339984411552073831390187730),
  (-94423950911819409920325465302698925107245493475992297500, 2323148190201921062895826293873141748822190203565799720),
  (-91867525998417577432300108669425204893798526304505300600, 2787578282128101008111429177938706432205883989299034860),
  (-88853423828604320233836791019032232475833245820942590000, 3238122281206982088084693954011160114694805178002942050),
  (-85396659500471037872830224129268389036116906202906845000, 3672534781380887364290929234870179971070878799974687290),
  (-81514453964513501048743763575194055029940057450859424400, 4088651231034621890844716928306848685407928902670259600),
  (-77226147924875589901775854923198801372809643956544711000, 4484398408197003144624318640305110718096302165573399970),
  (-72553105366071700260696493671995361101246580020809526000, 4857804644835203752763943669129273761505139910682467590),
  (-67518607066612236533369903856389992332825540112377087500, 5207009609170446188123180299319875105626417474111692660),
  (-62147734590357584780242469912176674714440588001716355900, 5530273556372805254874663264315299147153484641761776010),
  (-56467245318547076842463681938207521949074547960426611500, 5825985987759549533421068984427716800475616910335356740),
  (-50505439138820231798279835229117723861207329550534861300, 6092673670156196803855783687437410067257248948165011220),
  (-44292017452541148383482659364731354953847846030811794900, 6329007973320385495013887101971493063802428824409418540),
  (-37857935201470713251176467277219785674282084849567037300, 6533811487918143498424089484562218949601080112967692860),
  (-31235246650278581223654516357297853551926362175328863600, 6706063890629365239570491935171935078071301307276156800),
  (-24456945692820125150730243474051862053048725928004960400, 6844907026936666098545866070434987244515554363590004090),
  (-17556801477551678574650774938097659064737450672451331500, 6949649186157257803708409092501125678209347538117422740),
  (-10569190170865324711730584891512175238338599885959761400, 7019768547355821258714204194439938766882668621562845790),
  (-3528923696413535905819670463141635588500219758952707680, 7054915778935406881133828748029988499106342550892364480),
  (3528923696413535905819670463141635588500219758952707680, 7054915778935406881133828748029988499106342550892364480),
  (10569190170865324711730584891512175238338599885959761400, 7019768547355821258714204194439938766882668621562845790),
  (17556801477551678574650774938097659064737450672451331500, 6949649186157257803708409092501125678209347538117422740),
  (24456945692820125150730243474051862053048725928004960400, 6844907026936666098545866070434987244515554363590004090),
  (31235246650278581223654516357297853551926362175328863600, 6706063890629365239570491935171935078071301307276156800),
  (37857935201470713251176467277219785674282084849567037300, 6533811487918143498424089484562218949601080112967692860),
  (44292017452541148383482659364731354953847846030811794900, 6329007973320385495013887101971493063802428824409418540),
  (50505439138820231798279835229117723861207329550534861300, 6092673670156196803855783687437410067257248948165011220),
  (56467245318547076842463681938207521949074547960426611500, 5825985987759549533421068984427716800475616910335356740),
  (62147734590357584780242469912176674714440588001716355900, 5530273556372805254874663264315299147153484641761776010),
  (67518607066612236533369903856389992332825540112377087500, 5207009609170446188123180299319875105626417474111692660),
  (72553105366071700260696493671995361101246580020809526000, 4857804644835203752763943669129273761505139910682467590),
  (77226147924875589901775854923198801372809643956544711000, 4484398408197003144624318640305110718096302165573399970),
  (81514453964513501048743763575194055029940057450859424400, 4088651231034621890844716928306848685407928902670259600),
  (85396659500471037872830224129268389036116906202906845000, 3672534781380887364290929234870179971070878799974687290),
  (88853423828604320233836791019032232475833245820942590000, 3238122281206982088084693954011160114694805178002942050),
  (91867525998417577432300108669425204893798526304505300600, 2787578282128101008111429177938706432205883989299034860),
  (94423950911819409920325465302698925107245493475992297500, 2323148190201921062895826293873141748822190203565799720),
  (96509965042249313939439805058023497471687713858988509300, 1847148173681474917204222374339984411552073831390187730),
  (98115183307791396666274900535048782880567555553965774000, 1361958675557998552020506639006137887326671975487072330),
  (99231639213851580848333800361353856881189778435221007700, 870048136752484412256562342431314020846842115836189609),
  (99854020063677422493605672060665034905603003317541459800, 374540480311277751517377883176153847769791634328217317)]

/-- `case 45`, line 2075. -/
def g45 : List (ℤ × ℤ) := [(-99860364518193663815654767690082054809228852721447541700, 358266315528355893114302865935139257058563635818394461),
  (-99264999844720374174861712059773534497500164330363935100, 832318929621824164573585312223385375615793129294822189),
  (-98196871503454056823931847363434148153836524922046180800, 1303110499158278432063108246968692602714117158263899110),
  (-96660831039689460473642516089247809711667903060941541400, 1767753525793759061709254666957708852065127812646578800),
  (-94664169099562906178472059695383707845046834416713505100, 2223984755057873239395075855216899334487570870129997070),
  (-92216393671900038809746736096052731926536287725066116800, 2669621396757766480567477879310752778782491056589152360),
  (-89329167175324173846464905149305734636540124041379268600, 3102537493451546716250793889376806388592115212397480040),
  (-86016247596066422533907887056713438778341442357702210100, 3520669220160901624769979826157509081008807471271464130),
  (-82293422050208633703577526002650202999341525805627043400, 3922023672930244756418718534392933821813012459630666980),
  (-78178431259390629131236318809860281766027351683906152300, 4304688070916497115169111308116694178831923616319132020),
  (-73690884894549035262373884859489201987960568083761708100, 4666838771837336526776847574165410120498614148785358250),
  (-68852168077120052523201982588043823595523300561852778100, 5006749923795202979913210247487431739149869293514643720),
  (-63685339445322335927122384590338315069203124346567644100, 5322801673126895194590404401931040379848221694017551600),
  (-58215021256935318668096733444417713100008882598322714600, 5613487875978647664392394037486976324148018494616301580),
  (-52467282046291606709113410046016240260710827080028258700, 5877423271884173857436151763183142253126572546098020810),
  (-46469512391963509857960150230974851083981266723719088300, 6113350083106652250188637053632557326012423426524212010),
  (-40250294385854191407797450854834645597029935756939643900, 6320144007381993774996373029066688186630023727582281700),
  (-33839265425060216164340410003187298953234144313742269800, 6496819575072343085382657035907569508384972548758327310),
  (-27266976975237756060876539161564518189821175427664206000, 6642534844984252808291471563910373761317454675067481600),
  (-20564748978326374571978722547154393070323638569942983100, 6756595416360753627091022387364863097947258092394646200),
  (-13764520598325302875659004142306555310676555654152506000, 6838457737866967453169209933431609707348491305464494640),
  (-6898698016314417249041461410381172969392066693096968270, 6887731697766132288200284829805578888452413011064854520),
  (0, 6904182482923202011079855515940474072332289227500477810),
  (6898698016314417249041461410381172969392066693096968270, 6887731697766132288200284829805578888452413011064854520),
  (13764520598325302875659004142306555310676555654152506000, 6838457737866967453169209933431609707348491305464494640),
  (20564748978326374571978722547154393070323638569942983100, 6756595416360753627091022387364863097947258092394646200),
  (27266976975237756060876539161564518189821175427664206000, 6642534844984252808291471563910373761317454675067481600),
  (33839265425060216164340410003187298953234144313742269800, 6496819575072343085382657035907569508384972548758327310),
  (40250294385854191407797450854834645597029935756939643900, 6320144007381993774996373029066688186630023727582281700),
  (46469512391963509857960150230974851083981266723719088300, 6113350083106652250188637053632557326012423426524212010),
  (52467282046291606709113410046016240260710827080028258700, 5877423271884173857436151763183142253126572546098020810),
  (58215021256935318668096733444417713100008882598322714600, 5613487875978647664392394037486976324148018494616301580),
  (63685339445322335927122384590338315069203124346567644100, 5322801673126895194590404401931040379848221694017551600),
  (68852168077120052523201982588043823595523300561852778100, 5006749923795202979913210247487431739149869293514643720),
  (73690884894549035262373884859489201987960568083761708100, 4666838771837336526776847574165410120498614148785358250),
  (78178431259390629131236318809860281766027351683906152300, 4304688070916497115169111308116694178831923616319132020),
  (82293422050208633703577526002650202999341525805627043400, 3922023672930244756418718534392933821813012459630666980),
  (86016247596066422533907887056713438778341442357702210100, 3520669220160901624769979826157509081008807471271464130),
  (89329167175324173846464905149305734636540124041379268600, 3102537493451546716250793889376806388592115212397480040),
  (92216393671900038809746736096052731926536287725066116800, 2669621396757766480567477879310752778782491056589152360),
  (94664169099562906178472059695383707845046834416713505100, 2223984755057873239395075855216899334487570870129997070),
  (96660831039689460473642516089247809711667903060941541400, 1767753525793759061709254666957708852065127812646578800),
  (98196871503454056823931847363434148153836524922046180800, 1303110499158278432063108246968692602714117158263899110),
  (99264999844720374174861712059773534497500164330363935100, 832318929621824164573585312223385375615793129294822189),
  (99860364518193663815654767690082054809228852721447541700, 358266315528355893114302865935139257058563635818394461)]

/-- `case 46`, line 2167. -/
def g46 : List (ℤ × ℤ) := [(-99866304213381798112826841739088877458415560743463172600, 343030086810704828601878314804340444117294580521133124),
  (-99296234890617436407309544466619340912110283090838402500, 796989822972462245161303892632496542628877099259653938),
  (-98273366980416686347797957965918872021956337029842880100, 1247988377098868420673457175098337517752254738535089050),
  (-96802139185399194273774806637181550852231182635363010100, 1693351400783623804623071367176043133372644382569415110),
  (-94889236344608979562221353943691413952577138329324533300, 2130999875413650105447936107087840182884377652052401640),
  (-92543379880675395097749135769912425888234375643895584800, 2558928639713001063469951220034402810287956073861699400),
  (-89775271153394196570131995131978128945462964530135109000, 2975182955220275579905172923572293709302875381894886750),
  (-86597539486685806291588877681659843868730474433790448400, 3377862799910689652060389388114532872779948047520031100),
  (-83024683706606605303238530479080611799580625397038060800, 3765130535738607132766079922845911702695511945426067200),
  (-79073005707527425518914414742030241114796951308471111000, 4135219010967872970422017587023147842420622411377262620),
  (-74760535961566605400033650526800286890572218000254649500, 4486439527731812676709461356277485644228670051842517840),
  (-70106951202040569751212208942650045024957598314993864600, 4817189510171220053046886322322093668197549236746216920),
  (-65133484620199771510647715581685936722760405731847593900, 5125959800714302133536529937144803346418150162653053250),
  (-59862828971271515317717253360016731014846633456462994800, 5411341538585675449163764325922307525989746904113506620),
  (-54319033026180263527096269102887683603397847038491608500, 5672032584399123581687440360328671458642702260911475470),
  (-48527391838816466277232019370845480831966755928303870400, 5906843459554631480755072263690773709821694849223029680),
  (-42514331328282839732214686342856741916933776910793469200, 6114702772465048101535660790419103777278163285785360760),
  (-36307287702099571012370697851465168984738884285764247100, 6294662106439450817895195224711093123324616503178622090),
  (-29934582270187001548343925657790392935609231755423834900, 6445900346713906958827943910825506392379564504501849250),
  (-23425292220626976862605611557379249257408882199049802600, 6567727426778120737875756568555576762171613977381171550),
  (-16809117946710352860679673742770212744748928183646939700, 6659587476845488737576196642273370194436370880099210930),
  (-10116247530558423951585965700864939088187136050149374000, 6721061360067817586237415482709759617653968116564520220),
  (-3377219001605204151955783189143976381591611599620192070, 6751868584903645882021418916430108021214826953981825510),
  (3377219001605204151955783189143976381591611599620192070, 6751868584903645882021418916430108021214826953981825510),
  (10116247530558423951585965700864939088187136050149374000, 6721061360067817586237415482709759617653968116564520220),
  (16809117946710352860679673742770212744748928183646939700, 6659587476845488737576196642273370194436370880099210930),
  (23425292220626976862605611557379249257408882199049802600, 6567727426778120737875756568555576762171613977381171550),
  (29934582270187001548343925657790392935609231755423834900, 6445900346713906958827943910825506392379564504501849250),
  (36307287702099571012370697851465168984738884285764247100, 6294662106439450817895195224711093123324616503178622090),
  (42514331328282839732214686342856741916933776910793469200, 6114702772465048101535660790419103777278163285785360760),
  (48527391838816466277232019370845480831966755928303870400, 5906843459554631480755072263690773709821694849223029680),
  (54319033026180263527096269102887683603397847038491608500, 5672032584399123581687440360328671458642702260911475470),
  (59862828971271515317717253360016731014846633456462994800, 5411341538585675449163764325922307525989746904113506620),
  (65133484620199771510647715581685936722760405731847593900, 5125959800714302133536529937144803346418150162653053250),
  (70106951202040569751212208942650045024957598314993864600, 4817189510171220053046886322322093668197549236746216920),
  (74760535961566605400033650526800286890572218000254649500, 4486439527731812676709461356277485644228670051842517840),
  (79073005707527425518914414742030241114796951308471111000, 4135219010967872970422017587023147842420622411377262620),
  (83024683706606605303238530479080611799580625397038060800, 3765130535738607132766079922845911702695511945426067200),
  (86597539486685806291588877681659843868730474433790448400, 3377862799910689652060389388114532872779948047520031100),
  (89775271153394196570131995131978128945462964530135109000, 2975182955220275579905172923572293709302875381894886750),
  (92543379880675395097749135769912425888234375643895584800, 2558928639713001063469951220034402810287956073861699400),
  (94889236344608979562221353943691413952577138329324533300, 2130999875413650105447936107087840182884377652052401640),
  (96802139185399194273774806637181550852231182635363010100, 1693351400783623804623071367176043133372644382569415110),
  (98273366980416686347797957965918872021956337029842880100, 1247988377098868420673457175098337517752254738535089050),
  (99296234890617436407309544466619340912110283090838402500, 796989822972462245161303892632496542628877099259653938),
  (99866304213381798112826841739088877458415560743463172600, 343030086810704828601878314804340444117294580521133124)]

/-- `case 47`, line 2261. -/
def g47 : List (ℤ × ℤ) := [(-99871872858421210918394771478710849162709065123149080900, 328745384252801488324996420833617985136062240707094616),
  (-99325521098776863469218968463246360814571208411063073500, 763861629584883361410435677113165550442058982256510536),
  (-98345100307162370876490103403616985193165421910809377400, 1196284846431232096394345484994851252339290836246802250),
  (-96934678732656449714574427756027080533830294697950413600, 1623533314643305967072568740789862101589291904397500670),
  (-95100396925770844258980292385144242265360151538737902900, 2043693814766842764203476068625538642723104902415690370),
  (-92850269301236064819718492461132098137541878694303399000, 2454921165965881853783415715250576713766315216483130990),
  (-90194132943852535686717130197743563963863448643228478000, 2855415070064338650473992462581108160687521783269186840),
  (-87143601579689631694098546455560617105192652611577960900, 3243423551518475676761746317417015869308868087328658990),
  (-83712013989990212127759894856635236418186894946344259400, 3617249658417495161345992976631124867344528220138057240),
  (-79914375416774194291556206920359301204052085619873494300, 3975258612253100378090138014196101659164946881568305930),
  (-75767291844543863357399652356968220121341991043365343300, 4315884864847953826830179344650313954771937778244714170),
  (-71288897340906430166187932777101881170425024575591714300, 4637638908650591120440184824274509254869604526289591050),
  (-66498774739033272913670264857208906143051481453327092600, 4939113774736116960457048586200492311999402379049431700),
  (-61417869995637360859546254260425368624817994509020475000, 5218991178005714487221194170967607772173497996203217670),
  (-56068400593466419448305831741826879114352345459113743900, 5476047278153022595712517688850480590379536634850721300),
  (-50473758386357791977428902535130109027320311922460252900, 5709158029323154022201660530838277291032942596524699680),
  (-44658407310485570272518214234940795939341700519872109900, 5917304094233887597615455638574129246383235149307405050),
  (-38647776408466713958330238760602327020183760801483001500, 6099575300873964533071057813343752118109320430201587680),
  (-32468148633773590221076129917999683639962891600706232600, 6255174622092166264056438144995353675341584345846042530),
  (-26146545921497457030698296620517097423332273379687972500, 6383421660571703063129377985581353348233634369068597260),
  (-19710611027911180796149135837050461755486287042233966500, 6483755623894572670260393911080601888499475260182831880),
  (-13188486655451489705382353072412724136333515343848891300, 6555737776654974025114300232607591228199989080873359790),
  (-6608692391635567516047377747413370859227627393622040890, 6599053358881047453357065533049825957735827762650299790),
  (0, 6613512962365547965344035433105497119536045271793124060),
  (6608692391635567516047377747413370859227627393622040890, 6599053358881047453357065533049825957735827762650299790),
  (13188486655451489705382353072412724136333515343848891300, 6555737776654974025114300232607591228199989080873359790),
  (19710611027911180796149135837050461755486287042233966500, 6483755623894572670260393911080601888499475260182831880),
  (26146545921497457030698296620517097423332273379687972500, 6383421660571703063129377985581353348233634369068597260),
  (32468148633773590221076129917999683639962891600706232600, 6255174622092166264056438144995353675341584345846042530),
  (38647776408466713958330238760602327020183760801483001500, 6099575300873964533071057813343752118109320430201587680),
  (44658407310485570272518214234940795939341700519872109900, 5917304094233887597615455638574129246383235149307405050),
  (50473758386357791977428902535130109027320311922460252900, 5709158029323154022201660530838277291032942596524699680),
  (56068400593466419448305831741826879114352345459113743900, 5476047278153022595712517688850480590379536634850721300),
  (61417869995637360859546254260425368624817994509020475000, 5218991178005714487221194170967607772173497996203217670),
  (66498774739033272913670264857208906143051481453327092600, 4939113774736116960457048586200492311999402379049431700),
  (71288897340906430166187932777101881170425024575591714300, 4637638908650591120440184824274509254869604526289591050),
  (75767291844543863357399652356968220121341991043365343300, 4315884864847953826830179344650313954771937778244714170),
  (79914375416774194291556206920359301204052085619873494300, 3975258612253100378090138014196101659164946881568305930),
  (83712013989990212127759894856635236418186894946344259400, 3617249658417495161345992976631124867344528220138057240),
  (87143601579689631694098546455560617105192652611577960900, 3243423551518475676761746317417015869308868087328658990),
  (90194132943852535686717130197743563963863448643228478000, 2855415070064338650473992462581108160687521783269186840),
  (92850269301236064819718492461132098137541878694303399000, 2454921165965881853783415715250576713766315216483130990),
  (95100396925770844258980292385144242265360151538737902900, 2043693814766842764203476068625538642723104902415690370),
  (96934678732656449714574427756027080533830294697950413600, 1623533314643305967072568740789862101589291904397500670),
  (98345100307162370876490103403616985193165421910809377400, 1196284846431232096394345484994851252339290836246802250),
  (99325521098776863469218968463246360814571208411063073500, 763861629584883361410435677113165550442058982256510536),
  (99871872858421210918394771478710849162709065123149080900, 328745384252801488324996420833617985136062240707094616)]

/-- `case 48`, line 2357. -/
def g48 : List (ℤ × ℤ) := [(-99877100725242611860054149156311364008893765027672103900, 315334605230583863267731154389148757828393883169362230),
  (-99353017226635075754792875084907411835661474959467193000, 732755390127626210238397962178655005870790255920135327),
  (-98412458372282685774458360002659883058923922341738473000, 1147723457923453948959266760909162808642050630874764070),
  (-97059159254624725046141198380066005730243391163088370600, 1557931572294384872817695583446031397637626899155246950),
  (-95298770316043086072296066602571834320854133182391873700, 1961616045735552781446071965221270969581303773413223920),
  (-93138669070655433311417438010160126771999708561895043000, 2357076083932437914051930137844923022172973852218859870),
  (-90587913671556967282207483567101178831226219982741084500, 2742650970835694820007383626250582045118415516165097600),
  (-87657202027424788590569355480509675456164853372996199300, 3116722783279808890206575684635441945428534148356953550),
  (-84358826162439353071108984451965604987088701173755240200, 3477722256477043889254858596380241059728139690706809870),
  (-80706620402944262708255304302453844597301302946041538700, 3824135106583070631721725652371561786382396835498228890),
  (-76715903251574033925385543752296905362264233084820737200, 4154508294346474921405882236106479775347282603403806310),
  (-72403413092381465467448223349366524658509281228072236300, 4467456085669428041944858712585039498846278686250200840),
  (-67787237963266390521185128067590905884995467902604861300, 4761665849249047482590662347892983015799806674344968540),
  (-62886739677651362399516493306999465202490899979016177100, 5035903555385447495780761908786560603299409302590633070),
  (-57722472608397270381780923854047877285399728614019552800, 5289018948519366709550505626469891466172648563310918640),
  (-52316097472223303367822586913750852628918762181188410800, 5519950369998416286820349519163543900445092560756100050),
  (-46690290475095840454492886165079850923681210425851694400, 5727729210040321570515023468470057624152712300411207750),
  (-40868648199071672991622549581463328645992284299488806500, 5911483969839563574647481743351991065965560255705499860),
  (-34875588629216073815981793727040791613430964996839257600, 6070443916589388005296923202782047788526086425647775510),
  (-28736248735545557673588646131679768785155830580103977900, 6203942315989266390419778413759851830638339966509146160),
  (-22476379039468906122486544017469227743856180404165480600, 6311419228625402565712602275023331812741364337110079120),
  (-16122235606889171805643739078349769477437437974189511800, 6392423858464818662390620182551540891897408498264299990),
  (-9700469920946269893005395585362452015273622930093698640, 6446616443595008220650419365770506572569192445553030880),
  (-3238017096286936203332224315213444204596280236151809240, 6473769681268392250302493873659155355208191894663651000),
  (3238017096286936203332224315213444204596280236151809240, 6473769681268392250302493873659155355208191894663651000),
  (9700469920946269893005395585362452015273622930093698640, 6446616443595008220650419365770506572569192445553030880),
  (16122235606889171805643739078349769477437437974189511800, 6392423858464818662390620182551540891897408498264299990),
  (22476379039468906122486544017469227743856180404165480600, 6311419228625402565712602275023331812741364337110079120),
  (28736248735545557673588646131679768785155830580103977900, 6203942315989266390419778413759851830638339966509146160),
  (34875588629216073815981793727040791613430964996839257600, 6070443916589388005296923202782047788526086425647775510),
  (40868648199071672991622549581463328645992284299488806500, 5911483969839563574647481743351991065965560255705499860),
  (46690290475095840454492886165079850923681210425851694400, 5727729210040321570515023468470057624152712300411207750),
  (52316097472223303367822586913750852628918762181188410800, 5519950369998416286820349519163543900445092560756100050),
  (57722472608397270381780923854047877285399728614019552800, 5289018948519366709550505626469891466172648563310918640),
  (62886739677651362399516493306999465202490899979016177100, 5035903555385447495780761908786560603299409302590633070),
  (67787237963266390521185128067590905884995467902604861300, 4761665849249047482590662347892983015799806674344968540),
  (72403413092381465467448223349366524658509281228072236300, 4467456085669428041944858712585039498846278686250200840),
  (76715903251574033925385543752296905362264233084820737200, 4154508294346474921405882236106479775347282603403806310),
  (80706620402944262708255304302453844597301302946041538700, 3824135106583070631721725652371561786382396835498228890),
  (84358826162439353071108984451965604987088701173755240200, 3477722256477043889254858596380241059728139690706809870),
  (87657202027424788590569355480509675456164853372996199300, 3116722783279808890206575684635441945428534148356953550),
  (90587913671556967282207483567101178831226219982741084500, 2742650970835694820007383626250582045118415516165097600),
  (93138669070655433311417438010160126771999708561895043000, 2357076083932437914051930137844923022172973852218859870),
  (95298770316043086072296066602571834320854133182391873700, 1961616045735552781446071965221270969581303773413223920),
  (97059159254624725046141198380066005730243391163088370600, 1557931572294384872817695583446031397637626899155246950),
  (98412458372282685774458360002659883058923922341738473000, 1147723457923453948959266760909162808642050630874764070),
  (99353017226635075754792875084907411835661474959467193000, 732755390127626210238397962178655005870790255920135327),
  (99877100725242611860054149156311364008893765027672103900, 315334605230583863267731154389148757828393883169362230)]

/-- `case 49`, line 2455. -/
def g49 : List (ℤ × ℤ) := [(-99882015060663537936183127270411065512368099786450196400, 302727898892290507748069817582714097283004200383177339),
  (-99378866194416779076011385925795361884130739493865016800, 703509959008645147345067831134841086286385703902733685),
  (-98475789591421300435929899536857471035330746214525295300, 1102055103159358049750828816683333275219356054495774500),
  (-97176220090155538013997242150477413349786254718090569300, 1496214493562465102958431912020150403628101637276727860),
  (-95485365867413723355524367966818441905469445190027379200, 1884359585308945844445065339110734926774990201925228030),
  (-93410029475581014905898246063654490246042295281019199400, 2264920158744667649877096421604288732679749902326477600),
  (-90958565582807328521301964035580007104277123111671803900, 2636361892706601696094574523974204769446097176574050820),
  (-88140844557300891003703153581700492615924003726239134000, 2997188462058382535069055807414721006207203595087682890),
  (-84968211984416570103488187224297933332660433246471624900, 3345946679162217434248715089168920184947986786022845560),
  (-81453442735985543153950078776477704449467213582275335200, 3681232096300068981946723669888229500136155240598295690),
  (-77610689434544663501814281224845607126445046182918186500, 4001694576637302136860503674310332142786460746500146850),
  (-73455425423740269621367421285852488465283545332370183400, 4306043698125959798834548400103849580671358123982176010),
  (-69004382442513211350475180727494192763350512618903575100, 4593053935559585354249961997212767100882432235462340870),
  (-64275483241923766405685694858390010954033547225327753300, 4861569588782824027765119728786853088136892861859307260),
  (-59287769410890071245586433679262853463300101531884759000, 5110509433014459067462280604931856138961244932974338890),
  (-54061324699172606655822546722943591692410134623836584700, 5338871070825896852794293373017620616558606944822720940),
  (-48617194145249204217697609605857506207511519433493660500, 5545734967480358869043158148269806720425152407379438380),
  (-42977299334157652465858414180742303306341789787807201000, 5730268153018747548516459235081653635058043880311968160),
  (-37164350126228488886373454094696052761474478673392697700, 5891727576002726602452765074249251626249611385947945980),
  (-31201753211974876220786067650641626509683340799438725000, 6029463095315201730310611687554159049777650891972548780),
  (-25113517861257727350715594282461127458298417457366425100, 6142920097919293629682664614030107494319000919209793370),
  (-18924159246181358648531017385998651117967887767881908900, 6231641732005726740107682521594970422413353622132083380),
  (-12658599726967205106798528857553619032448712106686671400, 6295270746519569947439955578289100636372542776957004140),
  (-6342068498268678602883482087848497315278687277888038750, 6333550929649174859083692740009052014797141656482582040),
  (0, 6346328140479059771825346787952963499962952230825221920),
  (6342068498268678602883482087848497315278687277888038750, 6333550929649174859083692740009052014797141656482582040),
  (12658599726967205106798528857553619032448712106686671400, 6295270746519569947439955578289100636372542776957004140),
  (18924159246181358648531017385998651117967887767881908900, 6231641732005726740107682521594970422413353622132083380),
  (25113517861257727350715594282461127458298417457366425100, 6142920097919293629682664614030107494319000919209793370),
  (31201753211974876220786067650641626509683340799438725000, 6029463095315201730310611687554159049777650891972548780),
  (37164350126228488886373454094696052761474478673392697700, 5891727576002726602452765074249251626249611385947945980),
  (42977299334157652465858414180742303306341789787807201000, 5730268153018747548516459235081653635058043880311968160),
  (48617194145249204217697609605857506207511519433493660500, 5545734967480358869043158148269806720425152407379438380),
  (54061324699172606655822546722943591692410134623836584700, 5338871070825896852794293373017620616558606944822720940),
  (59287769410890071245586433679262853463300101531884759000, 5110509433014459067462280604931856138961244932974338890),
  (64275483241923766405685694858390010954033547225327753300, 4861569588782824027765119728786853088136892861859307260),
  (69004382442513211350475180727494192763350512618903575100, 4593053935559585354249961997212767100882432235462340870),
  (73455425423740269621367421285852488465283545332370183400, 4306043698125959798834548400103849580671358123982176010),
  (77610689434544663501814281224845607126445046182918186500, 4001694576637302136860503674310332142786460746500146850),
  (81453442735985543153950078776477704449467213582275335200, 3681232096300068981946723669888229500136155240598295690),
  (84968211984416570103488187224297933332660433246471624900, 3345946679162217434248715089168920184947986786022845560),
  (88140844557300891003703153581700492615924003726239134000, 2997188462058382535069055807414721006207203595087682890),
  (90958565582807328521301964035580007104277123111671803900, 2636361892706601696094574523974204769446097176574050820),
  (93410029475581014905898246063654490246042295281019199400, 2264920158744667649877096421604288732679749902326477600),
  (95485365867413723355524367966818441905469445190027379200, 1884359585308945844445065339110734926774990201925228030),
  (97176220090155538013997242150477413349786254718090569300, 1496214493562465102958431912020150403628101637276727860),
  (98475789591421300435929899536857471035330746214525295300, 1102055103159358049750828816683333275219356054495774500),
  (99378866194416779076011385925795361884130739493865016800, 703509959008645147345067831134841086286385703902733685),
  (99882015060663537936183127270411065512368099786450196400, 302727898892290507748069817582714097283004200383177339)]

/-- `case 50`, line 2555. -/
def g50 : List (ℤ × ℤ) := [(-99886640442007105018545944497421850599624351290407852500, 290862255315514095840072434285548080667299645994632062),
  (-99403196943209071258510820042069472815747797106832359000, 675979919574540150277887817798503180187383240646681055),
  (-98535408404800588230900962563248940401559263094540580900, 1059054838365096926356968149924102233940181908645912950),
  (-97286438510669207371334410460625205366917340704995420200, 1438082276148557441937890892732434993703178617058789280),
  (-95661095524280794299774564415662209405143412462604654300, 1811556071348939035125994342235461984466731704973403540),
  (-93665661894487793378087494727249660215373159809520292200, 2178024317012479298159206906269034122731346235793429600),
  (-91307855665579189308973564277165709478418819169778239000, 2536067357001239044019487838544272346016125997571213730),
  (-88596797952361304863754098246675363419429031075580836200, 2884299358053519802990637311323243251784686559353745780),
  (-85542976942994608461136264393475746765483303948690596300, 3221372822357801664816582732300395344858905883342521720),
  (-82158207085933594835625411087393953776074138334348574900, 3545983561514615416073461100097579709696000049698447090),
  (-78455583290039926390530519634099120084731627255644435300, 3856875661258767524477015023638593486477170500051892650),
  (-74449430222606853826053625268219424287018793132958457900, 4152846309014769742241197896406701780897797548584099010),
  (-70155246870682225108954625788365572814971922848469564300, 4432750433880327549202228683039419746076129835545316570),
  (-65589646568543936078162486400367981904141052838233182700, 4695505130394843296563301363498768251406430618605273000),
  (-60770292718495023918038179639183289360420502067599435600, 4940093844946631492124358075143272869228705096661312480),
  (-55715830451465005431552290962580160781589838223775026100, 5165570306958113848990529584009527964982544939543964510),
  (-50445814490746420165145913184914119263537867827067923800, 5371062188899624652345879725566455276802321352992215300),
  (-44980633497403878914713146777837581731506451346517366600, 5555774480621251762356742561226949759513529998390267580),
  (-39341431189756512739422925382381727024613946867265600300, 5718992564772838372302931506599316301157537225709175490),
  (-33550024541943735683698825729107169784121859303679576200, 5860084981322244583512243663084846620976751344402547330),
  (-27628819377953199032764527852113018571480158713199615100, 5978505870426545750957640531258523079666604207266900460),
  (-21600723687604175684728453261710133370575597251013327300, 6073797084177021603175001538481100160979927323540353570),
  (-15489058999814590207162862094110950120185022005493763200, 6145589959031666375640678608391537509726757576400751430),
  (-9317470156008614085445037763960034788567138392213861470, 6193606742068324338408750978083068857287705669124490490),
  (-3109833832718887611232898966594919424729622295999804300, 6217661665534726232103310736061343086768246920102663310),
  (3109833832718887611232898966594919424729622295999804300, 6217661665534726232103310736061343086768246920102663310),
  (9317470156008614085445037763960034788567138392213861470, 6193606742068324338408750978083068857287705669124490490),
  (15489058999814590207162862094110950120185022005493763200, 6145589959031666375640678608391537509726757576400751430),
  (21600723687604175684728453261710133370575597251013327300, 6073797084177021603175001538481100160979927323540353570),
  (27628819377953199032764527852113018571480158713199615100, 5978505870426545750957640531258523079666604207266900460),
  (33550024541943735683698825729107169784121859303679576200, 5860084981322244583512243663084846620976751344402547330),
  (39341431189756512739422925382381727024613946867265600300, 5718992564772838372302931506599316301157537225709175490),
  (44980633497403878914713146777837581731506451346517366600, 5555774480621251762356742561226949759513529998390267580),
  (50445814490746420165145913184914119263537867827067923800, 5371062188899624652345879725566455276802321352992215300),
  (55715830451465005431552290962580160781589838223775026100, 5165570306958113848990529584009527964982544939543964510),
  (60770292718495023918038179639183289360420502067599435600, 4940093844946631492124358075143272869228705096661312480),
  (65589646568543936078162486400367981904141052838233182700, 4695505130394843296563301363498768251406430618605273000),
  (70155246870682225108954625788365572814971922848469564300, 4432750433880327549202228683039419746076129835545316570),
  (74449430222606853826053625268219424287018793132958457900, 4152846309014769742241197896406701780897797548584099010),
  (78455583290039926390530519634099120084731627255644435300, 3856875661258767524477015023638593486477170500051892650),
  (82158207085933594835625411087393953776074138334348574900, 3545983561514615416073461100097579709696000049698447090),
  (85542976942994608461136264393475746765483303948690596300, 3221372822357801664816582732300395344858905883342521720),
  (88596797952361304863754098246675363419429031075580836200, 2884299358053519802990637311323243251784686559353745780),
  (91307855665579189308973564277165709478418819169778239000, 2536067357001239044019487838544272346016125997571213730),
  (93665661894487793378087494727249660215373159809520292200, 2178024317012479298159206906269034122731346235793429600),
  (95661095524280794299774564415662209405143412462604654300, 1811556071348939035125994342235461984466731704973403540),
  (97286438510669207371334410460625205366917340704995420200, 1438082276148557441937890892732434993703178617058789280),
  (98535408404800588230900962563248940401559263094540580900, 1059054838365096926356968149924102233940181908645912950),
  (99403196943209071258510820042069472815747797106832359000, 675979919574540150277887817798503180187383240646681055),
  (99886640442007105018545944497421850599624351290407852500, 290862255315514095840072434285548080667299645994632062)]

/-- `case 51`, line 2657. -/
def g51 : List (ℤ × ℤ) := [(-99890999084890349516899587727338563708424992188818879000, 279680717108989557554421688180904822421769963401154217),
  (-99426126043675257462108489794926312823178439027901499700, 650033778325260029210937519853752883309494300542583879),
  (-98591599173590299658388570755830963265211577808719691700, 1018519129782172993923759178660672838581163608421210040),
  (-97390336801932386723175548639418663901310650631571286700, 1383263400647782229668845302185641595601855207657203850),
  (-95826784861390819455770703831632372761244401855586884700, 1742871472340105225950364643329243556835677829361894030),
  (-93906754400296238343536780639090514416516382215016844100, 2095998840170321057979261840151417207304048518843009610),
  (-91637386230978023082357129425147587936604267173137565300, 2441330057378143427314156541689820874368317047202818410),
  (-89027121802952730327779537073672689355779979887058883100, 2777579859416247719599566563220891636835124864853783960),
  (-86085671118229237147349574371611132357734492551096262800, 3103497129016000845442550295654737729610897816621751290),
  (-82823976382306483285481842401656236426238778158632526000, 3417869320418833623620933859476752904882586358309770470),
  (-79254171209938120523441087837587573015732246374836771400, 3719526892326029284290827581187102513411271037373731000),
  (-75389535448537552576396002545247398763063736381467651500, 4007347628549645318680911592139591120116433102873524210),
  (-71244445757703664458052485540014564303694479021724814700, 4280260799788008665360951424428570083717527402185207760),
  (-66834322117537008686446041940398887592960851177337599600, 4537251140765006874816681498843785131382995671950964360),
  (-62175570460072327375504274540331595005438756687016283600, 4777362624062310199999535370735361734053928047565788770),
  (-57285521635130383652239470259019090742094312072379945700, 4999702015005740977954885536200578556873674938598670750),
  (-52182366936618584251408778482681802456935024586935804900, 5203442193669708756413644746866237321548397471438220300),
  (-46885090428604106361045725881162246880672263543008758000, 5387825231304556143409930169697198376005996774044533170),
  (-41413398322630387793687180974465790792397717046939456300, 5552165209573869301673705909362416078086370541559638840),
  (-35787645668840950977520108851966635689638392209596833400, 5695850772025866210007772673427716487840945032509279450),
  (-30028760633533193953024564964442033333133838051304991600, 5818347398259214059843787766177593266780125764454458260),
  (-24158166644779870384673311486926242373879324647241357800, 5919199392296154378353900774915460887093004603607117950),
  (-18197702695707754532399870116921444992392011653400331300, 5998031577750325209006398799651711617306209554543300360),
  (-12169542101888876696382042096318110874530328748446984400, 6054550693473779513812525146775416275368493437724097340),
  (-6096110015057872473419470684320540469703046426951978440, 6088546484485634388119861422269621972807601028027365240),
  (0, 6099892484120588015979764309835605055712180152657844980),
  (6096110015057872473419470684320540469703046426951978440, 6088546484485634388119861422269621972807601028027365240),
  (12169542101888876696382042096318110874530328748446984400, 6054550693473779513812525146775416275368493437724097340),
  (18197702695707754532399870116921444992392011653400331300, 5998031577750325209006398799651711617306209554543300360),
  (24158166644779870384673311486926242373879324647241357800, 5919199392296154378353900774915460887093004603607117950),
  (30028760633533193953024564964442033333133838051304991600, 5818347398259214059843787766177593266780125764454458260),
  (35787645668840950977520108851966635689638392209596833400, 5695850772025866210007772673427716487840945032509279450),
  (41413398322630387793687180974465790792397717046939456300, 5552165209573869301673705909362416078086370541559638840),
  (46885090428604106361045725881162246880672263543008758000, 5387825231304556143409930169697198376005996774044533170),
  (52182366936618584251408778482681802456935024586935804900, 5203442193669708756413644746866237321548397471438220300),
  (57285521635130383652239470259019090742094312072379945700, 4999702015005740977954885536200578556873674938598670750),
  (62175570460072327375504274540331595005438756687016283600, 4777362624062310199999535370735361734053928047565788770),
  (66834322117537008686446041940398887592960851177337599600, 4537251140765006874816681498843785131382995671950964360),
  (71244445757703664458052485540014564303694479021724814700, 4280260799788008665360951424428570083717527402185207760),
  (75389535448537552576396002545247398763063736381467651500, 4007347628549645318680911592139591120116433102873524210),
  (79254171209938120523441087837587573015732246374836771400, 3719526892326029284290827581187102513411271037373731000),
  (82823976382306483285481842401656236426238778158632526000, 3417869320418833623620933859476752904882586358309770470),
  (86085671118229237147349574371611132357734492551096262800, 3103497129016000845442550295654737729610897816621751290),
  (89027121802952730327779537073672689355779979887058883100, 2777579859416247719599566563220891636835124864853783960),
  (91637386230978023082357129425147587936604267173137565300, 2441330057378143427314156541689820874368317047202818410),
  (93906754400296238343536780639090514416516382215016844100, 2095998840170321057979261840151417207304048518843009610),
  (95826784861390819455770703831632372761244401855586884700, 1742871472340105225950364643329243556835677829361894030),
  (97390336801932386723175548639418663901310650631571286700, 1383263400647782229668845302185641595601855207657203850),
  (98591599173590299658388570755830963265211577808719691700, 1018519129782172993923759178660672838581163608421210040),
  (99426126043675257462108489794926312823178439027901499700, 650033778325260029210937519853752883309494300542583879),
  (99890999084890349516899587727338563708424992188818879000, 279680717108989557554421688180904822421769963401154217)]

/-- `case 52`, line 2761. -/
def g52 : List (ℤ × ℤ) := [(-99895111110395027809096144071659256127801326111535756200, 269131695004711111895217986884521802366937376106490042),
  (-99447759092921602924504327179957170663191177609788217100, 625552396297327689971610216981454661641170465313125936),
  (-98644619565154984064532285911839736802273903582732623300, 980263457946275206195116811668950232783841185727930527),
  (-97488388422174450314070647039964555445992366394593839800, 1331511498234096065660034447779914855467649973330439120),
  (-95983182693308655253202515342506544278784747603767741500, 1678002339630073567792153687052016208341580916381851600),
  (-94134385364135905684357918385056700582876554543631920000, 2018489150798079220298903420947823723671246708480782020),
  (-91948612891642453989359637654188158502952027270247205700, 2351751355398446159032251991005460942922912900298550120),
  (-89433689053449532252084408826352755534558099556237649300, 2676595374650401344949308028601837885526188449905828730),
  (-86598616284606758524435851762420694089833895262429082400, 2991858114714394664128206873997088793212331551058751750),
  (-83453543232673453496172638962123868524593631266922605300, 3296410908971879791501004477869519617672739257458434880),
  (-80009728343046832433475875422580765119764185860770158100, 3589163483509723294194239328528073878533850306517263630),
  (-76279499519374496027921116308905084079183057450762154700, 3869067831042397898510120674035264692807826599356458610),
  (-72276209974998319367681667607193595478399390521472002000, 4135121950056027167904028642395516293826996931546422770),
  (-68014190422716770209223877973664100790099671016577591600, 4386373425900040799512966557876445016416066653020481600),
  (-63508697769524592429812457928880965359359898895498966300, 4621922837278479350764570533528463922390102162642284050),
  (-58775860497957906990202578155720422388122016653804349000, 4840926974407489685396024928604627800974952172846339730),
  (-53832620928582743837595116797535676382349014140308097300, 5042601856634237721821125408285875446257795876553979700),
  (-48696674569809607778245824134646555685045503971902368800, 5226225538390699303439414442639214370819907808586698490),
  (-43386406771876167030908656820978026074374585241840338600, 5391140693275726475083682489379995957660124695930512590),
  (-37920826911609366924668176693944888046212159135119660900, 5536756966930265254904109345121858229015400325104202340),
  (-32319500343480782550109906660144717905404753380657945800, 5662553090236859719080824047837015056722007281471467620),
  (-26602478360500182747297173059883988445592437496218466800, 5768078745252682765393199766340351953943983505133758450),
  (-20790226415636605968646612812234551827266281082820464700, 5852956177181386855029059897162369363806873274232559880),
  (-14903550860694918048863404001811357032226976188823353200, 5916881546604297036933200239487097832541705221759787980),
  (-8963524464890056548885469112239930316985128719019842050, 5959626017124815825831087874841495366227728038194191550),
  (-2991410979733876604368077607079992681884360824994698160, 5981036574529186024778537881147746094448080363041406290),
  (2991410979733876604368077607079992681884360824994698160, 5981036574529186024778537881147746094448080363041406290),
  (8963524464890056548885469112239930316985128719019842050, 5959626017124815825831087874841495366227728038194191550),
  (14903550860694918048863404001811357032226976188823353200, 5916881546604297036933200239487097832541705221759787980),
  (20790226415636605968646612812234551827266281082820464700, 5852956177181386855029059897162369363806873274232559880),
  (26602478360500182747297173059883988445592437496218466800, 5768078745252682765393199766340351953943983505133758450),
  (32319500343480782550109906660144717905404753380657945800, 5662553090236859719080824047837015056722007281471467620),
  (37920826911609366924668176693944888046212159135119660900, 5536756966930265254904109345121858229015400325104202340),
  (43386406771876167030908656820978026074374585241840338600, 5391140693275726475083682489379995957660124695930512590),
  (48696674569809607778245824134646555685045503971902368800, 5226225538390699303439414442639214370819907808586698490),
  (53832620928582743837595116797535676382349014140308097300, 5042601856634237721821125408285875446257795876553979700),
  (58775860497957906990202578155720422388122016653804349000, 4840926974407489685396024928604627800974952172846339730),
  (63508697769524592429812457928880965359359898895498966300, 4621922837278479350764570533528463922390102162642284050),
  (68014190422716770209223877973664100790099671016577591600, 4386373425900040799512966557876445016416066653020481600),
  (72276209974998319367681667607193595478399390521472002000, 4135121950056027167904028642395516293826996931546422770),
  (76279499519374496027921116308905084079183057450762154700, 3869067831042397898510120674035264692807826599356458610),
  (80009728343046832433475875422580765119764185860770158100, 3589163483509723294194239328528073878533850306517263630),
  (83453543232673453496172638962123868524593631266922605300, 3296410908971879791501004477869519617672739257458434880),
  (86598616284606758524435851762420694089833895262429082400, 2991858114714394664128206873997088793212331551058751750),
  (89433689053449532252084408826352755534558099556237649300, 2676595374650401344949308028601837885526188449905828730),
  (91948612891642453989359637654188158502952027270247205700, 2351751355398446159032251991005460942922912900298550120),
  (94134385364135905684357918385056700582876554543631920000, 2018489150798079220298903420947823723671246708480782020),
  (95983182693308655253202515342506544278784747603767741500, 1678002339630073567792153687052016208341580916381851600),
  (97488388422174450314070647039964555445992366394593839800, 1331511498234096065660034447779914855467649973330439120),
  (98644619565154984064532285911839736802273903582732623300, 980263457946275206195116811668950232783841185727930527),
  (99447759092921602924504327179957170663191177609788217100, 625552396297327689971610216981454661641170465313125936),
  (99895111110395027809096144071659256127801326111535756200, 269131695004711111895217986884521802366937376106490042)]

/-- `case 53`, line 2867. -/
def g53 : List (ℤ × ℤ) := [(-99898994777632822712105426703219952258730951565173254400, 259168372056703181159923943851093098476299769302276968),
  (-99468191930800707863603589348399390418282659438797516100, 602427622694867328124170681629985910095415207448441756),
  (-98694703502337152172037308131057818841219951017929625800, 944120228494034438666217882032514328370781491404681093),
  (-97581023371498458163298385810636209351279800357391189700, 1282602614424037917915018296920373176816400873455310420),
  (-96130969462313633236985819368263974705042267197213800000, 1616672525668746392806082840403990143773473139701918050),
  (-94349535346444187902107066769619277568185750014801566500, 1945172110763689538804692222749694041944736471649366710),
  (-92242860304281212826781910008251655134994254241231470700, 2266967305707020839878927523982780946824880780511678450),
  (-89818205787542662592552002997308119556704573900175068200, 2580948251075751771396188816662944090375041844226550360),
  (-87083929755824135160170008688859408982128016798117404100, 2886032361782373626279955304358326186266920628984852730),
  (-84049457654580137543012750982994679689996249373509816900, 3181167845901932306323586203108092026068007008704328440),
  (-80725249841689547822048563802590721017763256065553022600, 3465337258353423795838772051301071357131793543058093600),
  (-77122765492553230786603587562603974126135441361994677200, 3737560980348291567417197278539422220984809437251855860),
  (-73254423080751025378213558672175023156563327376066931000, 3996900584354038212709354578786362591900846337496486550),
  (-69133557560136672354074882313894456541549537640418395100, 4242462063452001359228163756845039880656420797542300730),
  (-64774374391651006875110618993863342181356004483640224200, 4473398910367281021276564591856360613760188371714790080),
  (-60191900571376932746429437196462361309295336573174637500, 4688915034075031402187263956510494786582553583330362620),
  (-55401932827706788101473499081004928725576083782432159400, 4888267503269914042044840758358408340658451464626829290),
  (-50420983165713343703911697288795803339546222770377472600, 5070769106929271529648548263453053759999037333659381470),
  (-45266221946184579138314476075331588362047958849937256100, 5235790722987271819970152098936070445441970869721568360),
  (-39955418695395297739256313623839757189451165670694625700, 5382763486873102904208144163540267431281019967891202030),
  (-34506880849572235669431064606950091485609334583293545100, 5511180752393359900234970476586738755141248848982662210),
  (-28939390645162620642654700659401276779605740146645023100, 5620599838173970980865506209144499375145722517480364180),
  (-23272140372427259364336364219991621852620931152163832900, 5710643553626719177338333929841884133883449542461306170),
  (-17524666215532575072979100913289524582891614994218911500, 5781001499171319631968307609725206286002901123847586500),
  (-11716780907195515014025680877932376792332105234443187900, 5831431136225600755627575633769725605207995124425473570),
  (-5868505430025946502271194583323153773559128390264423830, 5861758623272026331807193704998894153459948066227698690),
  (0, 5871879415116436452548694444213412627499371709785266230),
  (5868505430025946502271194583323153773559128390264423830, 5861758623272026331807193704998894153459948066227698690),
  (11716780907195515014025680877932376792332105234443187900, 5831431136225600755627575633769725605207995124425473570),
  (17524666215532575072979100913289524582891614994218911500, 5781001499171319631968307609725206286002901123847586500),
  (23272140372427259364336364219991621852620931152163832900, 5710643553626719177338333929841884133883449542461306170),
  (28939390645162620642654700659401276779605740146645023100, 5620599838173970980865506209144499375145722517480364180),
  (34506880849572235669431064606950091485609334583293545100, 5511180752393359900234970476586738755141248848982662210),
  (39955418695395297739256313623839757189451165670694625700, 5382763486873102904208144163540267431281019967891202030),
  (45266221946184579138314476075331588362047958849937256100, 5235790722987271819970152098936070445441970869721568360),
  (50420983165713343703911697288795803339546222770377472600, 5070769106929271529648548263453053759999037333659381470),
  (55401932827706788101473499081004928725576083782432159400, 4888267503269914042044840758358408340658451464626829290),
  (60191900571376932746429437196462361309295336573174637500, 4688915034075031402187263956510494786582553583330362620),
  (64774374391651006875110618993863342181356004483640224200, 4473398910367281021276564591856360613760188371714790080),
  (69133557560136672354074882313894456541549537640418395100, 4242462063452001359228163756845039880656420797542300730),
  (73254423080751025378213558672175023156563327376066931000, 3996900584354038212709354578786362591900846337496486550),
  (77122765492553230786603587562603974126135441361994677200, 3737560980348291567417197278539422220984809437251855860),
  (80725249841689547822048563802590721017763256065553022600, 3465337258353423795838772051301071357131793543058093600),
  (84049457654580137543012750982994679689996249373509816900, 3181167845901932306323586203108092026068007008704328440),
  (87083929755824135160170008688859408982128016798117404100, 2886032361782373626279955304358326186266920628984852730),
  (89818205787542662592552002997308119556704573900175068200, 2580948251075751771396188816662944090375041844226550360),
  (92242860304281212826781910008251655134994254241231470700, 2266967305707020839878927523982780946824880780511678450),
  (94349535346444187902107066769619277568185750014801566500, 1945172110763689538804692222749694041944736471649366710),
  (96130969462313633236985819368263974705042267197213800000, 1616672525668746392806082840403990143773473139701918050),
  (97581023371498458163298385810636209351279800357391189700, 1282602614424037917915018296920373176816400873455310420),
  (98694703502337152172037308131057818841219951017929625800, 944120228494034438666217882032514328370781491404681093),
  (99468191930800707863603589348399390418282659438797516100, 602427622694867328124170681629985910095415207448441756),
  (99898994777632822712105426703219952258730951565173254400, 259168372056703181159923943851093098476299769302276968)]

/-- `case 54`, line 2975. -/
def g54 : List (ℤ × ℤ) := [(-99902666686734098385107110698395849319804278579696033200, 249748183576158577594603875726602987918509746682711194),
  (-99487511701833888491888999594870265948412675888699982900, 580561101523998487882588774587527341152465198940366679),
  (-98742063739734355855214572040354626153403629083923858800, 909936945550939694803352106241926172187472240798218021),
  (-97668632885790323720001007198830685746780597324000341200, 1236332812884764416646782426018809646399449894843369300),
  (-96270764578592358325699392690538994353691817470203757000, 1558630303592413170296890970583676546858782235763989620),
  (-94553097516499585376383702290618041256343658850098640700, 1875752762146937791200798428407116268863557474271134280),
  (-92521335986665148625627606047979138685558419356683424400, 2186645142285308594551042653887930098157031656297244210),
  (-90182228628470158075746723138842796436392840478891847400, 2490274146720877305005497127338904257562313287912336040),
  (-87543545406556893941790933572261082248654748480701617200, 2785630931059587028700203476391515123730993562574269660),
  (-84614051597077294942588751087284250039663238021414165700, 3071734249787067605400460991615491101996221207716046550),
  (-81403478591356783546963830407519894482759018323361397500, 3347633646437264571604044483561079271487860742368377300),
  (-77922491534625402153594861484053265574888909482905025900, 3612412584038355258288707420742484597857307993016732990),
  (-74182653880918431628576626875357800093972914498281560300, 3865191478210251683685713905157987623901150935572855400),
  (-70196388971917291938557097696967060126881111048967943900, 4105130613664497422171821087760433419378279744645468880),
  (-65976938763198312469228982285622047478895824859497504900, 4331432930959701544192576037050811819628912404384968870),
  (-61538319833112737072993782016172830059597269412949862200, 4543346672827671397485218075154457153377563901767108150),
  (-56895276819520942973162483417715394277384143717421161900, 4740167880644499105857641011532360363820658898325060880),
  (-52063233438593307332701713874976411887936685525087922000, 4921242732452888606879063036881162807750411298006268160),
  (-47058241248138228368321213632774260243144663981442004400, 5085969714618814431970920697611874591206026538933171480),
  (-41896926325520452803610269746251000520079018342504758300, 5233801619829874466558869475268501318043176697346810290),
  (-36596434037219118198433210816548740612203738970364160000, 5364247364755361127210062772524657686281585960856543990),
  (-31174372083446822888255039015212377139294849711018201700, 5476873621305798630622263471710902072462106656235504860),
  (-25648752006999730007741121445300830272692187309077415200, 5571306256058998768336981742737111068471171711579847790),
  (-20037929360621356977860246282929803045414318609155091900, 5647231573062596503104426468176124795373736212708364230),
  (-14360542731625615394708976289878916129470501626006774100, 5704397355879459856782843425422721209921173621254635390),
  (-8635451826324821528544317776874963636940153748706358790, 5742613705411211485929013177320682938921905705042538570),
  (-2881674819934177765623584750022705298945454217790784840, 5761753670714702467237612880587147717290174472156057230),
  (2881674819934177765623584750022705298945454217790784840, 5761753670714702467237612880587147717290174472156057230),
  (8635451826324821528544317776874963636940153748706358790, 5742613705411211485929013177320682938921905705042538570),
  (14360542731625615394708976289878916129470501626006774100, 5704397355879459856782843425422721209921173621254635390),
  (20037929360621356977860246282929803045414318609155091900, 5647231573062596503104426468176124795373736212708364230),
  (25648752006999730007741121445300830272692187309077415200, 5571306256058998768336981742737111068471171711579847790),
  (31174372083446822888255039015212377139294849711018201700, 5476873621305798630622263471710902072462106656235504860),
  (36596434037219118198433210816548740612203738970364160000, 5364247364755361127210062772524657686281585960856543990),
  (41896926325520452803610269746251000520079018342504758300, 5233801619829874466558869475268501318043176697346810290),
  (47058241248138228368321213632774260243144663981442004400, 5085969714618814431970920697611874591206026538933171480),
  (52063233438593307332701713874976411887936685525087922000, 4921242732452888606879063036881162807750411298006268160),
  (56895276819520942973162483417715394277384143717421161900, 4740167880644499105857641011532360363820658898325060880),
  (61538319833112737072993782016172830059597269412949862200, 4543346672827671397485218075154457153377563901767108150),
  (65976938763198312469228982285622047478895824859497504900, 4331432930959701544192576037050811819628912404384968870),
  (70196388971917291938557097696967060126881111048967943900, 4105130613664497422171821087760433419378279744645468880),
  (74182653880918431628576626875357800093972914498281560300, 3865191478210251683685713905157987623901150935572855400),
  (77922491534625402153594861484053265574888909482905025900, 3612412584038355258288707420742484597857307993016732990),
  (81403478591356783546963830407519894482759018323361397500, 3347633646437264571604044483561079271487860742368377300),
  (84614051597077294942588751087284250039663238021414165700, 3071734249787067605400460991615491101996221207716046550),
  (87543545406556893941790933572261082248654748480701617200, 2785630931059587028700203476391515123730993562574269660),
  (90182228628470158075746723138842796436392840478891847400, 2490274146720877305005497127338904257562313287912336040),
  (92521335986665148625627606047979138685558419356683424400, 2186645142285308594551042653887930098157031656297244210),
  (94553097516499585376383702290618041256343658850098640700, 1875752762146937791200798428407116268863557474271134280),
  (96270764578592358325699392690538994353691817470203757000, 1558630303592413170296890970583676546858782235763989620),
  (97668632885790323720001007198830685746780597324000341200, 1236332812884764416646782426018809646399449894843369300),
  (98742063739734355855214572040354626153403629083923858800, 909936945550939694803352106241926172187472240798218021),
  (99487511701833888491888999594870265948412675888699982900, 580561101523998487882588774587527341152465198940366679),
  (99902666686734098385107110698395849319804278579696033200, 249748183576158577594603875726602987918509746682711194)]

/-- `case 55`, line 3085. -/
def g55 : List (ℤ × ℤ) := [(-99906141956481854147943183951938442315554127892942015700, 240832361997978881917019348912527870416962754170570552),
  (-99505797784741187504318911650620237159410074640539225000, 559863226656076735408341687185985724515129524166676000),
  (-98786894119888919852238568447347353064860155505648643000, 877574610705852817738960068331783816445644076069593520),
  (-97751573550398920885921660634073021154213546275556980100, 1192516071984861217075255315758988829264034744798894920),
  (-96403132859313519877853663137736922263748967416412665600, 1503645833351178821315089890193728171182224949953581760),
  (-94745886804121074185997984764529183717518632629724078700, 1809961452072906240796820264341223040277849453755297210),
  (-92785142472079169681627126923258637919449928056960118400, 2110480166801645412020930562369833448093437406191705140),
  (-90527180074400002578191142462962439222760858847029059300, 2404238800972562200779157292860345849924615056183080910),
  (-87979232241989550606759090682408639529991362162573447700, 2690296145639627066712002865377909714337666113268002070),
  (-85149460661715447146024532096700702781646398940273240200, 2967735776516104122129650618688536022985864059432973510),
  (-82046929855932091245424128503472236539296748010513060600, 3235668922618583168470559187577686575766839503119350410),
  (-78681578112762236589763625093804138350909114627225052900, 3493237287358988740726822680270648797428746128966276200),
  (-75064185634802190867498768270731091792206346446225753500, 3739615786796554528291559858245754951510340150392099100),
  (-71206339998663783890935019212116751517265372314517351400, 3974015187433717960946383190339983586802685138168597880),
  (-67120399031982639579632672800601560057392727743661060700, 4195684631771876239520731669214412257656635822077835230),
  (-62819451224992814009063621503297543291101030900675796800, 4403914042160658989516808565329287313462904494529047510),
  (-58317273802603210297430481558768648622186113625478567400, 4598036394628383810390486087207466812211115409086204050),
  (-53628288590834329672059957284359755353827560883874391500, 4777429855120069555003671471605592563381830714428823680),
  (-48767515818747409720826367353935561150755401956934886400, 4941519771155173948075853901603927568188155532831528740),
  (-43750526003717459180848102429746658424251628922059254500, 5089780512449397922477527428808343882168554091467107380),
  (-38593390074097942975584854391258997545040708651574305600, 5221737154563208456439356328129500996674208580535087950),
  (-33312627889002388518947149023296196304739826192271287400, 5336967000160547272357051563609785372700006314668285840),
  (-27925155320080653854986245117567102555818594628297263500, 5435100932991110207032211815377214880581330910869009510),
  (-22448230064784548340018906240292645440811700470895206000, 5515824600250868759665113956066672143253063739720572710),
  (-16899396364687320828284249351170222934589352957387611100, 5578879419528408710293600710991971467246753538858332240),
  (-11296428805932926658843792388871218401203889300933300700, 5624063407108436802827908809019782727606125971386301470),
  (-5657275381833677632733761089310843416267574245231218370, 5651231824977200140065836763518905413968818315825191560),
  (0, 5660297644456042544010576198124400403896915010159945890),
  (5657275381833677632733761089310843416267574245231218370, 5651231824977200140065836763518905413968818315825191560),
  (11296428805932926658843792388871218401203889300933300700, 5624063407108436802827908809019782727606125971386301470),
  (16899396364687320828284249351170222934589352957387611100, 5578879419528408710293600710991971467246753538858332240),
  (22448230064784548340018906240292645440811700470895206000, 5515824600250868759665113956066672143253063739720572710),
  (27925155320080653854986245117567102555818594628297263500, 5435100932991110207032211815377214880581330910869009510),
  (33312627889002388518947149023296196304739826192271287400, 5336967000160547272357051563609785372700006314668285840),
  (38593390074097942975584854391258997545040708651574305600, 5221737154563208456439356328129500996674208580535087950),
  (43750526003717459180848102429746658424251628922059254500, 5089780512449397922477527428808343882168554091467107380),
  (48767515818747409720826367353935561150755401956934886400, 4941519771155173948075853901603927568188155532831528740),
  (53628288590834329672059957284359755353827560883874391500, 4777429855120069555003671471605592563381830714428823680),
  (58317273802603210297430481558768648622186113625478567400, 4598036394628383810390486087207466812211115409086204050),
  (62819451224992814009063621503297543291101030900675796800, 4403914042160658989516808565329287313462904494529047510),
  (67120399031982639579632672800601560057392727743661060700, 4195684631771876239520731669214412257656635822077835230),
  (71206339998663783890935019212116751517265372314517351400, 3974015187433717960946383190339983586802685138168597880),
  (75064185634802190867498768270731091792206346446225753500, 3739615786796554528291559858245754951510340150392099100),
  (78681578112762236589763625093804138350909114627225052900, 3493237287358988740726822680270648797428746128966276200),
  (82046929855932091245424128503472236539296748010513060600, 3235668922618583168470559187577686575766839503119350410),
  (85149460661715447146024532096700702781646398940273240200, 2967735776516104122129650618688536022985864059432973510),
  (87979232241989550606759090682408639529991362162573447700, 2690296145639627066712002865377909714337666113268002070),
  (90527180074400002578191142462962439222760858847029059300, 2404238800972562200779157292860345849924615056183080910),
  (92785142472079169681627126923258637919449928056960118400, 2110480166801645412020930562369833448093437406191705140),
  (94745886804121074185997984764529183717518632629724078700, 1809961452072906240796820264341223040277849453755297210),
  (96403132859313519877853663137736922263748967416412665600, 1503645833351178821315089890193728171182224949953581760),
  (97751573550398920885921660634073021154213546275556980100, 1192516071984861217075255315758988829264034744798894920),
  (98786894119888919852238568447347353064860155505648643000, 877574610705852817738960068331783816445644076069593520),
  (99505797784741187504318911650620237159410074640539225000, 559863226656076735408341687185985724515129524166676000),
  (99906141956481854147943183951938442315554127892942015700, 240832361997978881917019348912527870416962754170570552)]

/-- `case 56`, line 3197. -/
def g56 : List (ℤ × ℤ) := [(-99909434380146558435315382509090426217601897845975637000, 232385537577321550110227644339586473759320991735859403),
  (-99523122608106974721630876009894094554853845523399037500, 540252224601533776131126094412087284162781818411397736),
  (-98829371554016151108992516352348621676454114322461616500, 846906316330788766162711237500816017607748757412691595),
  (-97830170914025638337699055153818813122701389775022842400, 1150982434038338217377275932449711927485590481796914360),
  (-96528590190549018362619497605509569821755121865766342800, 1451508927802147180777074053301299102409619849924425760),
  (-94928647956196263564673760279492806688956352258814452200, 1747551291140094650495936890545715023078028057687649000),
  (-93035288024749630054727272329160085302681430599689502700, 2038192988240257263480598366693334750711946439861200850),
  (-90854362042065549084610728995724177953221106880958691600, 2322535156256531693725815757678852655572201982457900440),
  (-88392610832782754078901228580928672750598141023208925200, 2599698705839195219181943220727235144801025205069435940),
  (-85657643376274863540299138676687060407367417470986428100, 2868826847382274172988588443039427260413413704684522940),
  (-82657913214288165167212697445685032334304217596386008600, 3129087674731044786783547779302534697784601318722771660),
  (-79402692289386649803000830848600047765720330168324204500, 3379676711561176129542663122544704981760707167826714520),
  (-75902042270512890220241329444589386736483724927364946900, 3619819387231518603588446828888624540063023467231421690),
  (-72166783445018808352259378704755345734404851928573825400, 3848773425924766248682559162338127934381963468148201330),
  (-68208461269447045550156147796983633310510936746121019400, 4065831138474451788012502277885276307554227304905272230),
  (-64039310680700689426793859606281307892380657294780583100, 4270321608466708651103857236247708089347094596661757490),
  (-59672218277066332010413521713840838322050086924194436500, 4461612765269228321341519292762374032584643841629670420),
  (-55120682485553461875436351457631660252566257835249024300, 4639113337300189676219019106649603423460980610050049030),
  (-50398771838438171419522440121863813770930594935401750200, 4802274679360025812073550566699971214401687677002427010),
  (-45521081487845957894883158132460955990722690550390788000, 4950592468304757891996604643084555641871884907131799600),
  (-40502688092709127811886696260292289465537138236829072600, 5083608261779848056012401847019865598299163793208421550),
  (-35359103217495452096970732703323240563467879438117197600, 5200910915174139984305226482748472167053258531290135840),
  (-30106225386722066905309423312523434392507184612438347100, 5302137852401076396799155860769146872738143408102400650),
  (-24760290943433720397296655497052697287966324314276700600, 5386976186571448570895441040669799424792453567188824740),
  (-19337823863527525824018472301268416181616739276380125900, 5455163687088942106175065489009017994406072378091635260),
  (-13855584681037624201288658043849059535149050846252855100, 5506489590176242579630459754785032534135551280065901260),
  (-8330518682243537444028735544066244818398741418903054590, 5540795250324512321779339184391001890956203138066301800),
  (-2779703528727543709406119677492052188837660314677448780, 5557974630651439584627342683516117014406662255634295900),
  (2779703528727543709406119677492052188837660314677448780, 5557974630651439584627342683516117014406662255634295900),
  (8330518682243537444028735544066244818398741418903054590, 5540795250324512321779339184391001890956203138066301800),
  (13855584681037624201288658043849059535149050846252855100, 5506489590176242579630459754785032534135551280065901260),
  (19337823863527525824018472301268416181616739276380125900, 5455163687088942106175065489009017994406072378091635260),
  (24760290943433720397296655497052697287966324314276700600, 5386976186571448570895441040669799424792453567188824740),
  (30106225386722066905309423312523434392507184612438347100, 5302137852401076396799155860769146872738143408102400650),
  (35359103217495452096970732703323240563467879438117197600, 5200910915174139984305226482748472167053258531290135840),
  (40502688092709127811886696260292289465537138236829072600, 5083608261779848056012401847019865598299163793208421550),
  (45521081487845957894883158132460955990722690550390788000, 4950592468304757891996604643084555641871884907131799600),
  (50398771838438171419522440121863813770930594935401750200, 4802274679360025812073550566699971214401687677002427010),
  (55120682485553461875436351457631660252566257835249024300, 4639113337300189676219019106649603423460980610050049030),
  (59672218277066332010413521713840838322050086924194436500, 4461612765269228321341519292762374032584643841629670420),
  (64039310680700689426793859606281307892380657294780583100, 4270321608466708651103857236247708089347094596661757490),
  (68208461269447045550156147796983633310510936746121019400, 4065831138474451788012502277885276307554227304905272230),
  (72166783445018808352259378704755345734404851928573825400, 3848773425924766248682559162338127934381963468148201330),
  (75902042270512890220241329444589386736483724927364946900, 3619819387231518603588446828888624540063023467231421690),
  (79402692289386649803000830848600047765720330168324204500, 3379676711561176129542663122544704981760707167826714520),
  (82657913214288165167212697445685032334304217596386008600, 3129087674731044786783547779302534697784601318722771660),
  (85657643376274863540299138676687060407367417470986428100, 2868826847382274172988588443039427260413413704684522940),
  (88392610832782754078901228580928672750598141023208925200, 2599698705839195219181943220727235144801025205069435940),
  (90854362042065549084610728995724177953221106880958691600, 2322535156256531693725815757678852655572201982457900440),
  (93035288024749630054727272329160085302681430599689502700, 2038192988240257263480598366693334750711946439861200850),
  (94928647956196263564673760279492806688956352258814452200, 1747551291140094650495936890545715023078028057687649000),
  (96528590190549018362619497605509569821755121865766342800, 1451508927802147180777074053301299102409619849924425760),
  (97830170914025638337699055153818813122701389775022842400, 1150982434038338217377275932449711927485590481796914360),
  (98829371554016151108992516352348621676454114322461616500, 846906316330788766162711237500816017607748757412691595),
  (99523122608106974721630876009894094554853845523399037500, 540252224601533776131126094412087284162781818411397736),
  (99909434380146558435315382509090426217601897845975637000, 232385537577321550110227644339586473759320991735859403)]

/-- `case 57`, line 3311. -/
def g57 : List (ℤ × ℤ) := [(-99912556562526285057200984955424988499912758600701357500, 224375387225066290973478682263501388626751860515453919),
  (-99539552367843031113512502736241900597506886891341396400, 521653347471877939050662987142008532303141539042764462),
  (-98869657765022204884975839838385543851008408669894400600, 817816006782123262621099813037940186470942609118705156),
  (-97904722670946871379882087536650775736093122376778068500, 1111576373233599014567544876819003913959043336317862210),
  (-96647608517188667911485858394233318896849009450238562000, 1402027079075355617024715133815025132282684822381284560),
  (-95102062644787674191190411060519032863779933966269042800, 1688295902344154903500082156683327644630596502000044040),
  (-93272696106710169610075415429735663806748863511663484900, 1969527069948852038242245227351485842469704057783950120),
  (-91164967852139121272843056161967031091824841039741330200, 2244880789077643807968923884509088043879620196066273170),
  (-88785167888222132951300014764186171613427578726703528200, 2513535099091812264727378814095548797588091260733460530),
  (-86140398326204694472224188180521475422193300561323961800, 2774688140218019232125795003836375916962084631599526180),
  (-83238552115043912082901089586520321825226565009663945500, 3027560484269399945849059883313721118511845450533766820),
  (-80088289454721824207600871879494856770180362015542160200, 3271397436637156854249010991039349828457476863893067110),
  (-76699011935945019549171614401813235523664841582239824300, 3505471278231261750575097059655006445690125567594090180),
  (-73080834474452332282734467073677831626312211950961220300, 3729083432441731735473526399569896555396987240876805640),
  (-69244555119951773904048368844401044565667663461414289000, 3941566547548011408995272080105550425081517273229457310),
  (-65201622828097689124936184079570828367066055697215481000, 4142286487080111036319690527361043096013511409120154190),
  (-60964103290871536542384890192474062432400057292396461400, 4330644221621519659643210832842612570436465134272580840),
  (-56544642926923675901898555280524042937002207422157972900, 4506077616138115779721352952583297035411133664160267420),
  (-51956431139118760631515381980621435108063110826951180600, 4668063107364150378384089277883357088305499652429297790),
  (-47213160951797570958806008204923474982223792569932668500, 4816117266168775126885105175681673671624285431952997780),
  (-42328988145156395096002435347152437901405095213458829000, 4949798240201967899383794449938792626467289607625868540),
  (-37318489008659445855213439614488901055646014609263353400, 5068707072492740865664042556363657955310479871164995360),
  (-32196616839537864059020791580539723937273946766280631600, 5172488892051782472062390866514698062586927648945425530),
  (-26978657316183876576334560979964334429905799435147475900, 5260833972917743244023138164088418962525591642898259280),
  (-21680182879612403641361397597955927425658329550447243800, 5333478658481915842657697799144062509594704623784393730),
  (-16317006259126425104328037832151206218590998930310571400, 5390206148329857464280948173060145348662767458734071680),
  (-10905133280878780097852652131097904945504513750167102700, 5430847145249864313874677295479156026337757612847777240),
  (-5460715100164682421983055973733244541044233435972078080, 5455280360476188648013899536419651447601534822950253910),
  (0, 5463432875658402406284138798805207653622876414854290650),
  (5460715100164682421983055973733244541044233435972078080, 5455280360476188648013899536419651447601534822950253910),
  (10905133280878780097852652131097904945504513750167102700, 5430847145249864313874677295479156026337757612847777240),
  (16317006259126425104328037832151206218590998930310571400, 5390206148329857464280948173060145348662767458734071680),
  (21680182879612403641361397597955927425658329550447243800, 5333478658481915842657697799144062509594704623784393730),
  (26978657316183876576334560979964334429905799435147475900, 5260833972917743244023138164088418962525591642898259280),
  (32196616839537864059020791580539723937273946766280631600, 5172488892051782472062390866514698062586927648945425530),
  (37318489008659445855213439614488901055646014609263353400, 5068707072492740865664042556363657955310479871164995360),
  (42328988145156395096002435347152437901405095213458829000, 4949798240201967899383794449938792626467289607625868540),
  (47213160951797570958806008204923474982223792569932668500, 4816117266168775126885105175681673671624285431952997780),
  (51956431139118760631515381980621435108063110826951180600, 4668063107364150378384089277883357088305499652429297790),
  (56544642926923675901898555280524042937002207422157972900, 4506077616138115779721352952583297035411133664160267420),
  (60964103290871536542384890192474062432400057292396461400, 4330644221621519659643210832842612570436465134272580840),
  (65201622828097689124936184079570828367066055697215481000, 4142286487080111036319690527361043096013511409120154190),
  (69244555119951773904048368844401044565667663461414289000, 3941566547548011408995272080105550425081517273229457310),
  (73080834474452332282734467073677831626312211950961220300, 3729083432441731735473526399569896555396987240876805640),
  (76699011935945019549171614401813235523664841582239824300, 3505471278231261750575097059655006445690125567594090180),
  (80088289454721824207600871879494856770180362015542160200, 3271397436637156854249010991039349828457476863893067110),
  (83238552115043912082901089586520321825226565009663945500, 3027560484269399945849059883313721118511845450533766820),
  (86140398326204694472224188180521475422193300561323961800, 2774688140218019232125795003836375916962084631599526180),
  (88785167888222132951300014764186171613427578726703528200, 2513535099091812264727378814095548797588091260733460530),
  (91164967852139121272843056161967031091824841039741330200, 2244880789077643807968923884509088043879620196066273170),
  (93272696106710169610075415429735663806748863511663484900, 1969527069948852038242245227351485842469704057783950120),
  (95102062644787674191190411060519032863779933966269042800, 1688295902344154903500082156683327644630596502000044040),
  (96647608517188667911485858394233318896849009450238562000, 1402027079075355617024715133815025132282684822381284560),
  (97904722670946871379882087536650775736093122376778068500, 1111576373233599014567544876819003913959043336317862210),
  (98869657765022204884975839838385543851008408669894400600, 817816006782123262621099813037940186470942609118705156),
  (99539552367843031113512502736241900597506886891341396400, 521653347471877939050662987142008532303141539042764462),
  (99912556562526285057200984955424988499912758600701357500, 224375387225066290973478682263501388626751860515453919)]

/-- `case 58`, line 3427. -/
def g58 : List (ℤ × ℤ) := [(-99915520040738660644273704418460576104581358587271563100, 216772324962744994305434292498451143103544022457861832),
  (-99555147659729090260277152617994614127696728024297488100, 503998161265024308501750117462242355333087943674126262),
  (-98907900824844263649991025527544205688320536550132150500, 790197384999867475401674567484775950725497451144570023),
  (-97975501469435030910781633439259803486987594569128913900, 1074155353287877411685636191366187372356745001774165830),
  (-96760620250292409015330078462120619491287277499442596000, 1355023711298881214517896640176186183083085318298650170),
  (-95266755751886909144284551002293033370558762897549122600, 1631987423497096505212083041957088748218161052776906020),
  (-93498213758825934848084323476624749540914742274456394400, 1904246546189340865578765948210760393336413293429666220),
  (-91460092856435254068650564989752182049561509542540611500, 2171015614014623576691680949511828992260293407795033700),
  (-89158269202203017639988282081279754648255184994103064900, 2431525272496395254025876062579850974429118651343630590),
  (-86599379407480747927507123251208765769427414860556106300, 2685024318198186847590747867814495559102746465718600660),
  (-83790801333937331635209792062162436128686730569794239400, 2930781804416049071839402688844381003496160137195318960),
  (-80740632791308814104899715220739522798328342401013054200, 3168089125380932732029203962195029668728616452408798730),
  (-77457668174965274526614004649682666564897000062728078700, 3396262049341601079772755518458479943878377639496480060),
  (-73951373102004226784661723485103279097065744804820353000, 3614642686708727054078085697585522723334279129912698340),
  (-70231857115390811347975730145820138366068581664760688900, 3822601384585843322945903445714854006594276398631915650),
  (-66309844533212526643301629975356569196064362430412199100, 4019538540986779688807675082688229235791404022070778440),
  (-62196643526307911103398405874549112023223525384925508500, 4204886332958212599456998191725423146226654023551906030),
  (-57904113513022503048997711713608340382017681668396034100, 4378110353364025103902569234833607324275611766009737830),
  (-53444630964884758639980241742520435578876328735633708400, 4538711151481980250398053608886604914916176864495213520),
  (-48831053721671846361555257273678542089422872080245127900, 4686225672902634691841807803792003485091361097497449450),
  (-44076683918683956519370306221430441412241480190817639700, 4820228594541774840657040610986690657503071362684686260),
  (-39195229633075315037121694121301070218501762442300421500, 4940333550896239286651086571270131965064442266936116840),
  (-34200765359799526124836826748399695087767282162928728900, 5046194247995312529765982156763177804748796636254514960),
  (-29107691431110918953302526831430330218951710085754934800, 5137505461828572547451482061106538030295810809562320190),
  (-23930692496615345442894850908533478770052882803533030700, 5214003918366981897126055606007182576102169013424334440),
  (-18684695183576132137438388146402240606154788844121703500, 5275469052637083342964576723152317176493359291733747980),
  (-13384825059546685702237684787454091195295752427056042000, 5321723644657901410348098437738479321245792330452184510),
  (-8046363021414272930984779238050319488933489683186480990, 5352634330405825210061081388617018054196748949032392150),
  (-2684701236594235580333868951737998584342117663189361000, 5368111986333484886390595530572461290068199200236194360),
  (2684701236594235580333868951737998584342117663189361000, 5368111986333484886390595530572461290068199200236194360),
  (8046363021414272930984779238050319488933489683186480990, 5352634330405825210061081388617018054196748949032392150),
  (13384825059546685702237684787454091195295752427056042000, 5321723644657901410348098437738479321245792330452184510),
  (18684695183576132137438388146402240606154788844121703500, 5275469052637083342964576723152317176493359291733747980),
  (23930692496615345442894850908533478770052882803533030700, 5214003918366981897126055606007182576102169013424334440),
  (29107691431110918953302526831430330218951710085754934800, 5137505461828572547451482061106538030295810809562320190),
  (34200765359799526124836826748399695087767282162928728900, 5046194247995312529765982156763177804748796636254514960),
  (39195229633075315037121694121301070218501762442300421500, 4940333550896239286651086571270131965064442266936116840),
  (44076683918683956519370306221430441412241480190817639700, 4820228594541774840657040610986690657503071362684686260),
  (48831053721671846361555257273678542089422872080245127900, 4686225672902634691841807803792003485091361097497449450),
  (53444630964884758639980241742520435578876328735633708400, 4538711151481980250398053608886604914916176864495213520),
  (57904113513022503048997711713608340382017681668396034100, 4378110353364025103902569234833607324275611766009737830),
  (62196643526307911103398405874549112023223525384925508500, 4204886332958212599456998191725423146226654023551906030),
  (66309844533212526643301629975356569196064362430412199100, 4019538540986779688807675082688229235791404022070778440),
  (70231857115390811347975730145820138366068581664760688900, 3822601384585843322945903445714854006594276398631915650),
  (73951373102004226784661723485103279097065744804820353000, 3614642686708727054078085697585522723334279129912698340),
  (77457668174965274526614004649682666564897000062728078700, 3396262049341601079772755518458479943878377639496480060),
  (80740632791308814104899715220739522798328342401013054200, 3168089125380932732029203962195029668728616452408798730),
  (83790801333937331635209792062162436128686730569794239400, 2930781804416049071839402688844381003496160137195318960),
  (86599379407480747927507123251208765769427414860556106300, 2685024318198186847590747867814495559102746465718600660),
  (89158269202203017639988282081279754648255184994103064900, 2431525272496395254025876062579850974429118651343630590),
  (91460092856435254068650564989752182049561509542540611500, 2171015614014623576691680949511828992260293407795033700),
  (93498213758825934848084323476624749540914742274456394400, 1904246546189340865578765948210760393336413293429666220),
  (95266755751886909144284551002293033370558762897549122600, 1631987423497096505212083041957088748218161052776906020),
  (96760620250292409015330078462120619491287277499442596000, 1355023711298881214517896640176186183083085318298650170),
  (97975501469435030910781633439259803486987594569128913900, 1074155353287877411685636191366187372356745001774165830),
  (98907900824844263649991025527544205688320536550132150500, 790197384999867475401674567484775950725497451144570023),
  (99555147659729090260277152617994614127696728024297488100, 503998161265024308501750117462242355333087943674126262),
  (99915520040738660644273704418460576104581358587271563100, 216772324962744994305434292498451143103544022457861832)]

/-- `case 59`, line 3545. -/
def g59 : List (ℤ × ℤ) := [(-99918335390929468375642401950467818497422597033002270900, 209549228454122340270073148864005976798129321037713635),
  (-99569964038324596468720182343344830766185577690859122700, 487223916826528476858200113292406855604266062886634061),
  (-98944236513373093178218393502270579347325528002329934300, 763952945348757514270068297475436525755164120840651150),
  (-98042757395671568844960798140326777546255785113970301100, 1038588550099586219379787441098304036744482914933800610),
  (-96868022168178153135363333967256205766488944332981848600, 1310336630634519101831954648421696696556483923400709100),
  (-95423300937695105586323311218564993707390813827454712600, 1578434731308146614732048039724917037307255386895795190),
  (-93712619035345385940513847104328988491060212647114706000, 1842134275361002936061575105644531831052684871711224010),
  (-91740743878815528135254148521524582687314349000380399300, 2100699828843718735046147321866926505068902778651109390),
  (-89513171174347208536429682946245927502953713940999927700, 2353410539371336342527536007835770029878448503836891520),
  (-87036109429288226096342623310414520128418694739618765800, 2599561973129850018665050680170793271398480973161802310),
  (-84316462581687220147035095397223663847022596081723219300, 2838468020053479790515286933538849877031418376304233580),
  (-81361810728821157143508977382120044741070406508964745400, 3069462783611168323975032819248080535952674800582832960),
  (-78180388986236090563267881276748262802966695695039443100, 3291902427104527775751126435359880808026987655740782530),
  (-74781064527864023188925757901321238792089493398551449100, 3505166963640010878371835896107825111672508118785725460),
  (-71173311867719773159591572196590935391076245280231223400, 3708661981887092269183791703527735827894996394913449150),
  (-67367186450493722702402721275525368441506427511554588600, 3901820301616000950303077721128551341909183793902441700),
  (-63373296623885009751258093017500791255189837643896226300, 4084103553868670766020210808946930868600647590289364050),
  (-59202774070403014446417615975653433980424816968069367600, 4255003681106763866730820048471312744572341334593283120),
  (-54867242780839638437225630038700585744067331832400930200, 4414044353029738069079808473308096858918633266813071770),
  (-50378786655771797876808728045730889215098064889787585900, 4560782294050976983186821315837421141799445972046155760),
  (-45749915825326669022621526043496150817642577591233421800, 4694808518696201919315973648292895223854591747457069800),
  (-40993531781041896672282369375587912101472146267823341700, 4815749471460644038814682928593578396046421872100791110),
  (-36122891416979480999231245233404895795341396017483940400, 4923268067936198577969362001502418838286303587052332730),
  (-31151570080301370031836014910574975012565923760298034200, 5017064634299690281072043044216568214384410571586829530),
  (-26093423734281171161061626741427838000354448343313036200, 5096877742539391685024796899368101009830960978521198930),
  (-20962550339203654492336679063149109633205047431449317500, 5162484939089148214643993977342280859376433774926873710),
  (-15773250558785796811521785627155430412417462420270318800, 5213703364837539138398720830781823387459757987948494980),
  (-10539987901634414383691438776186928705392541093682229200, 5250390264782873905094132201428846536078805848590753050),
  (-5277348408831000395168032860333853782470076950917810530, 5272443385912793196130424887061250287188393750354426700),
  (0, 5279801262199042141551233243085526729901567440267116840),
  (5277348408831000395168032860333853782470076950917810530, 5272443385912793196130424887061250287188393750354426700),
  (10539987901634414383691438776186928705392541093682229200, 5250390264782873905094132201428846536078805848590753050),
  (15773250558785796811521785627155430412417462420270318800, 5213703364837539138398720830781823387459757987948494980),
  (20962550339203654492336679063149109633205047431449317500, 5162484939089148214643993977342280859376433774926873710),
  (26093423734281171161061626741427838000354448343313036200, 5096877742539391685024796899368101009830960978521198930),
  (31151570080301370031836014910574975012565923760298034200, 5017064634299690281072043044216568214384410571586829530),
  (36122891416979480999231245233404895795341396017483940400, 4923268067936198577969362001502418838286303587052332730),
  (40993531781041896672282369375587912101472146267823341700, 4815749471460644038814682928593578396046421872100791110),
  (45749915825326669022621526043496150817642577591233421800, 4694808518696201919315973648292895223854591747457069800),
  (50378786655771797876808728045730889215098064889787585900, 4560782294050976983186821315837421141799445972046155760),
  (54867242780839638437225630038700585744067331832400930200, 4414044353029738069079808473308096858918633266813071770),
  (59202774070403014446417615975653433980424816968069367600, 4255003681106763866730820048471312744572341334593283120),
  (63373296623885009751258093017500791255189837643896226300, 4084103553868670766020210808946930868600647590289364050),
  (67367186450493722702402721275525368441506427511554588600, 3901820301616000950303077721128551341909183793902441700),
  (71173311867719773159591572196590935391076245280231223400, 3708661981887092269183791703527735827894996394913449150),
  (74781064527864023188925757901321238792089493398551449100, 3505166963640010878371835896107825111672508118785725460),
  (78180388986236090563267881276748262802966695695039443100, 3291902427104527775751126435359880808026987655740782530),
  (81361810728821157143508977382120044741070406508964745400, 3069462783611168323975032819248080535952674800582832960),
  (84316462581687220147035095397223663847022596081723219300, 2838468020053479790515286933538849877031418376304233580),
  (87036109429288226096342623310414520128418694739618765800, 2599561973129850018665050680170793271398480973161802310),
  (89513171174347208536429682946245927502953713940999927700, 2353410539371336342527536007835770029878448503836891520),
  (91740743878815528135254148521524582687314349000380399300, 2100699828843718735046147321866926505068902778651109390),
  (93712619035345385940513847104328988491060212647114706000, 1842134275361002936061575105644531831052684871711224010),
  (95423300937695105586323311218564993707390813827454712600, 1578434731308146614732048039724917037307255386895795190),
  (96868022168178153135363333967256205766488944332981848600, 1310336630634519101831954648421696696556483923400709100),
  (98042757395671568844960798140326777546255785113970301100, 1038588550099586219379787441098304036744482914933800610),
  (98944236513373093178218393502270579347325528002329934300, 763952945348757514270068297475436525755164120840651150),
  (99569964038324596468720182343344830766185577690859122700, 487223916826528476858200113292406855604266062886634061),
  (99918335390929468375642401950467818497422597033002270900, 209549228454122340270073148864005976798129321037713635)]

/-- `case 60`, line 3665. -/
def g60 : List (ℤ × ℤ) := [(-99921012322743602203422958579764926639879897871132567100, 202681196887375849643171020989232469531166822555894991),
  (-99584052511883817387674671337744065277489029497713910200, 471272992695356864089482171407723594808497019371506012),
  (-98978789522222171736727898701609604257739315378693904100, 738993116334545553151695602208606088222818020622509209),
  (-98106720175259818561857679982677003388053857922189174300, 1004755718228798435788576437705725649965174748767738430),
  (-96970178876505273372154409891379427254093434486824707200, 1267816647681596013149537926951423498833836430263294560),
  (-95572225583999610739723184582969950248009374476661422000, 1527461859678479930672603809882533517790938411507286450),
  (-93916627611642324949541901160970509641940342040119803200, 1782990101420772026039626124834856763385921958339324690),
  (-92007847617762755285665686251989682878376887601370604000, 2033712072945728677503214741710630146201711250534390380),
  (-89851031081004594193778932957262833016445844274707382500, 2278951694399781986378345819290020781016738421520825820),
  (-87451992264689831512930809991243580515918229443578207600, 2518047762152124837957096597236127913178083294418954860),
  (-84817198478592963249051549499437560129752871650677819700, 2750355674992479163522319763862224764840347075416217730),
  (-81953752616214575936851810851972357189949051896959251000, 2975249150078894524083648467348771033247515812410723200),
  (-78869373993226405456994479977721573524633292787922762000, 3192121901929632894945889953676047676669729228299142100),
  (-75572377530658568686884206660237310592890019956470772500, 3400389272494642283491440155525874118727622355285887600),
  (-72071651335573039943602106101352107776477399473323904300, 3599489805108450306657864628806233859424242002100358390),
  (-68376632738135543722293023922429715908759460433887498000, 3788886756924344403094079420927603181008428106380637150),
  (-64497282848947706781344789642044471716519001934666099600, 3968069545238079947012283481171000876280351129417421870),
  (-60444059704851036344420877631120172065042105359105983800, 4136555123558475561316383680665889688018700852151071420),
  (-56227890075394453917827258748599872906318823765939540000, 4293889283593564195423122065638280694921177196491647900),
  (-51860140005856974741788934848472130132984667628868557300, 4439647879578711332778416409137736966388498573401429850),
  (-47352584176170711110816305375279463800786800509983689000, 4573437971611448664719645529090933300793497425868495440),
  (-42717374158307838930745285353031192335344213618423209000, 4694898884891220484701315639470156627557490258344444290),
  (-37967005657679797715495267052188770405637443316238986600, 4803703181997118096366665272873365360250002924692195690),
  (-33114284826844819425235296535055270480012149637631120300, 4899557545575683538947568685789429835758389599909024250),
  (-28172293742326169169069486033944159830826306079537742400, 4982203569055018101115923089370331247921559724378476970),
  (-23154355137602933801034463134675544074353905193958573200, 5051418453250937459823873574165364323995616273741662810),
  (-18073996487342541724087694126185263123177216863904549300, 5107015606985562740454912073449103536619708311367105470),
  (-12944913539694500314644416464957577475987352436647214300, 5148845150098093399504439717705431173392382665958082480),
  (-7780933394953656941928550708222528757759478289772395500, 5176794317491018754380364302882373293234694549920156410),
  (-2595977230124779858917038540034482566031476071727522550, 5190787763122063973286493836226968018015159556564093560),
  (2595977230124779858917038540034482566031476071727522550, 5190787763122063973286493836226968018015159556564093560),
  (7780933394953656941928550708222528757759478289772395500, 5176794317491018754380364302882373293234694549920156410),
  (12944913539694500314644416464957577475987352436647214300, 5148845150098093399504439717705431173392382665958082480),
  (18073996487342541724087694126185263123177216863904549300, 5107015606985562740454912073449103536619708311367105470),
  (23154355137602933801034463134675544074353905193958573200, 5051418453250937459823873574165364323995616273741662810),
  (28172293742326169169069486033944159830826306079537742400, 4982203569055018101115923089370331247921559724378476970),
  (33114284826844819425235296535055270480012149637631120300, 4899557545575683538947568685789429835758389599909024250),
  (37967005657679797715495267052188770405637443316238986600, 4803703181997118096366665272873365360250002924692195690),
  (42717374158307838930745285353031192335344213618423209000, 4694898884891220484701315639470156627557490258344444290),
  (47352584176170711110816305375279463800786800509983689000, 4573437971611448664719645529090933300793497425868495440),
  (51860140005856974741788934848472130132984667628868557300, 4439647879578711332778416409137736966388498573401429850),
  (56227890075394453917827258748599872906318823765939540000, 4293889283593564195423122065638280694921177196491647900),
  (60444059704851036344420877631120172065042105359105983800, 4136555123558475561316383680665889688018700852151071420),
  (64497282848947706781344789642044471716519001934666099600, 3968069545238079947012283481171000876280351129417421870),
  (68376632738135543722293023922429715908759460433887498000, 3788886756924344403094079420927603181008428106380637150),
  (72071651335573039943602106101352107776477399473323904300, 3599489805108450306657864628806233859424242002100358390),
  (75572377530658568686884206660237310592890019956470772500, 3400389272494642283491440155525874118727622355285887600),
  (78869373993226405456994479977721573524633292787922762000, 3192121901929632894945889953676047676669729228299142100),
  (81953752616214575936851810851972357189949051896959251000, 2975249150078894524083648467348771033247515812410723200),
  (84817198478592963249051549499437560129752871650677819700, 2750355674992479163522319763862224764840347075416217730),
  (87451992264689831512930809991243580515918229443578207600, 2518047762152124837957096597236127913178083294418954860),
  (89851031081004594193778932957262833016445844274707382500, 2278951694399781986378345819290020781016738421520825820),
  (92007847617762755285665686251989682878376887601370604000, 2033712072945728677503214741710630146201711250534390380),
  (93916627611642324949541901160970509641940342040119803200, 1782990101420772026039626124834856763385921958339324690),
  (95572225583999610739723184582969950248009374476661422000, 1527461859678479930672603809882533517790938411507286450),
  (96970178876505273372154409891379427254093434486824707200, 1267816647681596013149537926951423498833836430263294560),
  (98106720175259818561857679982677003388053857922189174300, 1004755718228798435788576437705725649965174748767738430),
  (98978789522222171736727898701609604257739315378693904100, 738993116334545553151695602208606088222818020622509209),
  (99584052511883817387674671337744065277489029497713910200, 471272992695356864089482171407723594808497019371506012),
  (99921012322743602203422958579764926639879897871132567100, 202681196887375849643171020989232469531166822555894991)]

/-- `case 61`, line 3787. -/
def g61 : List (ℤ × ℤ) := [(-99923559763136347173186225956913086285344204850300083100, 196145336167028267177306446192684809414929406187149776),
  (-99597459981512023426801276071228827628684886478913172500, 456092400601241718453893257974278827081304337831533151),
  (-99011674523251705096553168569991650162875678117649731300, 715235499174908958583399309169417557127328166702841504),
  (-98167601128403707968517254075131942216007406209492654600, 972546183035613373613667175557011832684334637992202658),
  (-97067425883318290824740845354791027256833637675753032000, 1227326350781210462927780035952613135449266049142567550),
  (-95714015191298409137208028742121526110444034092702351000, 1478906588493791454617851578148826126037152853378020680),
  (-94110898668136114747754386097778900828047471105845942200, 1726629298761374359443321277243662118418805452051927190),
  (-92262258138295526125755150055584544545063516129871751200, 1969847774610118133051783021268456666579663613604383400),
  (-90172916247400117064204004268351116465311752108726357700, 2207927314831904400247576562818162743617212408293122860),
  (-87848323721488103247894751389335263145955452028041794600, 2440246718754420291534065973246753232577019850402360080),
  (-85294545084766344556484690467417053833995325998446013200, 2666199852415088966281070684496801956405541912412060740),
  (-82518242810865995066428189245084752700639465995958312600, 2885197208818340150434177554559025254350711993469388740),
  (-79526659928235964915204880275254626487323687020583117900, 3096667436839739482469794661248938376670927102752538430),
  (-76327601117231219714591466849435037104451915109862147300, 3300058827590741063272368344100449280740893980815058620),
  (-72929412344946510968895669013553179857637101453817734900, 3494840751653335109085191920921927825500947094150758360),
  (-69340959089449115549918436396023173728437756854618546000, 3680505042315481738432104286406746087590072359161771330),
  (-65571603209507087169918577783630688700084734644168225900, 3856567320700817274615204762965380282922293321495739810),
  (-61631178519792172470961685932859103589567168396123272500, 4022568259099824736763998375751157915592852852473845140),
  (-57529965135083061860036998194497287899733192533772913500, 4178074779088849206667557235107300751269737408356478770),
  (-53278662650292526563848171637307164032481991094547415400, 4322681181249609790104364582268287335029674435381313570),
  (-48888362226225211882069851142582959751653092472499616800, 4456010203508348827154141983108835293335633519476516310),
  (-44370517653853160199558930106582255938232463747223832400, 4577714005314595937133983384682479196153481455209210400),
  (-39736915472575660917829184736858922181287289269372192000, 4687475075080906597642944558859073593371427235439648140),
  (-34999644220406683453343447706209384978750461740488398300, 4785007058509560716183342751869966271340125297023681590),
  (-30171062896303071260448652545697712524119763287003732800, 4870055505641152608753008831470560675869837218145057630),
  (-25263768716905349583369086333440510622751074756005922200, 4942398534673558993996877665111649941665965666774848110),
  (-20290564251805849922694720334305705450143905185836343300, 5001847410817825342505161500635862544205591923667243400),
  (-15264424023081530052950676177347741688353897661745930100, 5048247038679740464814446518815126917289915200008866960),
  (-10198460656227406895720840476436564197678981705575171000, 5081476366881834320770052922347869734784234385656766470),
  (-5105890670797434936688750061890079807018425404125653850, 5101448703869726354373508057385201076820237542338634680),
  (0, 5108111944078621797792109560630985280205762640408927880),
  (5105890670797434936688750061890079807018425404125653850, 5101448703869726354373508057385201076820237542338634680),
  (10198460656227406895720840476436564197678981705575171000, 5081476366881834320770052922347869734784234385656766470),
  (15264424023081530052950676177347741688353897661745930100, 5048247038679740464814446518815126917289915200008866960),
  (20290564251805849922694720334305705450143905185836343300, 5001847410817825342505161500635862544205591923667243400),
  (25263768716905349583369086333440510622751074756005922200, 4942398534673558993996877665111649941665965666774848110),
  (30171062896303071260448652545697712524119763287003732800, 4870055505641152608753008831470560675869837218145057630),
  (34999644220406683453343447706209384978750461740488398300, 4785007058509560716183342751869966271340125297023681590),
  (39736915472575660917829184736858922181287289269372192000, 4687475075080906597642944558859073593371427235439648140),
  (44370517653853160199558930106582255938232463747223832400, 4577714005314595937133983384682479196153481455209210400),
  (48888362226225211882069851142582959751653092472499616800, 4456010203508348827154141983108835293335633519476516310),
  (53278662650292526563848171637307164032481991094547415400, 4322681181249609790104364582268287335029674435381313570),
  (57529965135083061860036998194497287899733192533772913500, 4178074779088849206667557235107300751269737408356478770),
  (61631178519792172470961685932859103589567168396123272500, 4022568259099824736763998375751157915592852852473845140),
  (65571603209507087169918577783630688700084734644168225900, 3856567320700817274615204762965380282922293321495739810),
  (69340959089449115549918436396023173728437756854618546000, 3680505042315481738432104286406746087590072359161771330),
  (72929412344946510968895669013553179857637101453817734900, 3494840751653335109085191920921927825500947094150758360),
  (76327601117231219714591466849435037104451915109862147300, 3300058827590741063272368344100449280740893980815058620),
  (79526659928235964915204880275254626487323687020583117900, 3096667436839739482469794661248938376670927102752538430),
  (82518242810865995066428189245084752700639465995958312600, 2885197208818340150434177554559025254350711993469388740),
  (85294545084766344556484690467417053833995325998446013200, 2666199852415088966281070684496801956405541912412060740),
  (87848323721488103247894751389335263145955452028041794600, 2440246718754420291534065973246753232577019850402360080),
  (90172916247400117064204004268351116465311752108726357700, 2207927314831904400247576562818162743617212408293122860),
  (92262258138295526125755150055584544545063516129871751200, 1969847774610118133051783021268456666579663613604383400),
  (94110898668136114747754386097778900828047471105845942200, 1726629298761374359443321277243662118418805452051927190),
  (95714015191298409137208028742121526110444034092702351000, 1478906588493791454617851578148826126037152853378020680),
  (97067425883318290824740845354791027256833637675753032000, 1227326350781210462927780035952613135449266049142567550),
  (98167601128403707968517254075131942216007406209492654600, 972546183035613373613667175557011832684334637992202658),
  (99011674523251705096553168569991650162875678117649731300, 715235499174908958583399309169417557127328166702841504),
  (99597459981512023426801276071228827628684886478913172500, 456092400601241718453893257974278827081304337831533151),
  (99923559763136347173186225956913086285344204850300083100, 196145336167028267177306446192684809414929406187149776)]

/-- `case 62`, line 3911. -/
def g62 : List (ℤ × ℤ) := [(-99925985930877702969840846503579893801963446051022185300, 189920567951369048039734386093514017087884977236897663),
  (-99610229631626713288514843047617149263214021727984195800, 441633345693090481327412425549064072971198213049489617),
  (-99042997118929035242807106186068064500231531367714058000, 692604190183096087170282409925706711954721309845612182),
  (-98225594909723664949110312800979247156300120305395084500, 941857942842038763793756340656642815543364295156699935),
  (-97160072337165180644717948254030583515416055392926467700, 1188739011701050194481893896679793652742859626999072440),
  (-95849117297392709202956047516597094331710664778284721100, 1432619182380651776740288230941459607709994607566547860),
  (-94296040139232850382636481162335158724141815874021217500, 1672881179017731628855047178409245836313193723342913240),
  (-92504763563620375522730013075704861944863052404265812500, 1908917665857319873250371248228380577444267504732171150),
  (-90479812252109346575848560242837562439844989261032305200, 2140132227766996884117908996490527764083752058057333040),
  (-88226301283189736307268662435582975601712579191938624000, 2365940720868279257451680065053456470143152943084045350),
  (-85749923151207092281840332054467550689150893751162174600, 2585772695402469802709556655351051559485987002574742330),
  (-83056933360400485134593110947720822291981123949520651600, 2799072816331463754123829275404130487368380889597929640),
  (-80154134610397637153850551449538634730618948310785039400, 3005302257398987007700946922706237948622878155453537350),
  (-77048859605541931899094469499504818845380926550542398600, 3203940058162467810633923727815637313049303486293426260),
  (-73748952528315674986078427650143946028010343563118008600, 3394484437941054509111747725423605778640654173271147030),
  (-70262749222229705512097276505998672314403128528957965500, 3576454062276814128558737836172204258459806773117380190),
  (-66599056133547944699754603408238807993320858447569586800, 3749389258228002998561856351879302823433185316753499040),
  (-62767128064688518072695476491616278858720843830369250300, 3912853175196308412331080182260886062617991494346947910),
  (-58776644795308733800214955012198776385819749684764301800, 4066432888241744096828501751666341731298671867166857450),
  (-54637686630025109581610038452363370723217109157838567500, 4209740441038509664302262690383884601008708641913504670),
  (-50360708934475595591702080593161627696584196729605374400, 4342413825804741958006923043394430419577132991468060610),
  (-45956515724011339520714397807575265141860208701364659800, 4464117897712441429364469180913778441034875570807671630),
  (-41436232371712604812958875065761134513588929957184224800, 4574545221457018077723227229769618767040394637762586460),
  (-36811277504656452966302183095250792201723545553516474500, 4673416847841552480220705507948477876215978342901445510),
  (-32093334159419400407410160100345638508585870215936296500, 4760483018410123227045008826786637306073741804949714460),
  (-27294320269672634318868362797348098085486162034350993600, 4835523796347767283480318147845898676220050246238905620),
  (-22426358560416553166899139334488270060896525671749469300, 4898349622051783710485112702621737256534890279639974940),
  (-17501745924901562855568742390423603170050770944644704000, 4948801791969929252786581090477401846363378821095710780),
  (-12532922361589680861964899949972625779675540078947580500, 4986752859495239424476131063484281688819595904527461420),
  (-7532439549623433276382693911787087757684581231442079980, 5012106956904328807480410010153096800489531993392136100),
  (-2512929142182061472708827599914696231450491802481494900, 5024800037525628168840294899513566831650472347656578090),
  (2512929142182061472708827599914696231450491802481494900, 5024800037525628168840294899513566831650472347656578090),
  (7532439549623433276382693911787087757684581231442079980, 5012106956904328807480410010153096800489531993392136100),
  (12532922361589680861964899949972625779675540078947580500, 4986752859495239424476131063484281688819595904527461420),
  (17501745924901562855568742390423603170050770944644704000, 4948801791969929252786581090477401846363378821095710780),
  (22426358560416553166899139334488270060896525671749469300, 4898349622051783710485112702621737256534890279639974940),
  (27294320269672634318868362797348098085486162034350993600, 4835523796347767283480318147845898676220050246238905620),
  (32093334159419400407410160100345638508585870215936296500, 4760483018410123227045008826786637306073741804949714460),
  (36811277504656452966302183095250792201723545553516474500, 4673416847841552480220705507948477876215978342901445510),
  (41436232371712604812958875065761134513588929957184224800, 4574545221457018077723227229769618767040394637762586460),
  (45956515724011339520714397807575265141860208701364659800, 4464117897712441429364469180913778441034875570807671630),
  (50360708934475595591702080593161627696584196729605374400, 4342413825804741958006923043394430419577132991468060610),
  (54637686630025109581610038452363370723217109157838567500, 4209740441038509664302262690383884601008708641913504670),
  (58776644795308733800214955012198776385819749684764301800, 4066432888241744096828501751666341731298671867166857450),
  (62767128064688518072695476491616278858720843830369250300, 3912853175196308412331080182260886062617991494346947910),
  (66599056133547944699754603408238807993320858447569586800, 3749389258228002998561856351879302823433185316753499040),
  (70262749222229705512097276505998672314403128528957965500, 3576454062276814128558737836172204258459806773117380190),
  (73748952528315674986078427650143946028010343563118008600, 3394484437941054509111747725423605778640654173271147030),
  (77048859605541931899094469499504818845380926550542398600, 3203940058162467810633923727815637313049303486293426260),
  (80154134610397637153850551449538634730618948310785039400, 3005302257398987007700946922706237948622878155453537350),
  (83056933360400485134593110947720822291981123949520651600, 2799072816331463754123829275404130487368380889597929640),
  (85749923151207092281840332054467550689150893751162174600, 2585772695402469802709556655351051559485987002574742330),
  (88226301283189736307268662435582975601712579191938624000, 2365940720868279257451680065053456470143152943084045350),
  (90479812252109346575848560242837562439844989261032305200, 2140132227766996884117908996490527764083752058057333040),
  (92504763563620375522730013075704861944863052404265812500, 1908917665857319873250371248228380577444267504732171150),
  (94296040139232850382636481162335158724141815874021217500, 1672881179017731628855047178409245836313193723342913240),
  (95849117297392709202956047516597094331710664778284721100, 1432619182380651776740288230941459607709994607566547860),
  (97160072337165180644717948254030583515416055392926467700, 1188739011701050194481893896679793652742859626999072440),
  (98225594909723664949110312800979247156300120305395084500, 941857942842038763793756340656642815543364295156699935),
  (99042997118929035242807106186068064500231531367714058000, 692604190183096087170282409925706711954721309845612182),
  (99610229631626713288514843047617149263214021727984195800, 441633345693090481327412425549064072971198213049489617),
  (99925985930877702969840846503579893801963446051022185300, 189920567951369048039734386093514017087884977236897663)]

/-- `case 63`, line 4037. -/
def g63 : List (ℤ × ℤ) := [(-99928298402912378037893614092894446107279671818624281300, 183987459557708411709244555404392385263847233884024248),
  (-99622401277797010860219336114631135329307697185752329800, 427850834686376186607841108262278551712747267087521140),
  (-99072854689218946681089466720470345305426226535032778000, 671029176596013625190693072972880397343602855571611024),
  (-98280881059372723486251140569161173920259916195620734200, 912596867632665635405864542175995484969241778837534967),
  (-97248403469757002280196067857681094816497654120309783800, 1151937607688004175075060614861806484158879394538898320),
  (-95977944975894192707035416625898896916541650316165542700, 1388461261611561082486608636762443491927765825349064750),
  (-94472613404100980296637531962750066374458068895776698200, 1621587841033833888228367297513091491581560382993090100),
  (-92736092062184320544703138132512156945605436106860191800, 1850746446016127040926054580515796311023892141763128540),
  (-90772630277853155803695313291595322554779392827565820800, 2075376125803909077534195342147315334781326487844182110),
  (-88587032850785342629029845731336987514986846948785371700, 2294927100488993314894231956177050589104749991908682840),
  (-86184648236412371953961183943105995399653622521626831400, 2508862055334498661863013806844335610235380744763357240),
  (-83571355431950284347180776961570545282361447758388598100, 2716657435909793322518983943941272660664268398662912750),
  (-80753549577345676005146598636324313459419236077749630000, 2917804720828052694555150215402880228294094592080542680),
  (-77738126299037233556333018991104275575979914204810200300, 3111811662221981750821598855718858202491118953291511270),
  (-74532464831784741782932166103758763231460294726194072600, 3298203488377934176568317967245930713779421615727785560),
  (-71144409958484580785143153770401487912828251178701249200, 3476524064535587769718050464278815710707330249414719430),
  (-67582252811498609013110331596954450877981125472379970600, 3646337008545728963045240978754179183183295025429651120),
  (-63854710582136538500030695387337648123329492461318164000, 3807226758434955676363832492788921862730335725417542950),
  (-59970905187762523573900892686879986107116952399752914600, 3958799589154409398480792814920236445419493911410243880),
  (-55940340948628501326769780007005469654052841560665752700, 4100684575966639863511003700907235074017796621249930390),
  (-51772881329003324812447758452631553557737395502174835000, 4232534502081582298250548540302745648284337891419637510),
  (-47478724799480439992221230985149474928601795896973317000, 4354026708302759079896431570440113964093121192838053810),
  (-43068379879511160066208893391862998206648141720003732500, 4464863882594139537033266951681339323410056356252033370),
  (-38552639421224789247761502227439815027504570543713342700, 4564774787629260868588599260854252242660732393896392980),
  (-33942554197458440246883443159431508504391804671870448500, 4653514924538369651039541874695318722782247717379842170),
  (-29249405858625144003615715555066692368934587193884237000, 4730867131226891908060498833884406238662000197264571810),
  (-24484679324595336274840459392482937014834217535821483300, 4796642113799513141105275619513225361068492143214658060),
  (-19660034679150668455762745706571769792078300580349276000, 4850678909788384786409009914580158202759176924782665500),
  (-14787278635787196856983909655297294344146366408396302900, 4892845282051198994470936154921482123252580998161526820),
  (-9878335644694527952970366945392210343955860117894321730, 4923038042374756078504311698814458759187653281991422330),
  (-4945218711615962723423381805180760989775545689991594610, 4941183303991817896703964611670485969772839008454096960),
  (0, 4947236662393102088866936042092594461353225394238326720),
  (4945218711615962723423381805180760989775545689991594610, 4941183303991817896703964611670485969772839008454096960),
  (9878335644694527952970366945392210343955860117894321730, 4923038042374756078504311698814458759187653281991422330),
  (14787278635787196856983909655297294344146366408396302900, 4892845282051198994470936154921482123252580998161526820),
  (19660034679150668455762745706571769792078300580349276000, 4850678909788384786409009914580158202759176924782665500),
  (24484679324595336274840459392482937014834217535821483300, 4796642113799513141105275619513225361068492143214658060),
  (29249405858625144003615715555066692368934587193884237000, 4730867131226891908060498833884406238662000197264571810),
  (33942554197458440246883443159431508504391804671870448500, 4653514924538369651039541874695318722782247717379842170),
  (38552639421224789247761502227439815027504570543713342700, 4564774787629260868588599260854252242660732393896392980),
  (43068379879511160066208893391862998206648141720003732500, 4464863882594139537033266951681339323410056356252033370),
  (47478724799480439992221230985149474928601795896973317000, 4354026708302759079896431570440113964093121192838053810),
  (51772881329003324812447758452631553557737395502174835000, 4232534502081582298250548540302745648284337891419637510),
  (55940340948628501326769780007005469654052841560665752700, 4100684575966639863511003700907235074017796621249930390),
  (59970905187762523573900892686879986107116952399752914600, 3958799589154409398480792814920236445419493911410243880),
  (63854710582136538500030695387337648123329492461318164000, 3807226758434955676363832492788921862730335725417542950),
  (67582252811498609013110331596954450877981125472379970600, 3646337008545728963045240978754179183183295025429651120),
  (71144409958484580785143153770401487912828251178701249200, 3476524064535587769718050464278815710707330249414719430),
  (74532464831784741782932166103758763231460294726194072600, 3298203488377934176568317967245930713779421615727785560),
  (77738126299037233556333018991104275575979914204810200300, 3111811662221981750821598855718858202491118953291511270),
  (80753549577345676005146598636324313459419236077749630000, 2917804720828052694555150215402880228294094592080542680),
  (83571355431950284347180776961570545282361447758388598100, 2716657435909793322518983943941272660664268398662912750),
  (86184648236412371953961183943105995399653622521626831400, 2508862055334498661863013806844335610235380744763357240),
  (88587032850785342629029845731336987514986846948785371700, 2294927100488993314894231956177050589104749991908682840),
  (90772630277853155803695313291595322554779392827565820800, 2075376125803909077534195342147315334781326487844182110),
  (92736092062184320544703138132512156945605436106860191800, 1850746446016127040926054580515796311023892141763128540),
  (94472613404100980296637531962750066374458068895776698200, 1621587841033833888228367297513091491581560382993090100),
  (95977944975894192707035416625898896916541650316165542700, 1388461261611561082486608636762443491927765825349064750),
  (97248403469757002280196067857681094816497654120309783800, 1151937607688004175075060614861806484158879394538898320),
  (98280881059372723486251140569161173920259916195620734200, 912596867632665635405864542175995484969241778837534967),
  (99072854689218946681089466720470345305426226535032778000, 671029176596013625190693072972880397343602855571611024),
  (99622401277797010860219336114631135329307697185752329800, 427850834686376186607841108262278551712747267087521140),
  (99928298402912378037893614092894446107279671818624281300, 183987459557708411709244555404392385263847233884024248)]

/-- `case 64`, line 4165. -/
def g64 : List (ℤ × ℤ) := [(-99930504173577213945690562434563631196971219167560877600, 178328072169643294729607914497193317995934727192795567),
  (-99634011677195527934692450067639912320985750634022661200, 414703326056246763528753572855141531330281925368480246),
  (-99101337147674432073938238344330311364134944539079048500, 650445796897836285611736039998126677113176105495234010),
  (-98333625388462595693129930215683111694524750662374038400, 884675982636394772303091465973064769517626607922049980),
  (-97332682778991096374185350735227266802614529445517417600, 1116813946013112881859049301920813507277879781682728720),
  (-96100879965205371891861412189715720676211461103784594900, 1346304789671864259806076668595568410842577197734967080),
  (-94641137485840281606248149134726479527939497179523319000, 1572603047602471932196599529753979442602900984315651220),
  (-92956917213193957582149015455922560734742701442971549800, 1795171577569734308504530200111936889716735703641585730),
  (-91052213707850280575638066800832986101348808488836402900, 2013482315353020937234031672854389708952668010079195190),
  (-88931544599511410585340403827285162242919446151045218900, 2227017380838325415929833038415500242295929059975940510),
  (-86599939815409281976078338507015750241250191875824964300, 2435270256871087333817755040906898764997841551337841200),
  (-84062929625258036275169154469587330298248982380175535400, 2637746971505465867169179262522518567559933084224571840),
  (-81326531512279755974192333808630334069814182256559721700, 2833967261425948322751130520023735198120758412575433600),
  (-78397235894334140761022052521376828405641412498982593300, 3023465707240247886797405981954865915828139776848124160),
  (-75281990726053189661186377488569398555171427132208719300, 3205792835485155358546750434789871696622157388139806230),
  (-71988185017161082684894021783194724475813800331490195300, 3380516183714160939156548211072543102104992631400453470),
  (-68523631305423324256355837103137630193564107853967186800, 3547221325688238381069314671524594794809463100241009470),
  (-64896547125465733985776123199340488552969043347320117300, 3705512854024004604041510180958337508346494530565630220),
  (-61115535517239325024885297101854891869612455930797184400, 3855015317861562912896249694680899101278711220171803200),
  (-57189564620263403428387811665918864318319100609125099300, 3995374113272034138665692612833607391867695067033363010),
  (-53127946401989454565801390354445524740852558873418023800, 4126256324262352861015629747363804773993063553054741050),
  (-48940314570705295747852630702192139084937329746373983700, 4247351512365358900733976790881736616554664818064966970),
  (-44636601725346408798494771475891518920675075782625017600, 4358372452932345337682786097373748092278889749711801510),
  (-40227015796399160369576677126015884871326520561502080800, 4459055816375656306013471003094484329402379999122172560),
  (-35722015833766811595044261504620253162626446464090911200, 4549162792741814447977099697126905888732346180239989680),
  (-31132287199021095615751269856015688355771535786805012700, 4628479658131441729595324923226118496965030753244680080),
  (-26468716220876741637396417251002011798041313629509324400, 4696818281621001732532628575458107519989752847381256500),
  (-21742364374000708414964874898882261757848583114122234900, 4754016571483030866228220694422317164082525126253875220),
  (-16964442042399281803731362974826984419999026673437785100, 4799938859645830772812617987134606995431671347149362090),
  (-12146281929612055447037646349224787821868363833719129400, 4834476223480295716976952715801780970369255060950108060),
  (-7299312178779903944954294194033749324412618166877885340, 4857546744150342693479906678397811368755654470492948570),
  (-2435029266342443250895584285371566142688710931497580920, 4869095700913972038336539073474991244262869228387433050),
  (2435029266342443250895584285371566142688710931497580920, 4869095700913972038336539073474991244262869228387433050),
  (7299312178779903944954294194033749324412618166877885340, 4857546744150342693479906678397811368755654470492948570),
  (12146281929612055447037646349224787821868363833719129400, 4834476223480295716976952715801780970369255060950108060),
  (16964442042399281803731362974826984419999026673437785100, 4799938859645830772812617987134606995431671347149362090),
  (21742364374000708414964874898882261757848583114122234900, 4754016571483030866228220694422317164082525126253875220),
  (26468716220876741637396417251002011798041313629509324400, 4696818281621001732532628575458107519989752847381256500),
  (31132287199021095615751269856015688355771535786805012700, 4628479658131441729595324923226118496965030753244680080),
  (35722015833766811595044261504620253162626446464090911200, 4549162792741814447977099697126905888732346180239989680),
  (40227015796399160369576677126015884871326520561502080800, 4459055816375656306013471003094484329402379999122172560),
  (44636601725346408798494771475891518920675075782625017600, 4358372452932345337682786097373748092278889749711801510),
  (48940314570705295747852630702192139084937329746373983700, 4247351512365358900733976790881736616554664818064966970),
  (53127946401989454565801390354445524740852558873418023800, 4126256324262352861015629747363804773993063553054741050),
  (57189564620263403428387811665918864318319100609125099300, 3995374113272034138665692612833607391867695067033363010),
  (61115535517239325024885297101854891869612455930797184400, 3855015317861562912896249694680899101278711220171803200),
  (64896547125465733985776123199340488552969043347320117300, 3705512854024004604041510180958337508346494530565630220),
  (68523631305423324256355837103137630193564107853967186800, 3547221325688238381069314671524594794809463100241009470),
  (71988185017161082684894021783194724475813800331490195300, 3380516183714160939156548211072543102104992631400453470),
  (75281990726053189661186377488569398555171427132208719300, 3205792835485155358546750434789871696622157388139806230),
  (78397235894334140761022052521376828405641412498982593300, 3023465707240247886797405981954865915828139776848124160),
  (81326531512279755974192333808630334069814182256559721700, 2833967261425948322751130520023735198120758412575433600),
  (84062929625258036275169154469587330298248982380175535400, 2637746971505465867169179262522518567559933084224571840),
  (86599939815409281976078338507015750241250191875824964300, 2435270256871087333817755040906898764997841551337841200),
  (88931544599511410585340403827285162242919446151045218900, 2227017380838325415929833038415500242295929059975940510),
  (91052213707850280575638066800832986101348808488836402900, 2013482315353020937234031672854389708952668010079195190),
  (92956917213193957582149015455922560734742701442971549800, 1795171577569734308504530200111936889716735703641585730),
  (94641137485840281606248149134726479527939497179523319000, 1572603047602471932196599529753979442602900984315651220),
  (96100879965205371891861412189715720676211461103784594900, 1346304789671864259806076668595568410842577197734967080),
  (97332682778991096374185350735227266802614529445517417600, 1116813946013112881859049301920813507277879781682728720),
  (98333625388462595693129930215683111694524750662374038400, 884675982636394772303091465973064769517626607922049980),
  (99101337147674432073938238344330311364134944539079048500, 650445796897836285611736039998126677113176105495234010),
  (99634011677195527934692450067639912320985750634022661200, 414703326056246763528753572855141531330281925368480246),
  (99930504173577213945690562434563631196971219167560877600, 178328072169643294729607914497193317995934727192795567)]

/-- The rules for 2, 3, …, 64 points. -/
def gaussRows : List (List (ℤ × ℤ)) := [g2, g3, g4, g5, g6, g7, g8, g9, g10, g11, g12, g13, g14, g15, g16, g17, g18, g19, g20, g21, g22, g23, g24, g25, g26, g27, g28, g29, g30, g31, g32, g33, g34, g35, g36, g37, g38, g39, g40, g41, g42, g43, g44, g45, g46, g47, g48, g49, g50, g51, g52, g53, g54, g55, g56, g57, g58, g59, g60, g61, g62, g63, g64]

end Verif.Gen
