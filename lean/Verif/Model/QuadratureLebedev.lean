import Verif.Model.QuadratureGrid

/-!
# The orbits of the grids in so3/_lebedev_grids.npz

Written by `tools/quadrature_tables.py`.
-/

namespace E3x

/-- `r0`, `w0` of so3/_lebedev_grids.npz: 6 points, precision 3. -/
def lebedevRule3 : QuadratureRule where
  pos := [⟨1180591620717411303424, 0, 0, 196765270119568539648⟩]
  neg := []

/-- `r1`, `w1` of so3/_lebedev_grids.npz: 14 points, precision 5. -/
def lebedevRule5 : QuadratureRule where
  pos := [⟨1180591620717411303424, 0, 0, 78706108047827664896⟩,
    ⟨681614890024214003712, 681614890024214003712, 681614890024214003712, 88544371553805680640⟩]
  neg := []

/-- `r2`, `w2` of so3/_lebedev_grids.npz: 26 points, precision 7. -/
def lebedevRule7 : QuadratureRule where
  pos := [⟨1180591620717411303424, 0, 0, 56218648605591461888⟩,
    ⟨834804340821298053120, 834804340821298053120, 0, 44974918884472700928⟩,
    ⟨681614890024214003712, 681614890024214003712, 681614890024214003712, 37947587808773767168⟩]
  neg := []

/-- `r3`, `w3` of so3/_lebedev_grids.npz: 38 points, precision 9. -/
def lebedevRule9 : QuadratureRule where
  pos := [⟨1180591620717411303424, 0, 0, 11243729721118627840⟩,
    ⟨681614890024214003712, 681614890024214003712, 681614890024214003712, 37947587808773300224⟩,
    ⟨1048452526971767816192, 542718963732315521024, 0, 33731189163354701824⟩]
  neg := []

/-- `r4`, `w4` of so3/_lebedev_grids.npz: 50 points, precision 11. -/
def lebedevRule11 : QuadratureRule where
  pos := [⟨1180591620717411303424, 0, 0, 14991639628157929472⟩,
    ⟨834804340821298053120, 834804340821298053120, 0, 26651803783390957568⟩,
    ⟨681614890024214003712, 681614890024214003712, 681614890024214003712, 24903104499507847168⟩,
    ⟨1067885300879243520683, 355961766959747771051, 355961766959747771051, 23816470897987895296⟩]
  neg := []

/-- `r5`, `w5` of so3/_lebedev_grids.npz: 74 points, precision 13. -/
def lebedevRule13 : QuadratureRule where
  pos := [⟨1180591620717411303424, 0, 0, 605722813259076864⟩,
    ⟨834804340821298053120, 834804340821298053120, 0, 19602625399124070400⟩,
    ⟨866317406051311528619, 567137869869704178347, 567137869869704178347, 31375647391647764480⟩,
    ⟨1118204698451036864512, 378701501542032048128, 0, 19505936631241453568⟩]
  neg := [⟨681614890024214003712, 681614890024214003712, 681614890024214003712, 34929029687621648384⟩]

/-- `r6`, `w6` of so3/_lebedev_grids.npz: 86 points, precision 15. -/
def lebedevRule15 : QuadratureRule where
  pos := [⟨1180591620717411303424, 0, 0, 13628763298325956608⟩,
    ⟨681614890024214003712, 681614890024214003712, 681614890024214003712, 14100878985372485632⟩,
    ⟨1006475975302670865749, 436350023517073681067, 436350023517073681067, 13117028973452195840⟩,
    ⟨819748522006670136661, 819748522006670136661, 223206846319560228864, 14021297911770204160⟩,
    ⟨1094798803467044782080, 441828196061875453952, 0, 13945506824964075520⟩]
  neg := []

/-- `r7`, `w7` of so3/_lebedev_grids.npz: 110 points, precision 17. -/
def lebedevRule17 : QuadratureRule where
  pos := [⟨1180591620717411303424, 0, 0, 4519624068162327552⟩,
    ⟨681614890024214003712, 681614890024214003712, 681614890024214003712, 11562404442749136896⟩,
    ⟨1139417348776209864021, 218545967951775528277, 218545967951775528277, 9694708228068071424⟩,
    ⟨815105304487064655189, 815105304487064655189, 254957369186033349973, 11738403946869067776⟩,
    ⟨978438895368936576341, 467147676295932777813, 467147676295932777813, 11328333056199546880⟩,
    ⟨1036747051517490757632, 564758467026350424064, 0, 11445831467465148416⟩]
  neg := []

/-- `r8`, `w8` of so3/_lebedev_grids.npz: 146 points, precision 19. -/
def lebedevRule19 : QuadratureRule where
  pos := [⟨1180591620717411303424, 0, 0, 707919769597799680⟩,
    ⟨834804340821298053120, 834804340821298053120, 0, 8704501687355923456⟩,
    ⟨681614890024214003712, 681614890024214003712, 681614890024214003712, 8512674015240330240⟩,
    ⟨798600623746861143381, 798600623746861143381, 343905019460915505835, 8401509665221566464⟩,
    ⟨952843476721660690432, 492892424255608804693, 492892424255608804693, 7973514499296613376⟩,
    ⟨1150945363857832826197, 185905008434851962880, 185905008434851962880, 8942266276190198784⟩,
    ⟨1041600582504193146880, 530478576758425346048, 165702386933456754005, 8253619149013117952⟩]
  neg := []

/-- `r9`, `w9` of so3/_lebedev_grids.npz: 170 points, precision 21. -/
def lebedevRule21 : QuadratureRule where
  pos := [⟨1180591620717411303424, 0, 0, 6546195068339337216⟩,
    ⟨834804340821298053120, 834804340821298053120, 0, 7167764595641251840⟩,
    ⟨681614890024214003712, 681614890024214003712, 681614890024214003712, 7536512946996974592⟩,
    ⟨1101070027247344080213, 301198746682067916117, 301198746682067916117, 6119463953025961984⟩,
    ⟨796143937756197978112, 796143937756197978112, 355114397985035845632, 7458894049273906176⟩,
    ⟨934787202741212239189, 509886977917373262507, 509886977917373262507, 7321639644233510912⟩,
    ⟨1139545309430167502848, 308598546114313125888, 0, 6466269585960579072⟩,
    ⟨1008716139619232612352, 589168718639911130453, 170788013502242174293, 7046224125080202240⟩]
  neg := []

/-- `r10`, `w10` of so3/_lebedev_grids.npz: 194 points, precision 23. -/
def lebedevRule23 : QuadratureRule where
  pos := [⟨1180591620717411303424, 0, 0, 2104216197283182848⟩,
    ⟨834804340821298053120, 834804340821298053120, 0, 6749331260972399616⟩,
    ⟨681614890024214003712, 681614890024214003712, 681614890024214003712, 6579889479996538880⟩,
    ⟨792528019654449736363, 792528019654449736363, 370938338586558578688, 6621589042986968064⟩,
    ⟨1077300593590151981739, 341482068312869298176, 341482068312869298176, 6089772220225572864⟩,
    ⟨917901979887618752512, 525001204868404816555, 525001204868404816555, 6515415350918056960⟩,
    ⟨1160488863973482037248, 153398454199677536939, 153398454199677536939, 4848426547611102208⟩,
    ⟨1107771806491353317376, 408213424143606136832, 0, 5964167133038734336⟩,
    ⟨987017114496562948779, 619950586510052676949, 187763310806143530325, 6528965530986263552⟩]
  neg := []

/-- `r11`, `w11` of so3/_lebedev_grids.npz: 230 points, precision 25. -/
def lebedevRule25 : QuadratureRule where
  pos := [⟨681614890024214003712, 681614890024214003712, 681614890024214003712, 5253956911441108992⟩,
    ⟨911758221037066256384, 530327031782978295125, 530327031782978295125, 5308932884485543936⟩,
    ⟨1103047740792668684288, 297558613083501253973, 297558613083501253973, 5960988255351997440⟩,
    ⟨824278049759391536469, 824278049759391536469, 186890257311268345173, 4694513986665786368⟩,
    ⟨777703543269994883755, 777703543269994883755, 429128153910640732843, 5196256727260046336⟩,
    ⟨1178664522087347694251, 47678712654434318336, 47678712654434318336, 20359826098082975744⟩,
    ⟨959719047303254933504, 687557943122975424512, 0, 4995181248937632768⟩,
    ⟨1103880018966813343744, 418623313533768450048, 0, 6136797725417738240⟩,
    ⟨995990207705124476245, 574317864689406763008, 268251880444979023872, 5543728833442053120⟩]
  neg := [⟨1180591620717411303424, 0, 0, 65199824134696198144⟩]

/-- `r12`, `w12` of so3/_lebedev_grids.npz: 266 points, precision 27. -/
def lebedevRule27 : QuadratureRule where
  pos := [⟨681614890024214003712, 681614890024214003712, 681614890024214003712, 4942964609904240640⟩,
    ⟨831062524120691681963, 831062524120691681963, 111654542730932497067, 6275042777309010944⟩,
    ⟨1168425396758237915819, 119538000482102745771, 119538000482102745771, 4778022378237953024⟩,
    ⟨889781137432596294315, 548673902412589318144, 548673902412589318144, 4855162255184654336⟩,
    ⟨1046120281235613242709, 386929536282567535275, 386929536282567535275, 4244917404233418752⟩,
    ⟨781591635267569336320, 781591635267569336320, 414759697014666204501, 5024753010168438784⟩,
    ⟨1004271216496910761984, 620673745718295166976, 0, 4993409895515036672⟩,
    ⟨1108844623806511945045, 381742475682250667349, 136135437794665600341, 4817893139823406080⟩,
    ⟨967309939330061402112, 619213131900488335360, 273282186509522376021, 4806740525299233792⟩]
  neg := [⟨1180591620717411303424, 0, 0, 1551024823279441920⟩,
    ⟨834804340821298053120, 834804340821298053120, 0, 2978312370299745280⟩]

/-- `r13`, `w13` of so3/_lebedev_grids.npz: 302 points, precision 29. -/
def lebedevRule29 : QuadratureRule where
  pos := [⟨1180591620717411303424, 0, 0, 1008923177407949696⟩,
    ⟨681614890024214003712, 681614890024214003712, 681614890024214003712, 4249090069864280064⟩,
    ⟨1024332792905628450816, 415053553343613042688, 415053553343613042688, 4072791306983723008⟩,
    ⟨775215348057557620053, 775215348057557620053, 438039842000888889344, 4255823357409336320⟩,
    ⟨877713252356348958037, 558308168284418020693, 558308168284418020693, 4222657068225349632⟩,
    ⟨1169618755198165516288, 113552944472738739541, 113552944472738739541, 2776871220078904832⟩,
    ⟨1120917811171509720405, 262049456693422440448, 262049456693422440448, 3670404005525325312⟩,
    ⟨827803267726307142315, 827803267726307142315, 152578094074673184768, 4309213495778328064⟩,
    ⟨1138573083851561730048, 312166474235957166080, 0, 3520931473609759232⟩,
    ⟨968470497501765992448, 675175140520476999680, 0, 4251099020278211072⟩,
    ⟨944559183914711946581, 643266285006142226432, 296332599564971846315, 4216530851427265536⟩,
    ⟨1065416088545685285547, 487315646522222673920, 145631706131613435221, 4004935364087624704⟩]
  neg := []

/-- `r14`, `w14` of so3/_lebedev_grids.npz: 350 points, precision 31. -/
def lebedevRule31 : QuadratureRule where
  pos := [⟨1180591620717411303424, 0, 0, 3549799047605670912⟩,
    ⟨681614890024214003712, 681614890024214003712, 681614890024214003712, 3601545554443544576⟩,
    ⟨834556139383564817749, 834556139383564817749, 28786721636266491221, 1913862507407603712⟩,
    ⟨867731123057579589632, 566056213191497340245, 566056213191497340245, 3548505987453110784⟩,
    ⟨1135881500542338859008, 227562949130398501547, 227562949130398501547, 3531140718137815040⟩,
    ⟨818192253771500257280, 818192253771500257280, 234348984731724207445, 3520725673983280128⟩,
    ⟨1015310933199571408213, 425993124259992824491, 425993124259992824491, 3213055933813474816⟩,
    ⟨767205830961043079168, 767205830961043079168, 465389085375790394027, 3581340968665062912⟩,
    ⟨1158326586968870748160, 228201868592724451328, 0, 3551160040432144384⟩,
    ⟨1092007289323282006016, 448683245701220614144, 0, 3402423261570845184⟩,
    ⟨936744890774617118037, 631761786188960257365, 342319485316201581227, 3492612224973780992⟩,
    ⟨977624487161862444373, 651901530087259428181, 114329926439054366037, 3584299803506286080⟩,
    ⟨1071346550889323216896, 446274482119995943595, 216453758143036738219, 3343656717376367104⟩]
  neg := []

/-- `r15`, `w15` of so3/_lebedev_grids.npz: 434 points, precision 35. -/
def lebedevRule35 : QuadratureRule where
  pos := [⟨1180591620717411303424, 0, 0, 621687501683327360⟩,
    ⟨834804340821298053120, 834804340821298053120, 0, 3008407146691449856⟩,
    ⟨681614890024214003712, 681614890024214003712, 681614890024214003712, 2966020893367562752⟩,
    ⟨815711635528004293973, 815711635528004293973, 251049059421899781461, 2987373524711630336⟩,
    ⟨1142797528631267076779, 209535657421872133461, 209535657421872133461, 2378040933883804672⟩,
    ⟨848864856286371807232, 580183173950297085269, 580183173950297085269, 2953515771154389504⟩,
    ⟨762268425136691309227, 762268425136691309227, 481342155838672535552, 2967142166954474496⟩,
    ⟨1079618926377281781760, 337801383002001233237, 337801383002001233237, 2718542164966856704⟩,
    ⟨1173810199301229215744, 89348169887727947776, 89348169887727947776, 1726610076190931200⟩,
    ⟨981761575054258307072, 463648996901290617515, 463648996901290617515, 2886987389616615424⟩,
    ⟨1041061378589664903168, 556765463114541940736, 0, 2854012212246550528⟩,
    ⟨1154196910860838371328, 248245978552446885888, 0, 2256053071340865280⟩,
    ⟨1025870404573958127616, 531541352337846438571, 242590763802501159595, 2853407358190211072⟩,
    ⟨944388122066248728576, 697157893098153192107, 126089340942413467648, 2965925779754496000⟩,
    ⟨911117171053669416960, 655246337119223513088, 366489172024445359445, 2947517050719168000⟩,
    ⟨1106428018996535285077, 394832710602860893525, 117135580954567825408, 2640520380804596224⟩]
  neg := []

/-- `r16`, `w16` of so3/_lebedev_grids.npz: 590 points, precision 41. -/
def lebedevRule41 : QuadratureRule where
  pos := [⟨1180591620717411303424, 0, 0, 365407426634696960⟩,
    ⟨681614890024214003712, 681614890024214003712, 681614890024214003712, 2186903950550640384⟩,
    ⟨831249240192022926677, 831249240192022926677, 108839222105513450155, 2209820344468871424⟩,
    ⟨803716560084573661867, 803716560084573661867, 319180132526765954389, 2194498562852147968⟩,
    ⟨752337551911726918315, 752337551911726918315, 511637558116195434496, 2186489716013321216⟩,
    ⟨827321508148118006443, 595539963841087553536, 595539963841087553536, 2180217383676991232⟩,
    ⟨947822490184956510208, 497709303714403188736, 497709303714403188736, 2146872543810307584⟩,
    ⟨1042555346632827535360, 391710941968353050624, 391710941968353050624, 2065521374289257216⟩,
    ⟨1111425666819742542507, 281540016731595920725, 281540016731595920725, 1909265339083034368⟩,
    ⟨1155185978224917457579, 172252620619694088192, 172252620619694088192, 1634809176361652992⟩,
    ⟨1176197611891605656917, 71957462047545313280, 71957462047545313280, 1152768755536779264⟩,
    ⟨933968309250895675392, 722149411287710760960, 0, 2192548947232881920⟩,
    ⟨1083836574111247499264, 468075694227929579520, 0, 2013090520177904384⟩,
    ⟨1162898489628971237376, 203626318846119493632, 0, 1535148886594134016⟩,
    ⟨884629829728635458901, 662343044247335441749, 415365298261207343104, 2175672716012671488⟩,
    ⟨991753025761402033493, 559882925206709381803, 311052440696494213803, 2128204032936842752⟩,
    ⟨921240130043782944085, 706480960071650699947, 214471095398229923157, 2183894459407157504⟩,
    ⟨1073409810137415051947, 447566463616839696384, 203155642438103635285, 2023421299800308992⟩,
    ⟨1129946689101724833109, 328047828551823441920, 96962244604007790592, 1836072148596211200⟩,
    ⟨1014576656877921981781, 594258380077382729728, 106243870102647732907, 2127708413056458240⟩]
  neg := []

/-- `r17`, `w17` of so3/_lebedev_grids.npz: 770 points, precision 47. -/
def lebedevRule47 : QuadratureRule where
  pos := [⟨1180591620717411303424, 0, 0, 258896905402354016⟩,
    ⟨834804340821298053120, 834804340821298053120, 0, 1695841492323408640⟩,
    ⟨681614890024214003712, 681614890024214003712, 681614890024214003712, 1678730855682910976⟩,
    ⟨1177532327267756474368, 60059108999157552469, 60059108999157552469, 802580765374669568⟩,
    ⟨1162646337152030365013, 145000120026038793557, 145000120026038793557, 1170342224280990976⟩,
    ⟨1131050072005953596075, 239293031160010186752, 239293031160010186752, 1393343478626848256⟩,
    ⟨1080616702632647065600, 336202406966033836715, 336202406966033836715, 1530754625642174720⟩,
    ⟨1010470645176596037632, 431709190395894704811, 431709190395894704811, 1612536362198633216⟩,
    ⟨920414397166977548288, 522797241957105833301, 522797241957105833301, 1656356590759178240⟩,
    ⟨810646680852199069013, 606897245722649908565, 606897245722649908565, 1674841065149166336⟩,
    ⟨744528443623039522133, 744528443623039522133, 533995663072906554027, 1678065471312884992⟩,
    ⟨792989617912234213376, 792989617912234213376, 368960033980622056107, 1681158306895599616⟩,
    ⟨824028475865340127915, 824028475865340127915, 189078599619981647872, 1690080706800464128⟩,
    ⟨1168168889655401775104, 170815749125862932480, 0, 1092566886549985536⟩,
    ⟨1110673300068591271936, 400251665109477113856, 0, 1476022862046353152⟩,
    ⟨998484542939199864832, 629940626106668285952, 0, 1646176630848586752⟩,
    ⟨1144448827688161280000, 278051509315757252608, 81980570128456104619, 1330631940971576832⟩,
    ⟨1042828810125282022741, 484300225551220817920, 267876723908385098411, 1588785613680278784⟩,
    ⟨920091843214548893696, 733655336268273603925, 94749261333819962027, 1682292628564094720⟩,
    ⟨1103162315092175110144, 383135550539934233941, 173310794185180808533, 1489343886004835584⟩,
    ⟨989411493584682046805, 616797989574319483563, 185530890494737850368, 1644029444860254976⟩,
    ⟨900603249351109487275, 710426513348239491072, 279292913082754435755, 1674978148697540864⟩,
    ⟨1059327549231028983125, 513153063317171404800, 91080469676813596672, 1580064493144241920⟩,
    ⟨962901414694450348032, 579531953857264011947, 361607736291651024213, 1645391560261715712⟩,
    ⟨863367589218712054443, 666888834420227025579, 451278476464881175211, 1671617098315465472⟩]
  neg := []

/-- `r18`, `w18` of so3/_lebedev_grids.npz: 974 points, precision 53. -/
def lebedevRule53 : QuadratureRule where
  pos := [⟨1180591620717411303424, 0, 0, 169803806946634848⟩,
    ⟨681614890024214003712, 681614890024214003712, 681614890024214003712, 1329077330387575296⟩,
    ⟨1178413836509449814016, 50682367896753095339, 50682367896753095339, 584160198017039488⟩,
    ⟨1167467248541157687296, 124130573373167636480, 124130573373167636480, 868678146816097152⟩,
    ⟨1143863675640261137749, 206606469476291340971, 206606469476291340971, 1049443566524192896⟩,
    ⟨1105745335459745442475, 292509681905726906368, 292509681905726906368, 1167410060136875008⟩,
    ⟨1052223464903810132651, 378564627781033132032, 378564627781033132032, 1243516778330033920⟩,
    ⟨982956715439766383275, 462381157963876204544, 462381157963876204544, 1290125502859552768⟩,
    ⟨897937804876090092203, 541989055923859379541, 541989055923859379541, 1315638780847207424⟩,
    ⟨797372724753813056171, 615627043235936752981, 615627043235936752981, 1326660068766716928⟩,
    ⟨738244039375819276288, 738244039375819276288, 551169712121694606677, 1328448118684857344⟩,
    ⟨783668069352006014293, 783668069352006014293, 406847992577526519125, 1329527116349543936⟩,
    ⟨815837261218556182528, 815837261218556182528, 250231295650593428821, 1334407279891469568⟩,
    ⟨832660291470374513323, 832660291470374513323, 84559168190717132800, 1339955592097310208⟩,
    ⟨1171528886388843216896, 146002202944616251392, 0, 805561099981846528⟩,
    ⟨1128387644890038927360, 347185681973890498560, 0, 1116149990516505216⟩,
    ⟨1042209731702617538560, 554612883056751575040, 0, 1268463025988399616⟩,
    ⟨913516351123786039296, 747853228339389890560, 0, 1333242219478885888⟩,
    ⟨1153878046908933745323, 239557240288591582549, 70529117356609566379, 996051514672371584⟩,
    ⟨1035447870958067941376, 543381689862676867755, 162421121035873812480, 1269437893690626048⟩,
    ⟨938502218291571447125, 593917157056194587307, 400340569670688183637, 1308776996759774976⟩,
    ⟨1122766443096658061995, 332644253281474669227, 150132907528806193835, 1129410060705520640⟩,
    ⟨1015478163381908679339, 511380496562870348459, 317947577971246306645, 1275821978613803264⟩,
    ⟨905634413285998455467, 738597876134628977323, 167618798914992223573, 1330287251338492160⟩,
    ⟨1089232849467680391168, 448435356519701534037, 79209251806399511893, 1207236056959492352⟩,
    ⟨981092359048439949995, 651392066779549603157, 83323065603695657643, 1309229199770580736⟩,
    ⟨882634628626354350763, 711851785187872505856, 328663540999942012928, 1325557237266445312⟩,
    ⟨1076839314652161791317, 423785915438706911915, 233707430783455521451, 1218844969919578880⟩,
    ⟨966607661408019819179, 631459077887518561621, 246425722620281050453, 1307209342769095936⟩,
    ⟨846002328232794385067, 669985455048727625728, 478744321695834483371, 1324364125570759936⟩]
  neg := []

/-- `r19`, `w19` of so3/_lebedev_grids.npz: 1202 points, precision 59. -/
def lebedevRule59 : QuadratureRule where
  pos := [⟨1180591620717411303424, 0, 0, 130477714810567536⟩,
    ⟨834804340821298053120, 834804340821298053120, 0, 1086762063734275584⟩,
    ⟨681614890024214003712, 681614890024214003712, 681614890024214003712, 1078253191454439296⟩,
    ⟨1178963209208092994219, 43831074832351646379, 43831074832351646379, 435688116971450048⟩,
    ⟨1170687330329203441664, 107906787355676841301, 107906787355676841301, 661602473297605888⟩,
    ⟨1152583981011995503275, 180757768329197980331, 180757768329197980331, 810511285485915776⟩,
    ⟨1123034317099580959403, 257478637487502898517, 257478637487502898517, 911456700258937984⟩,
    ⟨1081193936053257568256, 335273207660430524416, 335273207660430524416, 980073559806611968⟩,
    ⟨1026662443297938920789, 412165502213413295445, 412165502213413295445, 1025543643649097088⟩,
    ⟨959317727762437079040, 486572744874226690731, 486572744874226690731, 1053923146057972480⟩,
    ⟨879221371548986638336, 557120433443112386560, 557120433443112386560, 1069712845048258560⟩,
    ⟨786560022128728211456, 622543133644978301611, 622543133644978301611, 1076673260999150592⟩,
    ⟨733085454653487076693, 733085454653487076693, 564772527004584542208, 1077729050350555264⟩,
    ⟨775615958405558555989, 775615958405558555989, 436619222024658037419, 1077964554423503872⟩,
    ⟨807735794841055707136, 807735794841055707136, 298198501627925686955, 1080580609552389760⟩,
    ⟨827902191155059425280, 827902191155059425280, 151500820689087294123, 1084661028133749248⟩,
    ⟨1173783567739814019072, 126604545779989327872, 0, 611189603633658240⟩,
    ⟨1140557337737270919168, 304836897769664626688, 0, 865508680136273664⟩,
    ⟨1072898208538129235968, 492631717435892465664, 0, 999162177081077760⟩,
    ⟨969996786694960676864, 672980541107701612544, 0, 1066206777850250752⟩,
    ⟨1160283794169029066752, 209174156490443362304, 61516373051388756309, 765705569563030656⟩,
    ⟨1136230799701914091520, 292281011199321970005, 131711636574809482581, 877773519327801728⟩,
    ⟨1109993185578659086336, 396043188159403382101, 69724428930180942848, 944299500718089984⟩,
    ⟨1100408439879123146069, 374674356753112064000, 206196427569926620501, 956483631921550336⟩,
    ⟨1067688598030197200213, 482893663150195864917, 143705750176745459712, 1001541864704249856⟩,
    ⟨1052191368584275443712, 455034383628535559509, 282194274393921974272, 1010149520753089664⟩,
    ⟨1024332720065707900928, 582293900236033010347, 73978829801916938923, 1039299440272793344⟩,
    ⟨1013181366068526202880, 564950949243980619776, 219295506812165121365, 1040224965391433856⟩,
    ⟨991313696978181761707, 532142534451357483008, 357656332418845242709, 1044856917308673920⟩,
    ⟨963987125942430001835, 664923724516136960000, 149672430664454858069, 1065052112587027712⟩,
    ⟨946299597526409647445, 641569325881533508267, 294452792001424000341, 1063723873589185920⟩,
    ⟨917740342246277939200, 604878299365805370027, 430896138388567741781, 1065211567941672192⟩,
    ⟨904524580624156579157, 754903295730877923328, 75847689810015781547, 1081187715823364224⟩,
    ⟨891769814623956631552, 740207984748206101845, 225022914274785573547, 1078066447449365248⟩,
    ⟨867062583736138913109, 712033895806133851477, 367432690456517268821, 1075260839499044736⟩,
    ⟨831589515715382247424, 672193746054963112619, 500410851226285645824, 1075018426200169472⟩]
  neg := []

/-- `r20`, `w20` of so3/_lebedev_grids.npz: 1454 points, precision 65. -/
def lebedevRule65 : QuadratureRule where
  pos := [⟨1180591620717411303424, 0, 0, 91816508065131264⟩,
    ⟨681614890024214003712, 681614890024214003712, 681614890024214003712, 892249402753353088⟩,
    ⟨1179359819594274745003, 38124734980873614677, 38124734980873614677, 335480906061745344⟩,
    ⟨1172941501842566064811, 94880999582291409579, 94880999582291409579, 516440256690162624⟩,
    ⟨1158736075552501727232, 159886337942538256384, 159886337942538256384, 639547110703365888⟩,
    ⟨1135339049156913375915, 228912448730557131435, 228912448730557131435, 725827833650338688⟩,
    ⟨1101965595820314820608, 299556672882229903360, 299556672882229903360, 786792828709144576⟩,
    ⟨1058197382346814717952, 370145157271112542891, 370145157271112542891, 829370259999046272⟩,
    ⟨1003850099350786528597, 439364059147752792064, 439364059147752792064, 858114411347497088⟩,
    ⟨938897189101162659840, 506097146408720411307, 506097146408720411307, 876310367651159168⟩,
    ⟨863421725849835492693, 569341504827575189504, 569341504827575189504, 886570594471346304⟩,
    ⟨777585563224126270123, 628154943773263036416, 628154943773263036416, 891173723783658240⟩,
    ⟨728778994418618105856, 728778994418618105856, 575811539912617306795, 891829413986501504⟩,
    ⟨768645407505360404480, 768645407505360404480, 460613775249938623147, 891718226418998656⟩,
    ⟨800124159710241112064, 800124159710241112064, 336748025984006526293, 893090130414902144⟩,
    ⟨822058862435045659989, 822058862435045659989, 205511625686143265451, 895831954721180160⟩,
    ⟨833371952379614112427, 833371952379614112427, 69129970939849696597, 898225016711945472⟩,
    ⟨1175343441640996077568, 111195184696381464576, 0, 474796223795875712⟩,
    ⟨1149201566875035172864, 270429905151276007424, 0, 685318299927677952⟩,
    ⟨1095080629679902162944, 441129220759669161984, 0, 801875768583460224⟩,
    ⟨1011533547847079264256, 608766339811971366912, 0, 866169519742179328⟩,
    ⟨900023497129753149440, 764038140096744914944, 0, 895108782434924160⟩,
    ⟨819454479876396247723, 673825372129082381653, 517928854374587441152, 889960406408777600⟩,
    ⟨899929875261579695445, 613490113371348697088, 455579493958465440427, 883497775536218368⟩,
    ⟨970017909480352180907, 548542715637766600021, 389823959392282099712, 870304240821628544⟩,
    ⟨1029600236018038767616, 479780829155587369643, 321761223385509926229, 848071957418669184⟩,
    ⟨1078651735828198615723, 408051360675750770005, 252588785882600987307, 814114203251915520⟩,
    ⟨1117280794352697644373, 334272135485218185216, 183690884142139439787, 765035861095618304⟩,
    ⟨1145791405619670919851, 259456498126693386923, 116794500281888197973, 696260861600214656⟩,
    ⟨1164785423923787005952, 184726710303583327573, 54291192870150345387, 601595116904060544⟩,
    ⟨853538954701580883285, 711584678407052913323, 398641534679250097493, 889800857610306304⟩,
    ⟨928310264900757564075, 648856970448524028587, 333198527740463827627, 882197792872534016⟩,
    ⟨992823823840984847701, 581052693544983098709, 265471650173891556693, 866910449715487360⟩,
    ⟨1047022830260166071637, 508766868227226869760, 196713094674490505899, 841864723833430656⟩,
    ⟨1090963876531104333824, 432581541744162572971, 128326165510517540864, 804811908935570432⟩,
    ⟨1124868634397556577621, 353019214595050162859, 62004551312256427349, 753328564878693632⟩,
    ⟨878922387753761450667, 740080304250900949675, 271243717850357684907, 891391698799386496⟩,
    ⟨947842630032264374955, 673801906210990238379, 203425452655561083563, 882922755765642880⟩,
    ⟨1006809764846080901120, 601672097700623592107, 134615597785971875840, 866072417180506112⟩,
    ⟨1055839625187652162901, 524032737179919739563, 66249159658695322965, 839414871724694272⟩,
    ⟨894671728745301682859, 757937278814604700331, 137441456901364131157, 893868887064378624⟩,
    ⟨957836424781578207232, 686775889965014308181, 68445856211832205653, 884252301325411968⟩]
  neg := []

/-- `r21`, `w21` of so3/_lebedev_grids.npz: 1730 points, precision 71. -/
def lebedevRule71 : QuadratureRule where
  pos := [⟨1180591620717411303424, 0, 0, 74484109004865168⟩,
    ⟨834804340821298053120, 834804340821298053120, 0, 755376485213535488⟩,
    ⟨681614890024214003712, 681614890024214003712, 681614890024214003712, 750523942915949824⟩,
    ⟨1179624924732453027840, 33775818703020208811, 33775818703020208811, 262233856355907712⟩,
    ⟨1174553258490243863893, 84324426704586526720, 84324426704586526720, 410348149213913280⟩,
    ⟨1163201360258977737387, 142757084587469672448, 142757084587469672448, 513645007280207232⟩,
    ⟨1144346134358290421077, 205266290081203565909, 205266290081203565909, 587765700573797120⟩,
    ⟨1117271332142294805163, 269723326096526213120, 269723326096526213120, 641655822198897152⟩,
    ⟨1081564533019407766869, 334675018355623974229, 334675018355623974229, 680718903191503360⟩,
    ⟨1037010633528706585941, 399002206044374294528, 399002206044374294528, 708496685835342720⟩,
    ⟨983529877559427192149, 461771347560728466773, 461771347560728466773, 727501591608113664⟩,
    ⟨921138502766511893163, 522159187235670895275, 522159187235670895275, 739666405273746304⟩,
    ⟨849922332098070009173, 579408579634933421397, 579408579634933421397, 746604625176585344⟩,
    ⟨770019723496341307392, 632797835147522506752, 632797835147522506752, 749766331064982144⟩,
    ⟨725131884598650770773, 725131884598650770773, 584947924848855400448, 750190744751799552⟩,
    ⟨762579591374296509099, 762579591374296509099, 480355398165760218453, 749947505973818240⟩,
    ⟨793128076878961967104, 793128076878961967104, 368364333562198753280, 750634069433817216⟩,
    ⟨815893709399173300224, 815893709399173300224, 249862932092535076181, 752403033550097664⟩,
    ⟨830011092202831500629, 830011092202831500629, 126331898381562832213, 754448688458347392⟩,
    ⟨1176463832333047300096, 98637853385014337536, 0, 376244331496267776⟩,
    ⟨1155514647770974715904, 242038165781523529728, 0, 552284131774823680⟩,
    ⟨1111523694693570707456, 397883966808060510208, 0, 653909592956747008⟩,
    ⟨1042755810878982488064, 553585489139915669504, 0, 713605760765695872⟩,
    ⟨949796947306984243200, 701200637331782336512, 0, 745375386397414784⟩,
    ⟨1168046825141374331563, 164690560898979236523, 48375699851261213013, 481519218949058560⟩,
    ⟨1152776247717204994731, 232340334205933978965, 104505821408571156480, 561953708322642688⟩,
    ⟨1129693794693087090005, 300600317945429191339, 165008951245694670165, 621953514734828544⟩,
    ⟨1098234638038229390677, 368495828271103746048, 227789550392454509909, 666213584583971584⟩,
    ⟨1058082945500434803371, 435163837540296835072, 291358009751731448491, 698261041177004160⟩,
    ⟨1009089160724044759040, 499834195974525067264, 354543956586354887339, 720699386919763584⟩,
    ⟨951219495548275610965, 561804738704051240960, 416357396675885667669, 735538432230508416⟩,
    ⟨884522767294408212480, 620421979668133057877, 475912403905047393621, 744436067357253376⟩,
    ⟨809108077339250862763, 675065315023442220373, 532379107915445542912, 748860217086195456⟩,
    ⟨1135815370262853069483, 317216441395015914837, 55621478688582627328, 611105974392054016⟩,
    ⟨1108203671063789895680, 390304394961423340885, 115514837240506387115, 656980384452439808⟩,
    ⟨1072231261377206102699, 461010030749445373952, 177725767917893656576, 691404825517595392⟩,
    ⟨1027653880385911914496, 528900081918465873237, 240808596986449076224, 716192557260569728⟩,
    ⟨974368893807669865131, 593492480453718086997, 303592670091151660373, 733008672491001216⟩,
    ⟨912373699548566536192, 654294193658602121899, 365061522794262426965, 743337590140970240⟩,
    ⟨841737006295887664469, 710816610722413565269, 424281902820874070699, 748545115906406400⟩,
    ⟨1079350137816052553045, 474580289020650646187, 59777957289523232768, 688240958749853952⟩,
    ⟨1038955384951609158315, 547276771520679916885, 121886908001307273216, 714103671608912896⟩,
    ⟨990159805209787820715, 615780171066432405504, 184918673952833264299, 732245698096563712⟩,
    ⟨932900125350823422635, 679808562083065719467, 247697900570708559189, 743655290956354432⟩,
    ⟨867196511779833943381, 739037802976679226027, 309176180577442701312, 749406786499464064⟩,
    ⟨998186996018780580523, 627342199856194923179, 62137429676137560747, 732412948203491840⟩,
    ⟨945527535207971476821, 695760179699677418837, 125267822747802530475, 744766150087690624⟩,
    ⟨884750635684691645781, 758677255949346499243, 188206559048477166251, 751175793997764096⟩,
    ⟨893734866604762234880, 768789973103735483051, 63218196575745415509, 752676054809482624⟩]
  neg := []

/-- `r22`, `w22` of so3/_lebedev_grids.npz: 2030 points, precision 77. -/
def lebedevRule77 : QuadratureRule where
  pos := [⟨1180591620717411303424, 0, 0, 54968722459879216⟩,
    ⟨681614890024214003712, 681614890024214003712, 681614890024214003712, 640063555127773696⟩,
    ⟨1179829202977655357440, 29996889082656660480, 29996889082656660480, 209970832789324576⟩,
    ⟨1175747000662650945536, 75549868765419709781, 75549868765419709781, 331902721705543936⟩,
    ⟨1166525722271901701461, 128480181713332920320, 128480181713332920320, 418979724948545984⟩,
    ⟨1151097938278663269035, 185432078399039149397, 185432078399039149397, 482898677132751616⟩,
    ⟨1128812045064751437141, 244519878358485966848, 244519878358485966848, 530473595948627968⟩,
    ⟨1099272211622676485461, 304464431142911694165, 304464431142911694165, 565943563765566784⟩,
    ⟨1062250814711768219648, 364293687532702624427, 364293687532702624427, 592115730021741952⟩,
    ⟨1017636895679266095104, 423209004783942795264, 423209004783942795264, 610971201233068416⟩,
    ⟨965403433274776398507, 480516797796621440341, 480516797796621440341, 624004329372633472⟩,
    ⟨905585212846085920085, 535589393650898064725, 535589393650898064725, 632423180358436224⟩,
    ⟨838263454051584092843, 587839670535117832192, 587839670535117832192, 637273290688048128⟩,
    ⟨763556077258085662720, 636701928609615757312, 636701928609615757312, 639514609102111872⟩,
    ⟨722004698479320946005, 722004698479320946005, 592633955874732135765, 639799017789850368⟩,
    ⟨757267879124709419691, 757267879124709419691, 496877543666538643456, 639519031649088512⟩,
    ⟨786757992628695078229, 786757992628695078229, 394740797204819427328, 639826863437503744⟩,
    ⟨809786891224152462677, 809786891224152462677, 286857031482948692651, 640941261402848256⟩,
    ⟨825661577412552600235, 825661577412552600235, 174248368937545378475, 642511783956087808⟩,
    ⟨833780245575155231403, 833780245575155231403, 58460064021789873493, 643688107143078016⟩,
    ⟨1177285119915030380544, 88296779866632306688, 0, 303176223080110528⟩,
    ⟨1160236166168453611520, 218285623949202079744, 0, 451837406407353984⟩,
    ⟨1123978294503300169728, 361205437934725218304, 0, 540650936514827904⟩,
    ⟨1066682717624175198208, 505949162298019954688, 0, 595254763751915776⟩,
    ⟨988407484913843208192, 645637064204383125504, 0, 627213959882063488⟩,
    ⟨890466516540229910528, 775155441075448119296, 0, 642053158425334656⟩,
    ⟨1170466932023372294827, 148034568954100435627, 43468406257097366869, 391489124944758080⟩,
    ⟨1158000983270862585856, 209640193588694608555, 94240579815566060885, 460326080560238592⟩,
    ⟨1139038205792983810048, 272208225865373160789, 149302452837487864491, 512771473799066816⟩,
    ⟨1113055614060789645312, 334875149211931929259, 206790738081300052651, 552447844855158400⟩,
    ⟨1079740274846528110592, 396890670797401068885, 265396513195816154453, 582131781014313088⟩,
    ⟨1038921414030193655808, 457594853285105926144, 324107729967443596629, 603876376251962752⟩,
    ⟨990528623773424424277, 516393055450520038059, 382083541488201228288, 619245941431450496⟩,
    ⟨934564384173482977963, 572737561043602374656, 438585992608551436288, 629496351609878272⟩,
    ⟨871085087267594529451, 626113992495578507947, 492938752837934186496, 635699371963491456⟩,
    ⟨800188078650045972480, 676030064610596585472, 544498820418469292715, 638826060820854912⟩,
    ⟨1144056011357305984341, 287063300246673790293, 50270065017501362176, 502908110632284480⟩,
    ⟨1121255963234297905152, 354425032772021108736, 104711680171041830229, 543654338758207168⟩,
    ⟨1091412382941363918165, 420119957434083740331, 161600763104638154069, 575162382295957248⟩,
    ⟨1054274431684738930005, 483780772676205076480, 219677403464258834432, 598824747787131648⟩,
    ⟨1009713044859839616341, 545000956696141291520, 277939020557255084715, 615922894398718464⟩,
    ⟨957686753999422330197, 603365787007989033643, 335532983759337734144, 627577236931672192⟩,
    ⟨898218012180005694123, 658464975210617940651, 391694847967704973312, 634784482255231744⟩,
    ⟨831376455920671828651, 709896876013924330155, 445708636751205608107, 638467737246802944⟩,
    ⟨1097259199412967975595, 432285046187521960619, 54299751881833022805, 571730407134397248⟩,
    ⟨1063567890404623078741, 500291419270416864597, 111033387829137614165, 596071981917093120⟩,
    ⟨1022710068917899285845, 565069926757108443819, 168987182108069314560, 614215538763158144⟩,
    ⟨974592735911296270336, 626386741388097497771, 227167832736721417557, 626886168423773696⟩,
    ⟨919197489731329938773, 683968226148876670293, 284710406199957479424, 634853672260401920⟩,
    ⟨856560525787822555136, 737523733562541413717, 340821629305157899605, 638900334304789504⟩,
    ⟨1029284771886758428672, 575457609805562058069, 56727176794347517269, 613671086836589312⟩,
    ⟨984926462554999220907, 640746896522979284309, 114716401892799354197, 627026475633056640⟩,
    ⟨933549074201272374613, 701683891578578130261, 172980973708825990485, 635667046649477760⟩,
    ⟨875154129288461626027, 758094954202189419861, 230637952884383053141, 640100189918782208⟩,
    ⟨940853206422959259648, 710790341064081113088, 58042311478848692907, 636450845569167872⟩,
    ⟨886597875987736832683, 770834540854837127851, 116425477569602762069, 641452345229520128⟩]
  neg := []

/-- `r23`, `w23` of so3/_lebedev_grids.npz: 2354 points, precision 83. -/
def lebedevRule83 : QuadratureRule where
  pos := [⟨1180591620717411303424, 0, 0, 46310079004779136⟩,
    ⟨834804340821298053120, 834804340821298053120, 0, 555330435031767552⟩,
    ⟨681614890024214003712, 681614890024214003712, 681614890024214003712, 552304702720754624⟩,
    ⟨1179972330911889883136, 27035839089303549269, 27035839089303549269, 169749268153112096⟩,
    ⟨1176642093077327140181, 68227412770713239552, 68227412770713239552, 271957838363549248⟩,
    ⟨1169050316432125897387, 116442974365374219605, 116442974365374219605, 346280597697839680⟩,
    ⟨1156261223723192320000, 168606876227379680597, 168606876227379680597, 401744230775258432⟩,
    ⟨1137685636628750412459, 223011173617824470357, 223011173617824470357, 443800737510294272⟩,
    ⟨1112950257245318676480, 278512387341876497067, 278512387341876497067, 475853797773187712⟩,
    ⟨1081825818879502538069, 334252503740703375360, 334252503740703375360, 500168434530541056⟩,
    ⟨1044184096047353167872, 389535716250728368811, 389535716250728368811, 518341425936479424⟩,
    ⟨999970383245441717589, 443765595523204470101, 443765595523204470101, 531564147678655936⟩,
    ⟨949184826802926813184, 496409477888598480213, 496409477888598480213, 540779168346153280⟩,
    ⟨891869203583928063317, 546976187144711957163, 546976187144711957163, 546778213484209856⟩,
    ⟨828097584104134082560, 595000405928038225237, 595000405928038225237, 550265366749705024⟩,
    ⟨757970662311863539029, 640030096941807430315, 640030096941807430315, 551897281338719168⟩,
    ⟨719294361607417200640, 719294361607417200640, 599189300328135371435, 552093625057743424⟩,
    ⟨752586333937614727851, 752586333937614727851, 510905269936459109717, 551818734737650496⟩,
    ⟨780977468946537163435, 780977468946537163435, 417067094007529264469, 551918146116243200⟩,
    ⟨803922363118391154005, 803922363118391154005, 318141859968862508373, 552605302410324416⟩,
    ⟨820862995259349587285, 820862995259349587285, 214859165352242143232, 553750573881929536⟩,
    ⟨831283543399338759509, 831283543399338759509, 108313968882334714539, 554863549416182144⟩,
    ⟨1177903778665184919552, 79619489538950721536, 0, 247917426102129536⟩,
    ⟨1163838323766527131648, 198184083721383526400, 0, 374515437798833216⟩,
    ⟨1133589466336819183616, 329805240586576396288, 0, 452408772406262208⟩,
    ⟨1085333586360550260736, 464593996114790498304, 0, 502010439137395456⟩,
    ⟨1018809783947706662912, 596509177666690416640, 0, 532896385953044032⟩,
    ⟨934783265443186180096, 721094183554088665088, 0, 549895666302969088⟩,
    ⟨1172301749798509718187, 134006716447447009963, 39336780174411066709, 322698521867438912⟩,
    ⟨1161989149975337107456, 190413682410768655701, 85559451836302114816, 381978691495742528⟩,
    ⟨1146211917850084485803, 248017099804441903104, 135949742519758671872, 427953686779256768⟩,
    ⟨1124489207663363822933, 306042641890489977515, 188834578669992371541, 463445971427037312⟩,
    ⟨1096518788153890854229, 363827708391960373931, 243048391765799133184, 490669199420405696⟩,
    ⟨1062120784954149918037, 420797064993987316395, 297700929069746948779, 511272318114393792⟩,
    ⟨1021202674183292518400, 476438053717067388245, 352063139393133477888, 526505815432090560⟩,
    ⟨973736189733373651627, 530282937745678084779, 405505133934835280555, 537357256198113024⟩,
    ⟨919741282914335872341, 581896465644532323669, 457459343200745280853, 544647227443051840⟩,
    ⟨859274669484689511765, 630866462666025806507, 507396416594951509333, 549095478912151424⟩,
    ⟨792422044567513896277, 676795776966382567424, 554807493165039826261, 551365746897869568⟩,
    ⟨1150380817846997647360, 261398519431411135829, 45731421111780893696, 419057557081556480⟩,
    ⟨1131325613325232870741, 323694197922022028629, 95503914967233633621, 455248908292118848⟩,
    ⟨1106277264741303626411, 384848954189595792725, 147778452028155951787, 483879978818490752⟩,
    ⟨1074987690777753015637, 444544826860956953259, 201439659689048951467, 506040363384220544⟩,
    ⟨1037313964982446511445, 502433062176136238421, 255611680079120493227, 522742617432139776⟩,
    ⟨993189836710159608491, 558159529966787559424, 309561726108163052885, 534863906554694912⟩,
    ⟨942605964557965361152, 611374907269608658261, 362644858296638810795, 543167239316186688⟩,
    ⟨885595748858367650475, 661738272432826340693, 414269481509040835243, 548337473178040128⟩,
    ⟨822225170462858422955, 708917325921884482219, 463873440685336106325, 551014511399930176⟩,
    ⟨1111148291023861732693, 395833792040245455531, 49615112032074439339, 480425292925237888⟩,
    ⟨1082741510071517544448, 459482909422908719104, 101699819195871340544, 502984309374289920⟩,
    ⟨1048170469907496730624, 520626214108567197013, 155188872362169629355, 520484890501683392⟩,
    ⟨1007324660824317788160, 579067564548928066901, 209223225982944411648, 533479616135059264⟩,
    ⟨960159659130915995648, 634574623831701394773, 263068528476178548053, 542548538433654656⟩,
    ⟨906680591837474575701, 686898393684701080235, 316065619843076702208, 548265423366757312⟩,
    ⟨846929719239069324629, 735784231103097410901, 367597865660042999125, 551197861521673792⟩,
    ⟨1053641572147284388523, 530024879084686043819, 52054201582839223979, 519524280372363776⟩,
    ⟨1015921851484456965461, 592082857247757281963, 105533202064036923392, 532979608977872640⟩,
    ⟨972095059182063069867, 650659524919045947392, 159593087112527510187, 542623358660194176⟩,
    ⟨922136602575955230720, 705606603524908602709, 213494688832957330773, 548816788280617984⟩,
    ⟨866063237688217086635, 756754079019895160832, 266560137904970939051, 551985850410610816⟩,
    ⟨978143857192391639040, 658914431713586402645, 53506459652229917696, 542894404682363840⟩,
    ⟨931595723943502260907, 717174698322321134933, 107640299723819488597, 549555595238515520⟩,
    ⟨879159944935435097429, 771194622187214918997, 161657727433010745344, 553072911118207488⟩,
    ⟨885824955695300411392, 778572016103710785536, 54187992357959294976, 553868129252500096⟩]
  neg := []

/-- `r24`, `w24` of so3/_lebedev_grids.npz: 2702 points, precision 89. -/
def lebedevRule89 : QuadratureRule where
  pos := [⟨1180591620717411303424, 0, 0, 35402107552262532⟩,
    ⟨681614890024214003712, 681614890024214003712, 681614890024214003712, 481428797158303488⟩,
    ⟨1180087808064551780352, 24385858253971520853, 24385858253971520853, 139941332431357232⟩,
    ⟨1177331976796055688533, 61991899961429861717, 61991899961429861717, 225895421144222848⟩,
    ⟨1171003746076990504960, 106176272259434505557, 106176272259434505557, 289585733962498048⟩,
    ⟨1160279552785005805568, 154188090164563139243, 154188090164563139243, 337933511626587200⟩,
    ⟨1144625639772628560555, 204485598127673577472, 204485598127673577472, 375195825447222144⟩,
    ⟨1123692820636895630677, 256038102396168344917, 256038102396168344917, 404110097337584064⟩,
    ⟨1097256384166358472021, 308078725583520967339, 308078725583520967339, 426523021560358848⟩,
    ⟨1065179675500347654144, 359992245617275838464, 359992245617275838464, 443741679943460096⟩,
    ⟨1027390663517329566379, 411257218432446092629, 411257218432446092629, 456736873270571328⟩,
    ⟨983866024002948934315, 461413167194431490731, 461413167194431490731, 466266388573567488⟩,
    ⟨934619812694357224107, 510040381061798144683, 510040381061798144683, 472953043978603136⟩,
    ⟨879695195281045149013, 556746323879919299243, 556746323879919299243, 477335877285187904⟩,
    ⟨819158595981985513472, 601155458070949582165, 601155458070949582165, 479904295221057600⟩,
    ⟨753096366606940919125, 642900628990043881472, 642900628990043881472, 481120083111408768⟩,
    ⟨716923210192274860715, 716923210192274860715, 604846093054564237312, 481259147487100224⟩,
    ⟨748434228716316043947, 748434228716316043947, 522961743801389662208, 481006184642272768⟩,
    ⟨775733491688401305600, 775733491688401305600, 436201415236133825195, 480992359177705024⟩,
    ⟨798381851852620087296, 798381851852620087296, 344919428523424956416, 481403681909753856⟩,
    ⟨815925958881135187285, 815925958881135187285, 249652226419001185621, 482214719748632576⟩,
    ⟨827930239832162194773, 827930239832162194773, 151193951106123232597, 483153397100649920⟩,
    ⟨834035948106876234411, 834035948106876234411, 50642368024137768277, 483791415732335872⟩,
    ⟨1178376054944046120960, 72294177100720474112, 0, 205303325849059232⟩,
    ⟨1166635379456225345536, 180993000718793359360, 0, 313992041738384384⟩,
    ⟨1141128393774635679744, 302692193208685133824, 0, 382582049337664320⟩,
    ⟨1100092480548117217280, 428477664703370936320, 0, 427515361258271232⟩,
    ⟨1043075330931555172352, 552983208524626558976, 0, 456751811520660672⟩,
    ⟨970478671517776052224, 672285447587002613760, 0, 474469327989943616⟩,
    ⟨883346614238574280704, 783259429577079226368, 0, 482853641790277312⟩,
    ⟨1173717358485162295296, 122068282810477715456, 35825572297986394795, 269163972322557312⟩,
    ⟨1165086920179269555541, 173962703244411961344, 78141034132170431147, 320554885070536768⟩,
    ⟨1151813852417683652608, 227211015220186921643, 124485255550649462101, 361015224568663232⟩,
    ⟨1133457675942464105131, 281110005296578464427, 173341964559738691584, 392772567257872768⟩,
    ⟨1109730926077694814891, 335066270696632603989, 223661442489215886677, 417614772053109952⟩,
    ⟨1080452108852476302677, 388570851233402822656, 274649793293476678315, 436885898332101056⟩,
    ⟨1045516082083636778325, 441174926058637877248, 325664523136619143168, 451605263406880896⟩,
    ⟨1004874432984693145600, 492472701833126242987, 376157662145856394581, 462570574641950912⟩,
    ⟨958521823120417609045, 542089655442692041387, 425642214743907074048, 470432753868377280⟩,
    ⟨906486110610319660373, 589674090944053349035, 473670742866860769280, 475748436516373824⟩,
    ⟨848821162413186034347, 634890513748878688256, 519820396578834290005, 479016624478806720⟩,
    ⟨785602066060609202859, 677413771046460347733, 563681249915304673280, 480703765692891392⟩,
    ⟨1155318243898363620011, 239344123843477430272, 41841613321708448085, 353024868790956352⟩,
    ⟨1139223130715704055125, 297148107797467480064, 87579880011670536875, 385221347621452736⟩,
    ⟨1117983334309639094272, 354204403144242561024, 135827390121788988075, 411156923650952128⟩,
    ⟨1091358776707030788779, 410232766306210742272, 185584678412446799189, 431694740275907008⟩,
    ⟨1059200693080756491605, 464929161625266959701, 236074863879735215445, 447649702420898560⟩,
    ⟨1021427587164539355136, 517986886422549179051, 286656317881996916053, 459726444264484864⟩,
    ⟨978008516601657185621, 569104658290293462357, 336772629937586170539, 468529619582720768⟩,
    ⟨928951075979161294165, 617989394089478400683, 385921730585674443435, 474589726934672512⟩,
    ⟨874292551475934046891, 664356524203281208661, 433635236218645348352, 478388569702750464⟩,
    ⟨814093560885502645589, 707928850535809018539, 479463232805159531861, 480380205649697728⟩,
    ⟨1122090832562754278741, 364186630967711214251, 45572318474893515093, 407808853541998976⟩,
    ⟨1097907701617900060672, 423831007702515982336, 93608389293555983701, 428550453530469440⟩,
    ⟨1068382295150084183381, 481519453181018712747, 143160268672055594325, 445105145686727680⟩,
    ⟨1033394819292662879573, 537085041808170123264, 193471910708414707029, 457905282936580608⟩,
    ⟨992883870875967739221, 590328691365068079104, 243906191011472097280, 467403928389608384⟩,
    ⟨946832572624509752661, 641035872633894513323, 293900772918204372309, 474041415800488640⟩,
    ⟨895258101152421025109, 688986168650133749760, 342939596194337273173, 478241938373470208⟩,
    ⟨838203780113021938347, 733958504636348678144, 390532855704074868053, 480420531248732224⟩,
    ⟨1072995434534774713003, 490075938151532849835, 47989032294775484757, 443916730305409600⟩,
    ⟨1040645169179893781845, 548951996505187997013, 97498268208631671467, 457003423180739456⟩,
    ⟨1002949827072395313152, 605017286945167747755, 147791413083186005333, 466957962302663808⟩,
    ⟨959866686401331893589, 658145721329604629845, 198234025183936670379, 474050262662968192⟩,
    ⟨911391046264667417259, 708189374773670914731, 248255403071989482837, 478592597827701440⟩,
    ⟨857547279983976174933, 754989185396664434688, 297322329188927670955, 480923284803219712⟩,
    ⟨1008034442022434395477, 612544794339451884885, 49517810253705161045, 466880112757125184⟩,
    ⟨967808825610274542933, 668709608794266506581, 99850443590623173973, 474319862276230336⟩,
    ⟨922374055124214622891, 721396301417852676779, 150366397983455720789, 479205721785492672⟩,
    ⟨871736534802763595776, 770504892779827980971, 200484909658008881835, 481748180245911808⟩,
    ⟨927942627247612242603, 728136007031364627115, 50368747347770185045, 479676589538976064⟩,
    ⟨880420724441200301397, 780039954735283585024, 100963319572867038549, 482530379254991488⟩]
  neg := []

/-- `r25`, `w25` of so3/_lebedev_grids.npz: 3074 points, precision 95. -/
def lebedevRule95 : QuadratureRule where
  pos := [⟨1180591620717411303424, 0, 0, 30684709044972252⟩,
    ⟨834804340821298053120, 834804340821298053120, 0, 425382991460985024⟩,
    ⟨681614890024214003712, 681614890024214003712, 681614890024214003712, 423368180191208192⟩,
    ⟨1180171561693996624555, 22267239129685799253, 22267239129685799253, 116070201357228528⟩,
    ⟨1177868150054065668096, 56670962566278383616, 56670962566278383616, 189487683230384480⟩,
    ⟨1172538642426084633259, 97338858956119045461, 97338858956119045461, 244642211165152704⟩,
    ⟨1163455159659841115477, 141719205418774439253, 141719205418774439253, 287036959623767104⟩,
    ⟨1150135081620381543083, 188395685903688187904, 188395685903688187904, 320155086445086464⟩,
    ⟨1132253829476456584533, 236429524958351256235, 236429524958351256235, 346239428799917824⟩,
    ⟨1109594831927609589760, 285127939588269599403, 285127939588269599403, 366813655156156992⟩,
    ⟨1082018650290535312043, 333940275597008688469, 333940275597008688469, 382961261357708352⟩,
    ⟨1049442884947376100693, 382404371144925782016, 382404371144925782016, 395486279752082944⟩,
    ⟨1011828469645685435051, 430116102304153594539, 430116102304153594539, 405011481505042496⟩,
    ⟨969169904485748441088, 476710746232581379413, 476710746232581379413, 412041127869215296⟩,
    ⟨921488052871523379883, 521850717793514444117, 521850717793514444117, 417002545179631744⟩,
    ⟨868824785454083659093, 565216802248849260544, 565216802248849260544, 420274403799752640⟩,
    ⟨811239230269097749163, 606501230905826716331, 606501230905826716331, 422206046310594688⟩,
    ⟨748805826790842761216, 645401583772555728213, 645401583772555728213, 423130002759440064⟩,
    ⟨714831629683433799680, 714831629683433799680, 609777055419779121152, 423230712924583552⟩,
    ⟨744729791469458784256, 744729791469458784256, 533433829358315853141, 423005018949373184⟩,
    ⟨770969919334082849451, 770969919334082849451, 452777364575747844779, 422931740680563008⟩,
    ⟨793193410762812325888, 793193410762812325888, 368082872670105305088, 423165786258887424⟩,
    ⟨811028251281418638677, 811028251281418638677, 279755118192629582507, 423728519434196800⟩,
    ⟨824108094008418631680, 824108094008418631680, 188383315842424998571, 424475307151310464⟩,
    ⟨832109511689923111595, 832109511689923111595, 94784471399483740160, 425124379020099264⟩,
    ⟨1178744884626989449216, 66008119757113305088, 0, 171946923842967872⟩,
    ⟨1168840976687666167808, 166154585022462328832, 0, 265912937103742752⟩,
    ⟨1147127705912135221248, 279096043033443737600, 0, 326567632633056640⟩,
    ⟨1111928980381952802816, 396749943282812338176, 0, 367250117198393280⟩,
    ⟨1062681429166773862400, 514300257643555028992, 0, 394613541673361984⟩,
    ⟨999542852782455160832, 628260026071749394432, 0, 412260449295379648⟩,
    ⟨923206460921169510400, 735857598602863575040, 0, 422179989095144512⟩,
    ⟨1174828077935991466667, 111800492738039655765, 32805670621395649536, 226900418929424800⟩,
    ⟨1167530999004348295851, 159754151825440830805, 71739474814124747776, 271708228583150752⟩,
    ⟨1156254675435877826560, 209162995072277146283, 114553663988679939413, 307455401582920256⟩,
    ⟨1140596183210289146539, 259383849394955978069, 159865382204338754901, 335910832641574272⟩,
    ⟨1120284549549317952853, 309879747403367680683, 206721177189156906325, 358530433534443008⟩,
    ⟨1095141149210763624448, 360194905180998303744, 254405323244510011392, 376421583438500224⟩,
    ⟨1065054443002595393536, 409931236848755646464, 302344157218631759189, 390427128654252032⟩,
    ⟨1029963129574998693205, 458731886595646611456, 350053685660695893333, 401204106646184448⟩,
    ⟨989844400391243202560, 506270008736191231317, 397108695669738602496, 409282532745407424⟩,
    ⟨944705416786914710869, 552240911816455932587, 443123262442579375445, 415107338460455296⟩,
    ⟨894576968482166947840, 596356210927509968213, 487737523733414835541, 419068136080991360⟩,
    ⟨839508827637574871723, 638339059104768557056, 530607904999527369387, 421520317599707008⟩,
    ⟨779566761164715087189, 677919807156274096811, 571399137959202968917, 422799586498883392⟩,
    ⟨1159230579596728232619, 220228390556943162027, 38477191018784318464, 300282455145953920⟩,
    ⟨1145507482453673006421, 274037327734850540885, 80701459458638144853, 328996771656125312⟩,
    ⟨1127332956870970097664, 327396844657957634048, 125412460978694884693, 352471810070461056⟩,
    ⟨1104477742205703471104, 380056077236718171477, 171705765878124604075, 371398531703862976⟩,
    ⟨1076792297951959733589, 431746203710078003883, 218883844907379696981, 386441952781291520⟩,
    ⟨1044186326222723230379, 482198100038886757717, 266376581847099419307, 398178786654433216⟩,
    ⟨1006614472121252184064, 531148754052032544768, 313695521952721390251, 407100390726030528⟩,
    ⟨964066032835333357568, 578343281357107115349, 360405754879691057835, 413631228207538752⟩,
    ⟨916557327377178580309, 623535065476108058624, 406107452112212819968, 418148409001276928⟩,
    ⟨864125982624065945600, 666484935221666043221, 450422792701177828693, 420998442796096448⟩,
    ⟨806826860165721118037, 706959660963701129216, 492985831838377099264, 422510374584761152⟩,
    ⟨1130832910440505824597, 336518837161104348501, 42054438630863811925, 349295101501186752⟩,
    ⟨1110067365892072090283, 392501784470698251605, 86541130550265708544, 368291238166425024⟩,
    ⟨1084640016737321276757, 446954081933683731115, 132607155323705643008, 383780257373446400⟩,
    ⟨1054427192186431897600, 499731567973033765547, 179577925306020189525, 396106600908070208⟩,
    ⟨1019356880988567688533, 550661820883029628245, 226891346488157756075, 405633284949297280⟩,
    ⟨979396938917677552981, 599558554386556403712, 274057933307448287232, 412709664122540160⟩,
    ⟨934546178805000519680, 646229858466274601643, 320635282861688176640, 417665902725311040⟩,
    ⟨884827552899458017963, 690482838096199308629, 366210631785504948224, 420817139046935488⟩,
    ⟨830283000754176420523, 732125981838943622485, 410387938764246796971, 422470468572711040⟩,
    ⟨1088573365525783969792, 454786463487039204011, 44428317602447336789, 382482024263902400⟩,
    ⟨1060612040532169583275, 510608834649609374379, 90428382514116365653, 394965956757058112⟩,
    ⟨1027946305683790856192, 564144080253807351125, 137347822166192959488, 404839763130365824⟩,
    ⟨990521349263552096939, 615284648596358376107, 184631613660640695637, 412312219308744704⟩,
    ⟨948316876446711076181, 663902097679017181184, 231788009724226505387, 417622367784764096⟩,
    ⟨901339569603822196053, 709856471126627816789, 278365489193994007893, 421023664335670848⟩,
    ⟨849617076212745388032, 753002492649820028928, 323936173927870756181, 422779814354181952⟩,
    ⟨1032273729453348268715, 571044665487181600085, 45994699773695692800, 404532330023018496⟩,
    ⟨997276392195045905749, 624980714132064185003, 92927280394790847147, 412244739881663104⟩,
    ⟨957651540365237758635, 676039966528109761877, 140250011767998471509, 417848945156544192⟩,
    ⟨913390074112751605077, 724134615548501344256, 187467879875167996587, 421498532026831936⟩,
    ⟨864505412855615001941, 769165533995375476736, 234118233730556697259, 423384632991592384⟩,
    ⟨962370674244713534805, 682227619928705051307, 46954604336039841109, 418070656712875904⟩,
    ⟨920736571545833930752, 732899978473024454656, 94331131024851561131, 421978498375623808⟩,
    ⟨874642554420484582059, 780216187867212764501, 141632189473042758997, 424067716782932032⟩,
    ⟨879781459497840334165, 785832842874145570816, 47412039529558773077, 424523632323468992⟩]
  neg := []

/-- `r26`, `w26` of so3/_lebedev_grids.npz: 3470 points, precision 101. -/
def lebedevRule101 : QuadratureRule where
  pos := [⟨1180591620717411303424, 0, 0, 24088587550388548⟩,
    ⟨681614890024214003712, 681614890024214003712, 681614890024214003712, 375209690979784576⟩,
    ⟨1180241725370599735296, 20322950110574669483, 20322950110574669483, 97848792717755264⟩,
    ⟨1178294530492801482752, 52050813244907926187, 52050813244907926187, 160664729386418176⟩,
    ⟨1173762312877870765397, 89662165308884658176, 89662165308884658176, 208593356405703936⟩,
    ⟨1165998961423476523008, 130849143802200996523, 130849143802200996523, 245935316681898688⟩,
    ⟨1154566664961302593536, 174316366225749647360, 174316366225749647360, 275465027921677856⟩,
    ⟨1139164432616858277205, 219204208865700487168, 219204208865700487168, 299021371971431232⟩,
    ⟨1119585678441956551339, 264881561774151996757, 264881561774151996757, 317871009969285440⟩,
    ⟨1095691745452828611925, 310850586178229562027, 310850586178229562027, 332920927804620928⟩,
    ⟨1067394542870709709483, 356696975567492530176, 356696975567492530176, 344845333754519680⟩,
    ⟨1034644647799239344128, 402061579666941121877, 402061579666941121877, 354164474082634560⟩,
    ⟨997422812391875597653, 446623055959074603008, 446623055959074603008, 361295523440961600⟩,
    ⟨955733682192552886272, 490086575836774154240, 490086575836774154240, 366586586458672320⟩,
    ⟨909601043354921533440, 532175965652246577152, 532175965652246577152, 370340067374976448⟩,
    ⟨859064258601092142421, 572627791197004283904, 572627791197004283904, 372829021903644800⟩,
    ⟨804175825867344106837, 611186475635193981611, 611186475635193981611, 374308523500438848⟩,
    ⟨745000267878459867136, 647599867112859691691, 647599867112859691691, 375023006593406720⟩,
    ⟨712973120882653801131, 712973120882653801131, 614113371215658778624, 375097382163098816⟩,
    ⟨741406420603815657472, 741406420603815657472, 542613687519067400875, 374899170414023168⟩,
    ⟨766633244978061115392, 766633244978061115392, 467272415510460301312, 374797103574379840⟩,
    ⟨788357069149484930389, 788357069149484930389, 388307658889484981589, 374917696621357632⟩,
    ⟨806269531103053774848, 806269531103053774848, 306031797919575184725, 375301035000404800⟩,
    ⟨820062057881049628672, 820062057881049628672, 220891415306163497643, 375875377439594368⟩,
    ⟨829449617613012751701, 829449617613012751701, 133503702538236497920, 376461761287601728⟩,
    ⟨834206602003490821461, 834206602003490821461, 44668392132949843968, 376835033354556032⟩,
    ⟨1179035582379170463744, 60594309897665687552, 0, 145422868819070880⟩,
    ⟨1170604129341206855680, 153240162090357686272, 0, 227223909067383808⟩,
    ⟨1151963002631901577216, 258414038851331440640, 0, 281084918257030528⟩,
    ⟨1121535811681298448384, 368719402831658860544, 0, 317945207653335040⟩,
    ⟨1078698999981816053760, 479796876132383752192, 0, 343395542317267328⟩,
    ⟨1023445538952022491136, 588520011305790881792, 0, 360542601002622912⟩,
    ⟨956221403653252481024, 692414039504953638912, 0, 371168169354095040⟩,
    ⟨877838642654030102528, 789427572593897963520, 0, 376259536820944064⟩,
    ⟨1175711401878050646699, 102897281730167350613, 30189796532198219605, 193052648208142816⟩,
    ⟨1169485497160453870933, 147383065461704198827, 66170075220155233621, 232353407748732416⟩,
    ⟨1159821754861546897408, 193388309001820976469, 105882169412333201408, 264069343406348704⟩,
    ⟨1146351761349972011691, 240319601495034079915, 148056419297674832555, 289621164675115648⟩,
    ⟨1128821554340042358784, 287686445160460427264, 191820183078924809557, 310206562814019648⟩,
    ⟨1107058062047410307072, 335076400153500213248, 236522363052984239445, 326747013693072576⟩,
    ⟨1080947428773871058944, 382132420316104624811, 281645245794557967019, 339947464511714112⟩,
    ⟨1050420449355517187413, 428536996890974519296, 326756020265246659925, 350357082158325376⟩,
    ⟨1015442379962142954837, 474001406321530022571, 371478148334723402411, 358415890963964800⟩,
    ⟨976005533347314849109, 518258279502590874965, 415473380026448715776, 364488565327663872⟩,
    ⟨932123729516244505941, 561056232709636074155, 458429745455682420736, 368888701317746944⟩,
    ⟨883828089998947909632, 602155717189916267861, 500052971686473651541, 371896312232125056⟩,
    ⟨831163966540031295488, 641325512373956586155, 540059832622171501909, 373770395692686464⟩,
    ⟨774189064733183016960, 678339455826081764693, 578172508534692107605, 374757611406916416⟩,
    ⟨1162371737821443162112, 203531803949442790741, 35543252569338969259, 257627394174400480⟩,
    ⟨1150572601323249019563, 253774456449714334379, 74684598452879910912, 283309869078729920⟩,
    ⟨1134894382498311389184, 303796456748082686635, 116271356529675145216, 304568569838091200⟩,
    ⟨1115119958071686463488, 353370404414680186880, 159478560634868809728, 321960799926369344⟩,
    ⟨1091102170057572898133, 402255663866763736405, 203673784005032080725, 336035058082020800⟩,
    ⟨1062746252010995471701, 450213299358043660288, 248344445933244598955, 347269974749485952⟩,
    ⟨1029997489363382747136, 497011139657527648256, 293055752152415238827, 356072275808928896⟩,
    ⟨992832321137260527616, 542425145903670635179, 337424833266233196544, 362789869761376832⟩,
    ⟨951251727772565580459, 586239317169692371627, 381103907513798213632, 367726916997326016⟩,
    ⟨905276209671251225259, 628244942870437500245, 423768628934631691605, 371157188614762304⟩,
    ⟨854941993669399298048, 668239465410408781141, 465109427163939454976, 373334918660540736⟩,
    ⟨800298379986399117312, 706024994110287047339, 504824509697061298176, 374503102157071104⟩,
    ⟨1137903913947468595200, 312173907865342148608, 38970614304588060672, 301591031051465088⟩,
    ⟨1119934551537028169728, 364816239257259365717, 80326127479853566635, 318960918568463936⟩,
    ⟨1097871600244967735296, 416261385183078918827, 123292268570183030784, 333362878341744064⟩,
    ⟨1071591040607012656469, 466383039545215563093, 167260506466737756843, 345074943387333120⟩,
    ⟨1041014680688232409771, 515030221382927952555, 211728317808444716373, 354393423761190272⟩,
    ⟨1006100021639168486059, 562039744448876240896, 256262847532900569088, 361602328984762944⟩,
    ⟨966832594992737817941, 607243326152209530880, 300477704682683528533, 366966632093312000⟩,
    ⟨923220077287000162304, 650471630979124800171, 344017326734725466795, 370734474541879360⟩,
    ⟨875287736464484914517, 691556455899087612587, 386545756162625148245, 373142277549555712⟩,
    ⟨823075007549746539179, 730331675698933170176, 427737945856966270976, 374420250415320704⟩,
    ⟨1101257689302580680021, 423465767321585702229, 41289472833222115328, 332028219816754560⟩,
    ⟨1076918902660768677888, 476400194714970557099, 84173074528782826837, 343804513121912960⟩,
    ⟨1048417756574996649301, 527461809698787475456, 128065693750103053653, 353379554620935808⟩,
    ⟨1015691740172516283733, 576558251062027872939, 172474482129343812949, 360918869672021248⟩,
    ⟨978709521171750229333, 623577673755923038208, 216968045732727481685, 366611397622238208⟩,
    ⟨937464511201396009643, 668396985678241333248, 261155767086106140672, 370654473902919936⟩,
    ⟨891969704618308053675, 710887353502633235797, 304673253800386117632, 373249118237740672⟩,
    ⟨842253585620677973333, 750917754052896849920, 347171426049766443691, 374600063774994240⟩,
    ⟨1052139567965202366464, 533817613558507375275, 42867935393035901611, 352926098871374848⟩,
    ⟨1021499792652930667861, 585498553230661757611, 86753632102556306091, 360618308160423360⟩,
    ⟨986732629112869038763, 634782368438854746112, 131174076216786393771, 366545949702910336⟩,
    ⟨947817474731479913813, 681592669914228763307, 175698724585574573397, 370825696469255936⟩,
    ⟨904754889531041699157, 725841098094763933696, 219931500914316144640, 373600652892874432⟩,
    ⟨857562135321480402261, 767432658188064200021, 263497389204198417749, 375032909428977856⟩,
    ⟨990779340497368438101, 640488834146666162859, 43896773061445622784, 366585168981342912⟩,
    ⟨954109564947639380651, 689685162288505192448, 88350947378444292779, 371061613137725248⟩,
    ⟨913426309129288744960, 736055451805195119275, 132933534393918950059, 374031833892602816⟩,
    ⟨868736899466108005035, 779536920405821887829, 177242670196498310485, 375593638462647232⟩,
    ⟨917810816472870955691, 741243181711811564885, 44479496841987540651, 374325894811729280⟩,
    ⟨875548830413171021141, 786936533327480444245, 89116289110462554112, 376071315166146752⟩]
  neg := []

/-- `r27`, `w27` of so3/_lebedev_grids.npz: 3890 points, precision 107. -/
def lebedevRule107 : QuadratureRule where
  pos := [⟨1180591620717411303424, 0, 0, 21337956900720856⟩,
    ⟨834804340821298053120, 834804340821298053120, 0, 336233530404266752⟩,
    ⟨681614890024214003712, 681614890024214003712, 681614890024214003712, 334823556359134784⟩,
    ⟨1180293914533282228907, 18746335960195396949, 18746335960195396949, 82796652591077712⟩,
    ⟨1178635136234803385685, 48040558598596625749, 48040558598596625749, 137278960131297072⟩,
    ⟨1174749398767773089792, 82947046369716402859, 82947046369716402859, 179299824037928128⟩,
    ⟨1168061062894022404779, 121305251862915380565, 121305251862915380565, 212364361274395328⟩,
    ⟨1158173060592239804416, 161913150526089276075, 161913150526089276075, 238785680359501184⟩,
    ⟨1144806861709898044757, 203977724629551613269, 203977724629551613269, 260095326010845312⟩,
    ⟨1127766732094355341312, 246919797595679405397, 246919797595679405397, 277355708761473984⟩,
    ⟨1106917027834077566293, 290285435734499041280, 290285435734499041280, 291332476115539584⟩,
    ⟨1082167122557080480427, 333699635724024108373, 333699635724024108373, 302596574534531776⟩,
    ⟨1053461010336063171243, 376839803238647458475, 376839803238647458475, 311588103546111808⟩,
    ⟨1020769865227288947371, 419419513823585970859, 419419513823585970859, 318657909119097472⟩,
    ⟨984086531648590763349, 461177987948260196352, 461177987948260196352, 324095589087664128⟩,
    ⟨943421330759796239019, 501872876122818155861, 501872876122818155861, 328148887999034368⟩,
    ⟨898798831946446645931, 541274992309762654208, 541274992309762654208, 331037428445933632⟩,
    ⟨850255430904256899755, 579164172375148036096, 579164172375148036096, 332962533023371904⟩,
    ⟨797837744030531507541, 615325730450318557184, 615325730450318557184, 334114128224198656⟩,
    ⟨741602007727315331755, 649547164200945068715, 649547164200945068715, 334675169362610688⟩,
    ⟨711310923265712843435, 711310923265712843435, 617956402826220732416, 334731057188643264⟩,
    ⟨738409610844953160363, 738409610844953160363, 550725946484976959488, 334558328133092032⟩,
    ⟨762674840508743958528, 762674840508743958528, 480052861899695330645, 334444881523592960⟩,
    ⟨783858663311345374549, 783858663311345374549, 406112997590160758101, 334493273801759808⟩,
    ⟨801702996049899989675, 801702996049899989675, 329152224901172630869, 334748805961047808⟩,
    ⟨815946841592757682176, 815946841592757682176, 249515687478303746731, 335180789831552768⟩,
    ⟨826341640997006082048, 826341640997006082048, 167676950165829842261, 335678581110353472⟩,
    ⟨832675726666792741547, 832675726666792741547, 84254633985445545301, 336079435842274688⟩,
    ⟨1179268974473064415232, 55868244588594501632, 0, 124103012802236336⟩,
    ⟨1172030536154292551680, 141918981218318798848, 0, 195726960111095232⟩,
    ⟨1155904732996243423232, 240168322526196539392, 0, 243750626277641536⟩,
    ⟨1129417108646327812096, 343822002793789997056, 0, 277196153163975520⟩,
    ⟨1091916704923019116544, 448903647142925647872, 0, 300788220205499584⟩,
    ⟨1043284998226130796544, 552587538209527693312, 0, 317210410003538176⟩,
    ⟨983791651218352275456, 652648881023503990784, 0, 328046950774183872⟩,
    ⟨914016358001922801664, 747242043927578279936, 0, 334225088405033024⟩,
    ⟨1176423066734041257301, 95114560507766128640, 27902747958794426368, 165644482274074336⟩,
    ⟨1171067552133291649707, 136532596623090457259, 61287954020841261397, 200287855559759264⟩,
    ⟨1162720836590598378837, 179505813521081073664, 98257284607086456832, 228537419828266816⟩,
    ⟨1151045843284475019264, 223484423584955280043, 137639943259927552000, 251538563809923328⟩,
    ⟨1135805314552273212757, 268017254126505981269, 178632622534249502037, 270282433918479936⟩,
    ⟨1116833217369061938517, 312727880737088372736, 220638645977813996885, 285541465731703648⟩,
    ⟨1094016036938096640000, 357292980088239551829, 263186648996658092715, 297910548085540608⟩,
    ⟨1067280098478758789120, 401427159022959848107, 305885603286735749120, 307853901303739200⟩,
    ⟨1036582660166765292203, 444872654074481631232, 348398170498185994240, 315742267329712704⟩,
    ⟨1001905431003418148864, 487392245402520742571, 390423976409630728192, 321880319907070016⟩,
    ⟨963249702018077332821, 528764217063091565909, 431688532652773963093, 326526576668106048⟩,
    ⟨920632609591316414464, 568778587622383433045, 471935473690560266240, 329907909686242624⟩,
    ⟨874084274201572884480, 607234090636753666048, 510920752827900417365, 332230170170178368⟩,
    ⟨823645735572851397973, 643935543662874804224, 548407962003122711211, 333685902153210688⟩,
    ⟨769367776354146211157, 678691346281756562773, 584164237264056945323, 334459663196537984⟩,
    ⟨1164923387035266667861, 188847286693099724800, 32966339728585398443, 222741697521461536⟩,
    ⟨1154701888465185144832, 235893706257576408405, 69385034634014002176, 245783577781573184⟩,
    ⟨1141078248669861183488, 282896782272011741867, 108196191711300161536, 265060371958152544⟩,
    ⟨1123847913599421579264, 329648138262967757483, 148642345736840452779, 281024545648013056⟩,
    ⟨1102868031550377088341, 375930017582981835435, 190145475287789741397, 294132365208033536⟩,
    ⟨1078042282190493013333, 421528014465097069909, 232240275875633699499, 304785358615493440⟩,
    ⟨1049310148010834799275, 466235076603992664747, 274535319282807480320, 313324943832866944⟩,
    ⟨1016639155243296631467, 509852339034687788373, 316689114614345430357, 320041531505687296⟩,
    ⟨980019102581322339669, 552188793256876780203, 358394573180702403243, 325186181107720256⟩,
    ⟨939457657855865973419, 593060512646481526784, 399368391768336195584, 328981291879291456⟩,
    ⟨894976956693524141397, 632289671139346235392, 439343366475765959339, 331629494435368576⟩,
    ⟨846611029554471179605, 669703400524951977984, 478062438254877078869, 333320704196032320⟩,
    ⟨794404053991808925696, 705132453454258492757, 515273710754896909653, 334237432556501824⟩,
    ⟨1143686955861149406549, 290624707139583822507, 36249158628200864768, 262289675691132608⟩,
    ⟨1128028379457666640555, 340219890575478576469, 74826306223706532523, 278169313473349728⟩,
    ⟨1108754492585786021205, 388882582996862743893, 115023418140343793664, 291515029352106368⟩,
    ⟨1085743195977292955648, 436500591178462696789, 156286663532210148693, 302553325339658368⟩,
    ⟨1058913184329372674731, 482940248829188467371, 198161951500265548459, 311529408071324032⟩,
    ⟨1028215157401578351275, 528057305198172001621, 240261622871102772565, 318678413412414848⟩,
    ⟨993625166120965745323, 571703071637140646571, 282243161192447148032, 324217998520893568⟩,
    ⟨955139498133204194645, 613727913042113975637, 323794939378283350699, 328349172658031360⟩,
    ⟨912770688108393376427, 653983180918706831360, 364626171460228732245, 331259989726000896⟩,
    ⟨866544409381649962325, 692322155992908939264, 404459384609754994005, 333129884279848448⟩,
    ⟨816497162339503860395, 728600284873636418901, 443024360144854589440, 334133697101718400⟩,
    ⟨1111693972342083704149, 395538076933844615168, 38506057470459914240, 290188943028497344⟩,
    ⟨1090372003136480067584, 445764623087878993237, 78608972055517211307, 301224930596989184⟩,
    ⟨1065349106348433648299, 494450097062350219947, 119778787879116070229, 310385250505621696⟩,
    ⟨1036558224576281799339, 541514460196348305408, 161572619492561713835, 317803511499328320⟩,
    ⟨1003960422078907656875, 586859782767322365952, 203606584317886760277, 323632686855500608⟩,
    ⟨967539330511543380651, 630377501993165750272, 245537011064105678165, 328031038122800384⟩,
    ⟨927296691077738162859, 671953294258654139733, 287047368842469023744, 331157197219189632⟩,
    ⟨883248773542604614315, 711470280136707189419, 327838709468305768448, 333169547085302400⟩,
    ⟨835423553961760134485, 748811031580696881835, 367622223725822451712, 334227483171383680⟩,
    ⟨1068579024127340358315, 500328958073543491584, 40079643414923280384, 309843307705771840⟩,
    ⟨1041598554495754158080, 549791917578951756459, 81227295568537511936, 317347060908765888⟩,
    ⟨1010922287733766886741, 597244426628801019904, 123011373182018111488, 323356105588196416⟩,
    ⟨976521332076634685440, 642620181937245263189, 165051400098214450517, 327961834335403456⟩,
    ⟨938386393764190344533, 685840950176834857643, 207001792182913608363, 331275385539165312⟩,
    ⟨896523958038298438315, 726821318982155184811, 248540012562459628885, 333420496304797376⟩,
    ⟨850953110346594566144, 765472154546546207403, 289357494310219898880, 334530696328360128⟩,
    ⟨1014427130271033535147, 602528696645781749760, 41150236895734798336, 323265493489518528⟩,
    ⟨981966530119241782613, 650120967600026790571, 82952010949375175339, 328011468409421760⟩,
    ⟨945884334399488737280, 695318058180220370944, 125028791941248335872, 331492765366711424⟩,
    ⟨906178098560423100416, 738063567631216672768, 167032927092416936619, 333782287788816320⟩,
    ⟨862858561865861955584, 778294981669818368000, 208635084850361802752, 334974259741351296⟩,
    ⟨949667669283293757440, 700127903732291993600, 41818790532810313045, 331655801196011392⟩,
    ⟨912046638214553239552, 744931147465248757077, 83935035389303498069, 334099260118960448⟩,
    ⟨870933041176404650667, 787017321222552502272, 125999796789759576747, 335417634381284032⟩,
    ⟨875015066046656659456, 791435007667688772949, 42140689808954717867, 335695939010123072⟩]
  neg := []

/-- `r28`, `w28` of so3/_lebedev_grids.npz: 4334 points, precision 113. -/
def lebedevRule113 : QuadratureRule where
  pos := [⟨1180591620717411303424, 0, 0, 17107516622550586⟩,
    ⟨681614890024214003712, 681614890024214003712, 681614890024214003712, 300623173878227200⟩,
    ⟨1180338939378280256853, 17270829388314107904, 17270829388314107904, 71053115237246072⟩,
    ⟨1178912605421072089088, 44506424746678909611, 44506424746678909611, 118329114175431824⟩,
    ⟨1175554893333125223765, 77030083956557305173, 77030083956557305173, 155274117174951456⟩,
    ⟨1169750768819744844459, 112870974465935657643, 112870974465935657643, 184669764257763584⟩,
    ⟨1161138805555704408747, 150919265073807212544, 150919265073807212544, 208388451385726784⟩,
    ⟨1149461264146721166677, 190440774434449317888, 190440774434449317888, 227705085801234208⟩,
    ⟨1134533461479374323712, 230900844186193018880, 230900844186193018880, 243515738194877440⟩,
    ⟨1116224115555911619925, 271882602201379299328, 271882602201379299328, 256471186037340320⟩,
    ⟨1094442187202885735765, 313043825828531290112, 313043825828531290112, 267058819401628064⟩,
    ⟨1069127743478773361323, 354092108802321569109, 354092108802321569109, 275654649211556992⟩,
    ⟨1040245395853052728661, 394769610858466164736, 394769610858466164736, 282557518091632544⟩,
    ⟨1007779435400330324651, 434843181211546282667, 434843181211546282667, 288012315031913984⟩,
    ⟨971730122946785651371, 474097639240056190293, 474097639240056190293, 292226161223576512⟩,
    ⟨932110803861184391851, 512330959553207506261, 512330959553207506261, 295379957328745216⟩,
    ⟨888945663403577595221, 549350608639026320725, 549350608639026320725, 297636758534880832⟩,
    ⟨842268054060014632960, 584970554822257814187, 584970554822257814187, 299147867931686656⟩,
    ⟨792119434895619981312, 619008633125907114667, 619008633125907114667, 300057147610235968⟩,
    ⟨738549083525129480875, 651284049448608617813, 651284049448608617813, 300503746138931008⟩,
    ⟨709815591860220002304, 709815591860220002304, 621385730454453878784, 300546395665277184⟩,
    ⟨735694459896722893483, 735694459896722893483, 557946142797584296619, 300396366601576704⟩,
    ⟨759051526274455612075, 759051526274455612075, 491404248891890313899, 300281306072566720⟩,
    ⟨779677377881367412736, 779677377881367412736, 421903955596809786709, 300284240379913344⟩,
    ⟨797354045353394754901, 797354045353394754901, 349642142233051043157, 300449431599987584⟩,
    ⟨811859561415808690859, 811859561415808690859, 274890305364931974485, 300768868034989440⟩,
    ⟨822978029829387365035, 822978029829387365035, 198017422830528015019, 301176050320068224⟩,
    ⟨830516325882811820715, 830516325882811820715, 119506651665898270720, 301557565393416384⟩,
    ⟨834326131049610936320, 834326131049610936320, 39954837050587491669, 301789407245184448⟩,
    ⟨1179457478800772038656, 51736163455462844416, 0, 106741298840954800⟩,
    ⟨1173197154651823013888, 131928053214736715776, 0, 169819407231185760⟩,
    ⟨1159151060682825924608, 223976323360402522112, 0, 212804365599129024⟩,
    ⟨1135945715571494682624, 321595874014156046336, 0, 243208047248681248⟩,
    ⟨1102923742739074252800, 421136311199350587392, 0, 265043084362590080⟩,
    ⟨1059891693756988817408, 520025165172903297024, 0, 280633693817402880⟩,
    ⟨1006992346909857251328, 616249128334589755392, 0, 291384055824592704⟩,
    ⟨944634420743102038016, 708140089287076020224, 0, 298147891549722176⟩,
    ⟨873451634607110488064, 794278803009579745280, 0, 301417013140536576⟩,
    ⟨1177002538556475310080, 88267687430598119424, 25892363650911709184, 143191565050886208⟩,
    ⟨1172361942310478566741, 126953914306071491925, 56980301618478423723, 173886138200938752⟩,
    ⟨1165101923513765090645, 167212490351693223253, 91509921883223370411, 199147696258818400⟩,
    ⟨1154913788713260078421, 208530886680880231765, 128396202623882900821, 219908614027134720⟩,
    ⟨1141576321017675688619, 250491339369885616811, 166895677297506683563, 236995616699128448⟩,
    ⟨1124931291139340326229, 292747696703666361685, 206458110033098478933, 251060850972033312⟩,
    ⟨1104867241166130238805, 335004731692236587008, 246651138351155332437, 262610162990782496⟩,
    ⟨1081308396452786438144, 377003627018921902080, 287118428324350608725, 272039538738078720⟩,
    ⟨1054206832227587604480, 418512107932735184896, 327554797410353405952, 279664952360934240⟩,
    ⟨1023536759191164015957, 459317662305774256128, 367690579953541879125, 285744739600254304⟩,
    ⟨989290227118859496107, 499222754907733833045, 407281306246201431381, 290496033366389248⟩,
    ⟨951473812884378064213, 538041315403025435307, 446100550574430117888, 294106849129712768⟩,
    ⟨910106035490530639872, 575596022131816863061, 483934704663658157397, 296745032452148800⟩,
    ⟨865215369855174918144, 611716055055341398699, 520578914922672881664, 298564902922355328⟩,
    ⟨816838841749421774165, 646235086054720329045, 555833693715553222656, 299712115888686720⟩,
    ⟨765021299525533182635, 678989337737000867157, 589501879063924097024, 300327001038890560⟩,
    ⟨1167018101307528347648, 175850980964597447339, 30688086002948089173, 193923452819003552⟩,
    ⟨1158102966657403999573, 220021718209770198357, 64687997677346126165, 214660677101647296⟩,
    ⟨1146186512988918202368, 264287580266256666624, 101020429950953007104, 232171092737874112⟩,
    ⟨1131076648627999637504, 308455932463717373269, 138986069678062899883, 246823681704138560⟩,
    ⟨1112635947459919850155, 352327852166796356267, 178053104201141510144, 259000599282651712⟩,
    ⟨1090768479198251761664, 395709115628656096597, 217795765578865034581, 269041580383292544⟩,
    ⟨1065410426649233861291, 438413350300792206677, 257858356415486993749, 277236345987748448⟩,
    ⟨1036523271967886420651, 480262439866268183211, 297932996545951855957, 283830725047154080⟩,
    ⟨1004088721407034190507, 521085987032144480939, 337745182896939332949, 289035676321235584⟩,
    ⟨968104827362965940907, 560720477038360059904, 377043982546545718613, 293035880556482368⟩,
    ⟨928582967541013686955, 599008352806392741888, 415595043965951276373, 295997033633385280⟩,
    ⟨885545486286082714283, 635797045007013167104, 453175334927729016832, 298071754671919424⟩,
    ⟨839023919988886558037, 670937933653285939883, 489568918314577507669, 299404219961089856⟩,
    ⟨789057838852202556075, 704285192211361546240, 524563313515023747755, 300133613015991360⟩,
    ⟨1148464008444185209515, 271444895775213856085, 33832894851931286699, 229603466943564608⟩,
    ⟨1134732479623809575595, 318258340161582284800, 69931420066799838891, 244130097825971936⟩,
    ⟨1117791197347981279232, 364351673286782055765, 107644192656420128768, 256476532783313632⟩,
    ⟨1097521408549449897301, 409623956530394761899, 146463466161977593173, 266828580759043776⟩,
    ⟨1073840802390598391125, 453955608076865609728, 185975299233105148587, 275391295728409600⟩,
    ⟨1046695836189529778859, 497217970924900570453, 225828897178792920405, 282362060328700576⟩,
    ⟨1016055909916882938539, 539278648975444716203, 265716957664275155627, 287922864886856896⟩,
    ⟨981908886065672749056, 580004512830019633152, 305362537764941523627, 292240167550058240⟩,
    ⟨944257586139333547349, 619263372258059572565, 344509886223979088555, 295467519150561472⟩,
    ⟨903117022897464705024, 656924834736705295701, 382917718794960855040, 297748949344350592⟩,
    ⟨858512239150131893589, 692860616201431089152, 420353989697450210645, 299222276795243008⟩,
    ⟨810476728584584101888, 726944432737749833045, 456591545084428323499, 300021967645753344⟩,
    ⟨1120361872865989787648, 370524088920695652352, 36024273287107677696, 255185970946795296⟩,
    ⟨1101573009941254187691, 418224094296892080128, 73634812600249516715, 265488906981679584⟩,
    ⟨1079478353123337524565, 464651530483922234027, 112347742590760210432, 274179276134215648⟩,
    ⟨1054008532573825804971, 509736331049102071125, 151761197209084162048, 281366324500792064⟩,
    ⟨1025119558761547524779, 553392150499612521813, 191529613684433552725, 287176158011935136⟩,
    ⟨992787980703382689109, 595522789687408306859, 231346509033507307520, 291738619112801856⟩,
    ⟨957007001832525540011, 636026508223688933376, 270932563912989731499, 295182349233874112⟩,
    ⟨917783347751520010240, 674798886735640679765, 310027037463696930133, 297633752138248640⟩,
    ⟨875134745212626949461, 711734675690976154965, 348381262482435432448, 299217733359226176⟩,
    ⟨829087952750570045440, 746728900352270396075, 385753406842663638357, 300059132448022336⟩,
    ⟨1082303454393071446699, 470110014177277837312, 37581672225013551787, 273588056211043424⟩,
    ⟨1058417894725539763541, 517428654498073048405, 76260884713160961365, 280809706568126816⟩,
    ⟨1031210439774640805205, 563051658460024954880, 115647886765696485376, 286752063731819520⟩,
    ⟨1000646397034885622443, 606921363313962592939, 155402129208023251627, 291488384691948352⟩,
    ⟨966709090350929007957, 648968596992798414165, 195217493217801076736, 295107478684616768⟩,
    ⟨929396557064849926827, 689116913980006061397, 234811612768279156053, 297706975468227776⟩,
    ⟨888718783475507412992, 727285707940400698709, 273917866944835118421, 299390439400324352⟩,
    ⟨844695428517369178795, 763392424600472065365, 312279064320096015701, 300266565970613760⟩,
    ⟨1034272035333673167531, 567963167712657080320, 38675211139815638357, 286571294902819008⟩,
    ⟨1005400598848502398976, 613898793214615704917, 78067166163985280341, 291400475948561984⟩,
    ⟨973251970269989055147, 657792322042312043179, 117840732923432044544, 295155101645601600⟩,
    ⟨937816105073848778752, 699593713567473423701, 157690088176625203883, 297891407128774592⟩,
    ⟨899095561816585426261, 739246158506248110080, 197329325655458006357, 299681289668662336⟩,
    ⟨857103085005430925995, 776688929042828339883, 236485061017903239168, 300608841193720256⟩,
    ⟨976547842039243101525, 662267581347570712576, 39402256441735935659, 295216776178061504⟩,
    ⟨942922564543716655104, 705989026680604295168, 79202944320507779755, 298073132390464832⟩,
    ⟨906113167404950028288, 747376324802324660224, 119097153150287683584, 299982568812321728⟩,
    ⟨866126607114332154539, 786387474028703558315, 158795516459169849344, 300994677160384192⟩,
    ⟨909654264376365296299, 751491944347564015616, 39818987817063706283, 300173625506780352⟩,
    ⟨871611065128285361493, 792294364068516943189, 79751907308629667840, 301300455413567360⟩]
  neg := []

/-- `r29`, `w29` of so3/_lebedev_grids.npz: 4802 points, precision 119. -/
def lebedevRule119 : QuadratureRule where
  pos := [⟨1180591620717411303424, 0, 0, 114370071563321120⟩,
    ⟨834804340821298053120, 834804340821298053120, 0, 272468491674419008⟩,
    ⟨681614890024214003712, 681614890024214003712, 681614890024214003712, 271218594264369664⟩,
    ⟨1179947358040447341909, 27575416239219999744, 27575416239219999744, 87201636818736400⟩,
    ⟨1178352452860621378901, 51391009649164759723, 51391009649164759723, 97492992749168448⟩,
    ⟨1175686307170931572736, 76020661793166315520, 76020661793166315520, 114588751164392544⟩,
    ⟨1170981331287808606208, 106299804053430539605, 106299804053430539605, 153759526278323200⟩,
    ⟨1163561457758168438101, 141282180277361913856, 141282180277361913856, 182042151913662336⟩,
    ⟨1153296219062310688085, 178471854930606295723, 178471854930606295723, 201227092241745504⟩,
    ⟨1140101515917807561387, 216754594311263982933, 216754594311263982933, 215738348415238080⟩,
    ⟨1123888786091126729387, 255607679273117294592, 255607679273117294592, 227424543954718816⟩,
    ⟨1104581382067979223040, 294700309888670569813, 294700309888670569813, 237064006305580320⟩,
    ⟨1082119438961659215872, 333776942530088419328, 333776942530088419328, 245047844943638944⟩,
    ⟨1056460767765230671189, 372617244019290690901, 372617244019290690901, 251620275881589952⟩,
    ⟨1027580318499718059349, 411020233042232371883, 411020233042232371883, 256963124869540480⟩,
    ⟨995468464221287590571, 448797900869130119851, 448797900869130119851, 261227413899509312⟩,
    ⟨960128617284244318891, 485772381460704854016, 485772381460704854016, 264546913190668320⟩,
    ⟨921574788404989231104, 521774129429805722283, 521774129429805722283, 267045080539244864⟩,
    ⟨879829492138854176085, 556640206808154477909, 556640206808154477909, 268839172807940544⟩,
    ⟨834922203079499557547, 590212457388455553707, 590212457388455553707, 270042833580882784⟩,
    ⟨786888480418010999467, 622335558317856980992, 622335558317856980992, 270767603729422752⟩,
    ⟨735769885447929484629, 652854980288924800341, 652854980288924800341, 271123492872787328⟩,
    ⟨708456042817907796651, 708456042817907796651, 624481101153386059093, 271157555295144704⟩,
    ⟨733213768474653037909, 733213768474653037909, 564439291993886517931, 271038505796153152⟩,
    ⟨755716280067255872171, 755716280067255872171, 501579886948013370027, 270947893935954816⟩,
    ⟨775783757945310784171, 775783757945310784171, 436022587401922161323, 270952817788106656⟩,
    ⟨793228981646882668544, 793228981646882668544, 367929531648470756011, 271091266364847488⟩,
    ⟨807860616671457356459, 807860616671457356459, 297521466402996442453, 271362546898556096⟩,
    ⟨819490375052181897216, 819490375052181897216, 225094702962625156437, 271722581481612704⟩,
    ⟨827944800133910822912, 827944800133910822912, 151034402606164563285, 272089818048983776⟩,
    ⟨833081104001509010091, 833081104001509010091, 75817697270610508459, 272365792073084768⟩,
    ⟨1179344307234714353664, 54254768465414213632, 0, 109939934767388352⟩,
    ⟨1174074086216930263040, 123881455359727583232, 0, 141661477250580016⟩,
    ⟨1161875657434319192064, 209383694612862607360, 0, 188663161693951648⟩,
    ⟨1141279534936612077568, 302121826492285255680, 0, 215133752409073440⟩,
    ⟨1112031971554623094784, 396461182398102913024, 0, 234770040540378560⟩,
    ⟨1073813008131276603392, 490634485616556376064, 0, 249414159080517888⟩,
    ⟨1026620641972827750400, 582963663004361703424, 0, 259918447663197440⟩,
    ⟨970716535363543793664, 671941949040214310912, 0, 267005268004078080⟩,
    ⟨906562176019938476032, 756268203693741211648, 0, 271117960745595328⟩,
    ⟨1177121839803395233109, 86716035284730441728, 25711444738314307925, 118768342309547680⟩,
    ⟨1173305362684391904597, 119223205817252072789, 54193431325842169856, 144938481273855232⟩,
    ⟨1167054662696618273451, 156344522847843045376, 85652666985487732053, 173294826963653216⟩,
    ⟨1158108119433683085995, 195301979098868891648, 120163619993769506133, 194110384658483072⟩,
    ⟨1146326449746366169088, 235028305950746285397, 156505402213400573269, 209869627442680928⟩,
    ⟨1131594666639997195605, 275092716650101738155, 193943503593558003712, 222520938604463744⟩,
    ⟨1113818139310727572139, 315227479611446749867, 232028798963334564523, 232962513777739200⟩,
    ⟨1092924197772764599637, 355210902485828976640, 270441283065522223787, 241639688573385888⟩,
    ⟨1068860275718239715328, 394845986452964477611, 308918974622275357355, 248821504848321728⟩,
    ⟨1041592240153792779605, 433951210042747762005, 347229790573911943851, 254702767969368416⟩,
    ⟨1011102628677360855723, 472354812236909603499, 385160980041500125867, 259441834469686528⟩,
    ⟨977388363055962161152, 509892367756902503765, 422514302685968678912, 263176611850251744⟩,
    ⟨940458219854046855168, 546406024912985959083, 459102785393326331221, 266032757936234880⟩,
    ⟨900330490392163145045, 581743985962597911211, 494747933572965799253, 268128543867294304⟩,
    ⟨857031110220590678016, 615759652988101612885, 529277149302894575616, 269577954472843008⟩,
    ⟨810592406089437500757, 648310359683830530048, 562521291708076452523, 270492627300518912⟩,
    ⟨761052573875551731712, 679255769067354346837, 594312337827744344747, 270982836738470304⟩,
    ⟨1168805001765620198059, 163904646320793384277, 28752559369354336939, 169793244291322400⟩,
    ⟨1160933585690677772288, 205858214392898286933, 60433269732137373355, 189808204121337248⟩,
    ⟨1150387951699470450688, 247893195271408388779, 94620818169112264704, 205598124509144544⟩,
    ⟨1137015651766566819157, 289775338593959961941, 130469290213325655381, 218635942500515456⟩,
    ⟨1120685178018311176192, 331417953335111587157, 167402051616448245760, 229581227551172736⟩,
    ⟨1101299946099925073920, 372694153422119250603, 205022124741297131520, 238774117681642976⟩,
    ⟨1078792526422292310699, 413453922486717281621, 243020809446268043264, 246444059727058112⟩,
    ⟨1053117787880551503189, 453546094277997084672, 281132424531415360853, 252773491486916800⟩,
    ⟨1024249048461649859925, 492822903930414104576, 319117606839802366635, 257916875704875040⟩,
    ⟨992175472768756760576, 531139488681684325717, 356756569255867992747, 262009780423914176⟩,
    ⟨956899510241209690795, 568354069981928819371, 393844580187761147904, 265175413261091200⟩,
    ⟨918434351228010048171, 604328750413753455957, 430187957544024757589, 267529471464450144⟩,
    ⟨876801709778128748544, 638929981727657940309, 465600488710878385493, 269183502202617952⟩,
    ⟨832030155561551697237, 672028345391891431424, 499900288191776055296, 270247105808498944⟩,
    ⟨784154128136556533077, 703497688425876526421, 532907009349670051840, 270829216567706272⟩,
    ⟨1152384478065425929557, 254567463022002143232, 31654326601294861995, 203349172464039040⟩,
    ⟨1140222748200092762112, 298971257625640435712, 65611329120319398229, 216076296369833952⟩,
    ⟨1125226933415005782016, 342674346633191189163, 101169241299624602965, 227128750568154496⟩,
    ⟨1107267157549567584939, 385696900425577944405, 137818423015092182357, 236598572515457024⟩,
    ⟨1086254909953558861141, 427969140898752768683, 175183503642133132629, 244597014090792288⟩,
    ⟨1062131852516120002560, 469384213499200787797, 212957655172515093163, 251259510152239712⟩,
    ⟨1034861035329218090325, 509826224942969610240, 250871347160060050091, 256721267630499168⟩,
    ⟨1004422736096989577216, 549176578173432588971, 288680841250888944299, 261106943516000928⟩,
    ⟨970811896580379612501, 587315129328425582592, 326162191598145148245, 264531062820215200⟩,
    ⟨934035606523288261973, 624121835728353640448, 363106037986022812331, 267101713571236704⟩,
    ⟨894110620270919887531, 659478620499851422379, 399312813130918532437, 268923961531015328⟩,
    ⟨851061254151587741696, 693270541725259470165, 434588624524452907691, 270102163306087520⟩,
    ⟨804917896681581084672, 725386023784794297685, 468741795669587716779, 270741357470558752⟩,
    ⟨1127482800815952090453, 348472455248980317525, 33853459278597928277, 225803282827331744⟩,
    ⟨1110841264521056408917, 393737397852535936341, 69275691824320675157, 235232841732788576⟩,
    ⟨1091240566009642833237, 437947753114104004608, 105793986338667631957, 243352462278000608⟩,
    ⟨1068605586886126130517, 481058366723031908352, 143043777878280840533, 250204932740705440⟩,
    ⟨1042888050906867029333, 522993074023736093355, 180718932895927682389, 255883385517058016⟩,
    ⟨1014058673889319299755, 563664975276142701227, 218548338966336288085, 260489363214437088⟩,
    ⟨982103868737737665195, 602980858783822577664, 256286265451070192299, 264120415380670624⟩,
    ⟨947023547615957701973, 640843002404872148309, 293706011919672715947, 266870383537812256⟩,
    ⟨908828676108318168405, 677151852374753520299, 330593982426791523669, 268832386265553216⟩,
    ⟨867538806949331107840, 711808650903957525845, 366744376703151551829, 270101148075212768⟩,
    ⟨823180053569634626219, 744717074763247293781, 401954789583765932715, 270774268660247808⟩,
    ⟨1093738793406888422059, 443034982978776580096, 35384043889908681728, 242738354690230912⟩,
    ⟨1072508312281457126059, 488219955640342148437, 71859375935829031936, 249604914741822048⟩,
    ⟨1048278767230692813483, 531988029481108070400, 109073083619519565141, 255382702264565184⟩,
    ⟨1021010956352426399061, 574287171517267776853, 146722345084734434645, 260130631901818304⟩,
    ⟨990682409991002734592, 615053770163160498176, 184536709764385289557, 263918090092669152⟩,
    ⟨957285062104930353152, 654215654041902164651, 222269572333798940672, 266816556407300064⟩,
    ⟨920823269771117996715, 691694571516453115221, 259691548747473134933, 268900511687577280⟩,
    ⟨881311305916856139776, 727409649243979055104, 296584151899660673024, 270249477272332192⟩,
    ⟨838770843020854400341, 761280479485191962624, 332734247352215846912, 270949077254742176⟩,
    ⟨1050987894497277160107, 536554840003583459328, 36468125768582640640, 255159093502221440⟩,
    ⟨1025213941660737863680, 580778951762511014571, 73680105335538589013, 259963970060082944⟩,
    ⟨996460394417483846997, 623271272280297974443, 111338126513855402667, 263856568252026624⟩,
    ⟨964711393584301277184, 663984788762014897493, 149173396721606481237, 266877469860746272⟩,
    ⟨929964300078747997525, 702863406481625710592, 186938512126991474688, 269075481572137664⟩,
    ⟨892227705639926672043, 739844977182187072171, 224400770798510131883, 270508594263839296⟩,
    ⟨851518765436444420779, 774865160269661459797, 261335704445507261781, 271244909656317792⟩,
    ⟨999368627503933871445, 627434237807768371200, 37218254871128485888, 263853650995964704⟩,
    ⟨969209630830922694656, 669940283986913798827, 74895142060642819413, 266965768016375776⟩,
    ⟨936134730676772853077, 710445328540874222251, 112764250023397905067, 269271480916127904⟩,
    ⟨900146916489076845227, 748904902793552221525, 150577389455227006976, 270800953211389856⟩,
    ⟨861258924132695976619, 785269878897739868843, 188098000536645731669, 271598498593998144⟩,
    ⟨939244582574669037568, 714279769826862399488, 37690840112475872597, 269398476466122336⟩,
    ⟨904951379750873978197, 754417354318321975296, 75591207812132554069, 271030832068677632⟩,
    ⟨867845849966143897600, 792318543079479443456, 113452553506372884480, 271917126304850176⟩,
    ⟨871169271985125359616, 795878655183923172693, 37918869704946455211, 272106524392043808⟩]
  neg := []

/-- `r30`, `w30` of so3/_lebedev_grids.npz: 5294 points, precision 125. -/
def lebedevRule125 : QuadratureRule where
  pos := [⟨1180591620717411303424, 0, 0, 107203749201656160⟩,
    ⟨681614890024214003712, 681614890024214003712, 681614890024214003712, 246132617243263680⟩,
    ⟨1179965148946923170475, 27192114471197365931, 27192114471197365931, 59160693494192632⟩,
    ⟨1178923846790194659328, 44357290142509548203, 44357290142509548203, 70156898016332192⟩,
    ⟨1176583240905808762197, 68733005636839383723, 68733005636839383723, 112916443889253360⟩,
    ⟨1172225519346742809941, 99206619487872536576, 99206619487872536576, 139962755991112496⟩,
    ⟨1165609690104035235157, 132571914906097340416, 132571914906097340416, 161092920724391232⟩,
    ⟨1156536910337080382805, 167658805220787929088, 167658805220787929088, 177776889374970336⟩,
    ⟨1144864142055081967616, 203816916796233064448, 203816916796233064448, 191173053553448352⟩,
    ⟨1130484909798821199872, 240624649220850940587, 240624649220850940587, 202170471623423712⟩,
    ⟨1113318522587714879488, 277775486833586348032, 277775486833586348032, 211313043248414080⟩,
    ⟨1093304806138430772565, 315024741713069522944, 315024741713069522944, 218937759344682176⟩,
    ⟨1070400974312051004757, 352163548014254303915, 352163548014254303915, 225274429153569760⟩,
    ⟨1044579510109069814443, 389005284005538720427, 389005284005538720427, 230496040515130688⟩,
    ⟨1015826296573030563840, 425378366926954414080, 425378366926954414080, 234742846866241376⟩,
    ⟨984138712194822864896, 461122310275527497045, 461122310275527497045, 238134751865111648⟩,
    ⟨949523758084163316395, 496085278829099778048, 496085278829099778048, 240778483212585984⟩,
    ⟨911996375647741913771, 530122243314476870315, 530122243314476870315, 242772171490561312⟩,
    ⟨871578076468672113323, 563093345515347749547, 563093345515347749547, 244208425395375040⟩,
    ⟨828295963117681617579, 594862325412828719787, 594862325412828719787, 245176398894703072⟩,
    ⟨782182212381915873280, 625294955017828188160, 625294955017828188160, 245763082178524320⟩,
    ⟨733274122683253216597, 654257455406993910443, 654257455406993910443, 246053903567230016⟩,
    ⟨707229552444165663403, 707229552444165663403, 627255366822328882517, 246080337002992576⟩,
    ⟨730959417383295188992, 730959417383295188992, 570257165834425505109, 245973463474290464⟩,
    ⟨752656816192043630592, 752656816192043630592, 510697570962968865451, 245880186976302912⟩,
    ⟨772167647354518252203, 772167647354518252203, 448676747409692098560, 245855334536892800⟩,
    ⟨789331641238299672576, 789331641238299672576, 384327588377764604587, 245933746384053280⟩,
    ⟨803984429620671348736, 803984429620671348736, 317828017586888856917, 246123314162402944⟩,
    ⟨815962307149233695403, 815962307149233695403, 249414517483572589909, 246400251624824416⟩,
    ⟨825110397157134237696, 825110397157134237696, 179394091080382450347, 246710404840058304⟩,
    ⟨831294203807958488405, 831294203807958488405, 108150211921886066005, 246980157060135040⟩,
    ⟨834413161958935254357, 834413161958935254357, 36137587184916116139, 247137511598033504⟩,
    ⟨1179720705732354375680, 45339071169573599232, 0, 89627069903337728⟩,
    ⟨1174867411708207431680, 116116923031147552768, 0, 127903403484093488⟩,
    ⟨1164096826499157884928, 196659994515289071616, 0, 165639294178319456⟩,
    ⟨1145919691773338746880, 284015201906975965184, 0, 190780085299876960⟩,
    ⟨1119889702428974645248, 373689214858693345280, 0, 209099798684460960⟩,
    ⟨1085731249678626193408, 463663917487066087424, 0, 222867366506704800⟩,
    ⟨1043395813969551196160, 552378267402856513536, 0, 232986766000884864⟩,
    ⟨993054399900888498176, 638466548650475683840, 0, 240107267116632544⟩,
    ⟨935050717969605591040, 720747341120790495232, 0, 244659152071636576⟩,
    ⟨869881236570747863040, 798187452400944807936, 0, 246882702852164064⟩,
    ⟨1177751972097144826539, 78575976788057795243, 22862261507840743595, 109991996355034800⟩,
    ⟨1174239784169267374763, 111521590652295745536, 50203973952847378091, 131776891595311680⟩,
    ⟨1168681520282191779157, 146706445065758689963, 80357314758747908096, 153314408343784640⟩,
    ⟨1160784620911055011840, 183397596266154551979, 112875863001524170069, 171213745245784128⟩,
    ⟨1150374316490384501419, 220904879392006352896, 147093647477543461547, 185674000432671616⟩,
    ⟨1137322387872445125973, 258858009708326094165, 182446956023189327872, 197540696769078912⟩,
    ⟨1121531737095583683925, 296999404257138606080, 218528010713572772523, 207413433494499808⟩,
    ⟨1102929930606297317376, 335115165884461255339, 255029348654585798656, 215667678141845440⟩,
    ⟨1081464545780447488683, 373017227697039919787, 291700461037121339392, 222555256451414816⟩,
    ⟨1057099994866509135872, 410535492635022450688, 328324207222540561067, 228262414872665824⟩,
    ⟨1029815253520109704533, 447512339771184209920, 364705119621313271125, 232937889641194016⟩,
    ⟨999601857533642713771, 483799164022352587435, 400663287829978035541, 236707096945760768⟩,
    ⟨966461953828422303744, 519254485568336573781, 436030556185543838379, 239680276411994272⟩,
    ⟨930406479584975399595, 553742818378269128021, 470647690686938434219, 241957702680066752⟩,
    ⟨891453600664176934912, 587133719464158008661, 504362021011913200981, 243633210713845472⟩,
    ⟨849627506255615279104, 619300765470408829611, 537025360117931646976, 244796608455567584⟩,
    ⟨804957631488219348992, 650120391379608322048, 568492095925233590272, 245535265186723136⟩,
    ⟨757478390987916432725, 679470597711540797440, 598617381087487901696, 245935006627829472⟩,
    ⟨1170177323952512062805, 154122976005610728107, 26976168791653219669, 149075089190215136⟩,
    ⟨1163272692182548228779, 193301560880714033835, 56813071485442804395, 166981241182487936⟩,
    ⟨1153970472845851262976, 232899397897609038507, 88919025900071910059, 181662402424572576⟩,
    ⟨1142128993220979780267, 272562556225691066368, 122668621480442804224, 193904493048806176⟩,
    ⟨1127627769911746499925, 312136526319134550699, 157553090637567351467, 204217629886417728⟩,
    ⟨1110375106117643392341, 351482384395178677589, 193193768228367293099, 212920311554107392⟩,
    ⟨1090304863304087830528, 390456346916972795221, 229293962231609933824, 220236456695907648⟩,
    ⟨1067371181370631170731, 428917105290396101291, 265603939874645904043, 226340979520858656⟩,
    ⟨1041544663688197876395, 466728828995105680043, 301903111338158126421, 231378450552925248⟩,
    ⟨1012809793227300121259, 503760616162177302528, 337991330147595791019, 235472487178348864⟩,
    ⟨981162816763017860437, 539885684186824559275, 373683756564222369792, 238732025443004800⟩,
    ⟨946609790551931311445, 574981123891740415317, 408807028446899159040, 241256025616705120⟩,
    ⟨909164818960455330475, 608927857903243580757, 443196086108771601067, 243136978283498496⟩,
    ⟨868848598090433779029, 641610421894695922347, 476691467325105725440, 244463420464575264⟩,
    ⟨825687354793681950037, 672916432145985716224, 509136958381429443243, 245321662802557984⟩,
    ⟨779712259617635745792, 702735751925914391893, 540377488497850288811, 245796860035799840⟩,
    ⟨1155745774381959817899, 239087818930184732672, 29753903031624944811, 179605600385587968⟩,
    ⟨1144977278904419964245, 281106733922543618731, 61665305027985369429, 191583187578489600⟩,
    ⟨1131656850236704063488, 322634838763969566037, 95163590917185234944, 201939977065174432⟩,
    ⟨1115669779900226524501, 363638475055254683648, 129786657962338528597, 210843173838623008⟩,
    ⟨1096931635493872413355, 404046339127834361856, 165179047697634101931, 218424244261933728⟩,
    ⟨1075383683732540850176, 443761814233411725995, 201052132289775995563, 224811763238069888⟩,
    ⟨1050986728492834695851, 482679970913985615189, 237157157004730948267, 230127997079499872⟩,
    ⟨1023717099612790816768, 520694096391155537237, 273271902785371182421, 234484567784289344⟩,
    ⟨993564110437416206336, 557697246119410526891, 309193652958296506368, 237982547452735616⟩,
    ⟨960528008027026849792, 593582997942683336704, 344734311110995053227, 240714863019092096⟩,
    ⟨924618072773728692907, 628246361809445098837, 379716345818237820928, 242769076126905760⟩,
    ⟨885850919613166594731, 661584550164094025728, 413969329918104453120, 244229692146637056⟩,
    ⟨844249133245540160853, 693497310336805726891, 447327012908827617963, 245179825984534016⟩,
    ⟨799840340593209611605, 723886762791907235157, 479624810787093864448, 245702295108591680⟩,
    ⟨1133658488946227937280, 328027029574368133120, 31831952766611180544, 200741331460784416⟩,
    ⟨1118836234316548035925, 371146550137451205973, 65209615928932339712, 209544007201047712⟩,
    ⟨1101349518900034087595, 413382480765602813269, 99703243291798379179, 217188644546016576⟩,
    ⟨1081124376567510832469, 454696636628865048576, 134972685896343040000, 223720632015847904⟩,
    ⟨1058110489352615395328, 495023716971373953024, 170734550885220291925, 229217625565027488⟩,
    ⟨1032275256641414430720, 534286886375374280021, 206741124310994209451, 233766399957439392⟩,
    ⟨1003600284861382776149, 572403682210878909099, 242769577430415637163, 237451954054383424⟩,
    ⟨972079176557269330603, 609288130409344259413, 278615547940510819669, 240355285301380800⟩,
    ⟨937715627898799401643, 644852387785225535488, 314088162894142805333, 242554475833506080⟩,
    ⟨900521584021355408043, 679008424258500056405, 349005746952427410773, 244126399072520384⟩,
    ⟨860515586084187417259, 711669350335651042645, 383192166943928833365, 245148116966499872⟩,
    ⟨817721485402815900331, 742750125089242054656, 416473767359592177664, 245697814503660928⟩,
    ⟨1103559107011929183573, 418141648435318164139, 33338177559552539989, 216565721724997280⟩,
    ⟨1084578073080995381248, 461402945982608632491, 67781263920415380139, 223077578966063264⟩,
    ⟨1062884124810237717163, 503452488351354470400, 103002447094077983403, 228642466609783584⟩,
    ⟨1038435250631937381717, 544246794826183409664, 138723579374869496491, 233305741113807904⟩,
    ⟨1011205053604294994603, 583730480917358843221, 174698712420234706944, 237126077689249408⟩,
    ⟨981180020993585627136, 621840614514460388011, 210704986774089317035, 240165433741862080⟩,
    ⟨948357668080952699563, 658508955088661938176, 246536537592828847445, 242486962601363936⟩,
    ⟨912744740423570888021, 693664134622224979285, 281999436304528711680, 244155513617686496⟩,
    ⟨874355385416936843947, 727233814972478406656, 316907262872183062528, 245238506529560192⟩,
    ⟨833209524394166435840, 759146338262300966912, 351077342575608414208, 245806547131238784⟩,
    ⟨1065279562493890428928, 507730785461699898027, 34430773087961219243, 228370631015021472⟩,
    ⟨1042152744752129048576, 550331167641822156117, 69640774232890110635, 233061419497192128⟩,
    ⟨1016316699720178434048, 591436091302743321259, 105357917037979632981, 236960002193064800⟩,
    ⟨987751002429980955989, 631005474789761220608, 141338681513872225621, 240101279892621440⟩,
    ⟨956446877827897562453, 668991214070817461589, 177360368452155920384, 242527416738491776⟩,
    ⟨922405585030661554176, 705339442907298327211, 213215341595367310677, 244286239812409984⟩,
    ⟨885636648433136173056, 739992991351147746645, 248706000352757454165, 245431266463550048⟩,
    ⟨846156011776500509355, 772893750449348941141, 283640316526036718933, 246021878236824736⟩,
    ⟨1018886210986936270848, 595338235753810132992, 35211489863241552725, 236896720720751648⟩,
    ⟨991724461502085851819, 636590049330811912192, 70938540015680780971, 240100273871541920⟩,
    ⟨961896209686676286123, 676103504147316768768, 106940676911495720960, 242612614779765024⟩,
    ⟨929397518227048944981, 713841093644256793941, 142995528064123958613, 244459414504699680⟩,
    ⟨894233365082614874112, 749760228102238071467, 178893443248395224405, 245675607051092544⟩,
    ⟨856415847513594516821, 783815753650041662123, 214432589327631947093, 246305058823574624⟩,
    ⟨964639052422507424427, 679699185212895324843, 35736410990713225387, 242676438301831360⟩,
    ⟨933632220128713255595, 719011679874042298368, 71761108202156941312, 244603454562876224⟩,
    ⟨900035045738397570389, 756373806373815118507, 107852475087181632171, 245900304962333120⟩,
    ⟨863856273989108989952, 791751719874986289835, 143798911236555327488, 246590863506597536⟩,
    ⟨902958408813482453675, 759713030677980517717, 36038838483860854784, 246034805882715584⟩,
    ⟨868368691700670447616, 796570983247715363499, 72159953090325883904, 246803825006601408⟩]
  neg := []

/-- `r31`, `w31` of so3/_lebedev_grids.npz: 5810 points, precision 131. -/
def lebedevRule131 : QuadratureRule where
  pos := [⟨1180591620717411303424, 0, 0, 11493470209812798⟩,
    ⟨834804340821298053120, 834804340821298053120, 0, 225207442990615424⟩,
    ⟨681614890024214003712, 681614890024214003712, 681614890024214003712, 224437497136544640⟩,
    ⟨1180426564938154202453, 13958862712873868459, 13958862712873868459, 46355039100032488⟩,
    ⟨1179484092094162141184, 36151427392110816256, 36151427392110816256, 78720733224279600⟩,
    ⟨1177233172072468709376, 62923101800361228288, 62923101800361228288, 104705387715394496⟩,
    ⟨1173297386286618356395, 92654784661003502933, 92654784661003502933, 125887192985371056⟩,
    ⟨1167401607980156365483, 124438861682171798869, 124438861682171798869, 143383648449158848⟩,
    ⟨1159341355610772985173, 157677195685900151467, 157677195685900151467, 157969614520543872⟩,
    ⟨1148963411638018834432, 191937038668007591936, 191937038668007591936, 170203181387791200⟩,
    ⟨1136152870180908695552, 226884585734517372245, 226884585734517372245, 180498315418013824⟩,
    ⟨1120824191030159562069, 262249602201559557461, 262249602201559557461, 189169810804122752⟩,
    ⟨1102914846057606042965, 297804816325971487403, 297804816325971487403, 196462564867612192⟩,
    ⟨1082380687824317841408, 333353132228512798037, 333353132228512798037, 202571323768634112⟩,
    ⟨1059192488817387962368, 368719301461824405504, 368719301461824405504, 207654378242436256⟩,
    ⟨1033333293160835077461, 403744275596291031040, 403744275596291031040, 211843292645943808⟩,
    ⟨1004796344566407277227, 438281234399871246336, 438281234399871246336, 215249963141292192⟩,
    ⟨973583434495944392704, 472192688943425514155, 472192688943425514155, 217971834383104896⟩,
    ⟨939703570212157314389, 505348283384187032917, 505348283384187032917, 220095816268144096⟩,
    ⟨903171904170670161920, 537623049368649154560, 537623049368649154560, 221701257396978144⟩,
    ⟨864008901095459433131, 568895945554185114965, 568895945554185114965, 222862207186696896⟩,
    ⟨822239752289783775232, 599048564251096044885, 599048564251096044885, 223649108847559552⟩,
    ⟨777894082566908149760, 627963920625839898624, 627963920625839898624, 224129994669439648⟩,
    ⟨731006037439846612992, 655525265773432067413, 655525265773432067413, 224371193085229984⟩,
    ⟨706112913864085613227, 706112913864085613227, 629766369899905733973, 224391684890249216⟩,
    ⟨728896108733599378091, 728896108733599378091, 575514986993560223744, 224293229878233056⟩,
    ⟨749836858176461591893, 749836858176461591893, 518927689710493248171, 224196014962016512⟩,
    ⟨768802470947110933845, 768802470947110933845, 460089226389183539883, 224144912410291360⟩,
    ⟨785655196237626015744, 785655196237626015744, 399109508979426448725, 224171298442939136⟩,
    ⟨800253453755952081579, 800253453755952081579, 336133001074730358101, 224288041756549888⟩,
    ⟨812454923954455620267, 812454923954455620267, 271349531034206060544, 224485312053462912⟩,
    ⟨822122125198034239488, 822122125198034239488, 205004871717477720064, 224729540029093056⟩,
    ⟨829130748682093133824, 829130748682093133824, 137408071407423295488, 224968363348369664⟩,
    ⟨833380172460926085803, 833380172460926085803, 68931496474095774379, 225143208636832224⟩,
    ⟨1179846429546576478208, 41940166837524056064, 0, 70752830378380200⟩,
    ⟨1175637852485044142080, 108038024382703067136, 0, 115096578168526912⟩,
    ⟨1166021903759955787776, 184904015262439464960, 0, 146591795351599712⟩,
    ⟨1149896581342085971968, 267459206470720561152, 0, 169724939149029440⟩,
    ⟨1126648226069091876864, 352789384199032324096, 0, 187029331022460672⟩,
    ⟨1095982851397305597952, 438882859486669324288, 0, 200043759392373088⟩,
    ⟨1057836186764887261184, 524193835216407805952, 0, 209745915997540416⟩,
    ⟨1012322076491609505792, 607454186219734466560, 0, 216772256662670976⟩,
    ⟨959701169832615575552, 687582896478725013504, 0, 221537395111042432⟩,
    ⟨900361173946957332480, 763640184482862891008, 0, 224301373576801504⟩,
    ⟨1178206949017237695147, 71968443244914383531, 21106950811516313941, 96138560456171744⟩,
    ⟨1175072208314322113877, 104033288191726135296, 46679279166281155925, 118045702039205968⟩,
    ⟨1170119293556864854699, 137649512478620098560, 75299571503068536832, 136499932714252704⟩,
    ⟨1163109000458191022763, 172393867530797228032, 106086673993889516885, 152016765913717792⟩,
    ⟨1153862553820663141717, 207925455071229949269, 138436942078489946795, 165091410895233440⟩,
    ⟨1142245798601565601792, 243965857191539889493, 171906285545447202816, 176129685776163552⟩,
    ⟨1128158365763916693504, 280281426362910354091, 206149457193137467392, 185453905219573952⟩,
    ⟨1111526065859898327040, 316670736720676353365, 240885915584463140181, 193319982818557536⟩,
    ⟨1092295412934265323520, 352955964916533690368, 275879308069245142357, 199933257864299840⟩,
    ⟨1070429583490948027733, 388976929817470164992, 310924475983050194944, 205461047888497024⟩,
    ⟨1045905361854408403627, 424586894634260261547, 345838861114824141483, 210042200016731680⟩,
    ⟨1018710777275836951211, 459649540082166625621, 380456603928065395371, 213794293918511072⟩,
    ⟨988843237622165924523, 494036719931982678699, 414624342840509554688, 216819090515036000⟩,
    ⟨956308031671799835307, 527626739144352243712, 448198112008595606187, 219206684674808704⟩,
    ⟨921117120332433386155, 560302976249178158421, 481040954955981250560, 221038694265497792⟩,
    ⟨883288175097234942635, 591952723641212032341, 513021001144506135893, 222390717113855616⟩,
    ⟨842843855803020907861, 622466153370100951723, 544009832219869396992, 223334208033058144⟩,
    ⟨799811353975523136853, 651735339190885187584, 573881016073668640768, 223937862936515360⟩,
    ⟨754222266823675259563, 679653283401113894912, 602508723171379522219, 224268539165707904⟩,
    ⟨1171427922635096391680, 144627128680103934635, 25222819603195482453, 132616072685356576⟩,
    ⟨1165302794889212826965, 181706416770502931797, 53373675496236621483, 148010632971665536⟩,
    ⟨1157053829629174224213, 219142963051758331221, 83662249512677860693, 161300233020265824⟩,
    ⟨1146523280839669557931, 256778527338930277035, 115523717471584089429, 172689487563750528⟩,
    ⟨1133592320703025654443, 294454701558324453376, 148530986940404891648, 182410432994136032⟩,
    ⟨1118172205568735444992, 332020327102949250389, 182345814298448399019, 190676913577559968⟩,
    ⟨1100197826948827507371, 369333009606873743360, 216689742489049718784, 197674322488525120⟩,
    ⟨1079622952361961324544, 406258714177838784512, 251325909519840955051, 203560559011154368⟩,
    ⟨1056416649334313975808, 442670822546858595669, 286047165312143439189, 208470146139351808⟩,
    ⟨1030560542740352232107, 478449125875491140949, 320668016184734419627, 212518784758564160⟩,
    ⟨1002046667428618234539, 513478899211768954880, 355018973109373706240, 215807477531412000⟩,
    ⟨970875755989161465173, 547650083336402878464, 388942447622099061419, 218426013618100352⟩,
    ⟨937055857237575215787, 580856556573302576469, 422289658896263774208, 220455829190886208⟩,
    ⟨900601223352107494059, 612995465134233332395, 454918202680126139051, 221972320525920416⟩,
    ⟨861531439121242892971, 643966577547887684267, 486690046451645207893, 223046686881974944⟩,
    ⟨819870800531046645760, 673671629884190304939, 517469786976904874667, 223747357012840192⟩,
    ⟨775647986285696565248, 702013631755022516224, 547123054814208652629, 224141018782527904⟩,
    ⟨1158625007571534774272, 224946479012492831403, 27995505316159271083, 159274316343043232⟩,
    ⟨1149057485688404104533, 264749880747525324800, 58060056284662346752, 170484521652974976⟩,
    ⟨1137181071971013733035, 304260987294535428779, 89671824279283470336, 180252420626465184⟩,
    ⟨1122890791816147528363, 343401581291018556757, 122426298357408501760, 188683188368317856⟩,
    ⟨1106108194694493645483, 382081243775348042411, 155997306684875830613, 195901986339304608⟩,
    ⟨1086776085734082805760, 420204122028793282560, 190112625079663179093, 202032272356903392⟩,
    ⟨1064854473860315540139, 457672530477506087595, 224538146545639066283, 207188248259795392⟩,
    ⟨1040317437388171051008, 494388880479003175595, 259067248476125891243, 211473220328195104⟩,
    ⟨1013150666795825490603, 530256707775342545579, 293513415602410125995, 214980338932764928⟩,
    ⟨983349507979919272619, 565181194892550870357, 327704954194536245931, 217794187407874784⟩,
    ⟨950917382667761664000, 599069395057680012629, 361481073022756118528, 219992562007157568⟩,
    ⟨915864505705001080149, 631830264110327403861, 394688864109657904469, 221648167864692832⟩,
    ⟨878206855081830880597, 663374552806907046571, 427180871860714493269, 222830121287219072⟩,
    ⟨837965383821489302187, 693614581854533397163, 458813036283657682944, 223605213412180704⟩,
    ⟨795165497208037681835, 722463905161090154496, 489442859481518617941, 224038905592857600⟩,
    ⟨1138964873648072261632, 309283585557263242581, 29987584244780939947, 179134358632454688⟩,
    ⟨1125710319782280451413, 350417271590125832875, 61486475058925839019, 187447319803354688⟩,
    ⟨1110041252109187492523, 390829130742963683328, 94114738945240494080, 194690582888794400⟩,
    ⟨1091889008178319534763, 430469154617428563285, 127558910509952628736, 200926684340480512⟩,
    ⟨1071203807713701582165, 469275344974980175189, 161553792423590140587, 206231382002553536⟩,
    ⟨1047951407207865308501, 507178311976839036928, 195868790008880679595, 210683128418347712⟩,
    ⟨1022110409499370274816, 544104319603259454805, 230298447867691372544, 214358552166728160⟩,
    ⟨993670091454915411968, 579977304882217216683, 264655719903620620288, 217330905087780960⟩,
    ⟨962628634505701397845, 614720215526908269909, 298767038945738137600, 219669942169421888⟩,
    ⟨928991672816637138261, 648255883294620210517, 332468579747653814955, 221442458622136512⟩,
    ⟨892771104277428551680, 680507567115333189632, 365603311492381338283, 222713088370941952⟩,
    ⟨853984139414584945323, 711399246481071652864, 398018563188525552981, 223545156002176864⟩,
    ⟨812652594541800718336, 740855711119222554624, 429563907695554368853, 224001461887624160⟩,
    ⟨1112005842888321794048, 395284444449899397120, 31460900596318684331, 194078497238902688⟩,
    ⟨1094959026259746608469, 436761705415056124587, 64035290296861320533, 200263798050378176⟩,
    ⟨1075448707524071686144, 477195495709703315456, 97422334540587818325, 205606300142731968⟩,
    ⟨1053432340183852209493, 516546624823206963883, 131363860885289794901, 210147112713797376⟩,
    ⟨1028881219061403658923, 554766435658514530304, 165632768006910913195, 213936989458739776⟩,
    ⟨1001778222993465890133, 591799869849337047723, 200024700701002042027, 217030891661120672⟩,
    ⟨972115926036786511872, 627587734454325542912, 234351950741383766016, 219485337124828512⟩,
    ⟨939895015724135727104, 662068356113008923989, 268438868569565988181, 221357295049416192⟩,
    ⟨905122968985622861141, 695178769914799893163, 302118294352660695723, 222703924185504864⟩,
    ⟨867812956271708312917, 726855549021727298901, 335228666273404332715, 223582752235125344⟩,
    ⟨827982969105421085355, 757035346719869741739, 367611563469189644288, 224052057763662880⟩,
    ⟨1077575273113506228907, 481215196229366377131, 32558264702666065579, 205300624044961248⟩,
    ⟨1056733524513197113344, 522268719313864957952, 65925851563219065856, 209843355637010784⟩,
    ⟨1033422244093971715413, 562018388158287639893, 99851748567082441387, 213688360167892736⟩,
    ⟨1007618199442882450773, 600429858417231222101, 134112356554909810688, 216865273565089440⟩,
    ⟨979308431890276974592, 637462055625346296491, 168504296012531133099, 219411709926261888⟩,
    ⟨948488639578168934400, 673069265146868334592, 202838950435987532459, 221370295993518432⟩,
    ⟨915161779300253231787, 707202777651528941568, 236938228021821662549, 222787111790223648⟩,
    ⟨879336868427719409664, 739812153169804678485, 270631159983755785557, 223710985307229632⟩,
    ⟨841027981043748814848, 770846162782812826283, 303751054866732837547, 224193293466934784⟩,
    ⟨1035701587686221572779, 565690372510571749376, 33364631292051126443, 213576699976507520⟩,
    ⟨1011143315704359168683, 605687649981893170517, 67292203664096787456, 216791699490784576⟩,
    ⟨984143630785598335659, 644160589893839672661, 101562903266520183467, 219404324502801920⟩,
    ⟨954693712760078477995, 681078150310769666731, 135974419998033066667, 221438151515769728⟩,
    ⟨922792293426334367744, 716405065985848235349, 170337134914681617067, 222924120950700992⟩,
    ⟨888444430487983609173, 750103318722192790869, 204470242541546733568, 223898892010877792⟩,
    ⟨851660428828213395456, 782133334624919786837, 238198521709961348437, 224403966384178912⟩,
    ⟨986574108254604350805, 647546653977058836480, 33932797599247007232, 219415909086414432⟩,
    ⟨958445533385843092139, 685948250416490315776, 68218268751461961045, 221508348188983808⟩,
    ⟨927931732861720144555, 722634841657899483136, 102655538956609067008, 223061504889988320⟩,
    ⟨895034466381711430997, 757579065264835985408, 137054145393076044459, 224096187217093408⟩,
    ⟨859760798422265004032, 790751577425993170944, 171230508971903137109, 224640605401173088⟩,
    ⟨930518135781378992811, 725779842509458800640, 34295686274754719573, 223146649472892416⟩,
    ⟨899024759971965670741, 762117937357956661248, 68755402862372547243, 224245661748645440⟩,
    ⟨865225936613326181717, 796575695223787094016, 103188251746488902997, 224846136505440416⟩,
    ⟨867979089118792362667, 799512672127756533760, 34472639408812389717, 224965806218795168⟩]
  neg := []

/-- The grids of so3/_lebedev_grids.npz, in the order of the file. -/
def lebedevRules : List QuadratureRule :=
  [lebedevRule3,
    lebedevRule5,
    lebedevRule7,
    lebedevRule9,
    lebedevRule11,
    lebedevRule13,
    lebedevRule15,
    lebedevRule17,
    lebedevRule19,
    lebedevRule21,
    lebedevRule23,
    lebedevRule25,
    lebedevRule27,
    lebedevRule29,
    lebedevRule31,
    lebedevRule35,
    lebedevRule41,
    lebedevRule47,
    lebedevRule53,
    lebedevRule59,
    lebedevRule65,
    lebedevRule71,
    lebedevRule77,
    lebedevRule83,
    lebedevRule89,
    lebedevRule95,
    lebedevRule101,
    lebedevRule107,
    lebedevRule113,
    lebedevRule119,
    lebedevRule125,
    lebedevRule131]

end E3x
