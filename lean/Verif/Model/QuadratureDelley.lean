import Verif.Model.QuadratureGrid

/-!
# The orbits of the grids in so3/_delley_grids.npz

Written by `tools/quadrature_tables.py`.
-/

namespace E3x

/-- `r0`, `w0` of so3/_delley_grids.npz: 14 points, precision 5. -/
def delleyRule5 : QuadratureRule where
  pos := [⟨1180591620717411303424, 0, 0, 78706108047827419136⟩,
    ⟨681614890024214069248, 681614890024214069248, 681614890024214069248, 88544371553805844480⟩]
  neg := []

/-- `r1`, `w1` of so3/_delley_grids.npz: 26 points, precision 7. -/
def delleyRule7 : QuadratureRule where
  pos := [⟨1180591620717411303424, 0, 0, 56218648605591011328⟩,
    ⟨681614890024214069248, 681614890024214069248, 681614890024214069248, 37947587808773931008⟩,
    ⟨834804340821297987584, 834804340821297987584, 0, 44974918884472807424⟩]
  neg := []

/-- `r2`, `w2` of so3/_delley_grids.npz: 50 points, precision 11. -/
def delleyRule11 : QuadratureRule where
  pos := [⟨1180591620717411303424, 0, 0, 14991639628157603840⟩,
    ⟨681614890024214069248, 681614890024214069248, 681614890024214069248, 24903104499507896320⟩,
    ⟨834804340821297987584, 834804340821297987584, 0, 26651803783391297536⟩,
    ⟨1067885300879243476992, 355961766959747825664, 355961766959747825664, 23816470897987788800⟩]
  neg := []

/-- `r3`, `w3` of so3/_delley_grids.npz: 110 points, precision 17. -/
def delleyRule17 : QuadratureRule where
  pos := [⟨1180591620717411303424, 0, 0, 4519624068162509824⟩,
    ⟨681614890024214069248, 681614890024214069248, 681614890024214069248, 11562404442748540928⟩,
    ⟨1139417348776209809408, 218545967951775367168, 218545967951775367168, 9694708228068186112⟩,
    ⟨978438895368936357888, 467147676295932936192, 467147676295932936192, 11328333056199481344⟩,
    ⟨815105304487064633344, 815105304487064633344, 254957369186033205248, 11738403946869168128⟩,
    ⟨1036747051517490757632, 564758467026350440448, 0, 11445831467465160704⟩]
  neg := []

/-- `r4`, `w4` of so3/_delley_grids.npz: 194 points, precision 23. -/
def delleyRule23 : QuadratureRule where
  pos := [⟨1180591620717411303424, 0, 0, 2104216197282711296⟩,
    ⟨681614890024214069248, 681614890024214069248, 681614890024214069248, 6579889479996189696⟩,
    ⟨834804340821297987584, 834804340821297987584, 0, 6749331260972478464⟩,
    ⟨917901979887618621440, 525001204868404871168, 525001204868404871168, 6515415350917561344⟩,
    ⟨1077300593590152069120, 341482068312869109760, 341482068312869109760, 6089772220225988608⟩,
    ⟨792528019654449692672, 792528019654449692672, 370938338586558595072, 6621589042986925056⟩,
    ⟨1160488863973482037248, 153398454199677550592, 153398454199677550592, 4848426547611538432⟩,
    ⟨1107771806491353415680, 408213424143605891072, 0, 5964167133038473216⟩,
    ⟨987017114496562888704, 619950586510052687872, 187763310806143500288, 6528965530986335232⟩]
  neg := []

/-- `r5`, `w5` of so3/_delley_grids.npz: 302 points, precision 29. -/
def delleyRule29 : QuadratureRule where
  pos := [⟨1180591620717411303424, 0, 0, 1008923177407696896⟩,
    ⟨681614890024214069248, 681614890024214069248, 681614890024214069248, 4249090069863629824⟩,
    ⟨827803267726307098624, 827803267726307098624, 152578094074673299456, 4309213495778483712⟩,
    ⟨775215348057557434368, 775215348057557434368, 438039842000889380864, 4255823357409052672⟩,
    ⟨877713252356348968960, 558308168284418015232, 558308168284418015232, 4222657068225639936⟩,
    ⟨1024332792905628516352, 415053553343613042688, 415053553343613042688, 4072791306983447552⟩,
    ⟨1120917811171509534720, 262049456693422555136, 262049456693422555136, 3670404005524817408⟩,
    ⟨1169618755198165450752, 113552944472738775040, 113552944472738775040, 2776871220079004672⟩,
    ⟨968470497501765959680, 675175140520477065216, 0, 4251099020278610944⟩,
    ⟨1138573083851561762816, 312166474235956953088, 0, 3520931473609408512⟩,
    ⟨944559183914712039424, 643266285006142177280, 296332599564971868160, 4216530851427579392⟩,
    ⟨1065416088545685274624, 487315646522222641152, 145631706131613499392, 4004935364087689728⟩]
  neg := []

/-- `r6`, `w6` of so3/_delley_grids.npz: 434 points, precision 35. -/
def delleyRule35 : QuadratureRule where
  pos := [⟨1180591620717411303424, 0, 0, 621687501683860992⟩,
    ⟨681614890024214069248, 681614890024214069248, 681614890024214069248, 2966020893367973376⟩,
    ⟨834804340821297987584, 834804340821297987584, 0, 3008407146691034624⟩,
    ⟨815711635528004272128, 815711635528004272128, 251049059421899915264, 2987373524712097280⟩,
    ⟨762268425136691216384, 762268425136691216384, 481342155838672797696, 2967142166954007552⟩,
    ⟨848864856286371643392, 580183173950297210880, 580183173950297210880, 2953515771154360832⟩,
    ⟨981761575054258208768, 463648996901290704896, 463648996901290704896, 2886987389616637952⟩,
    ⟨1079618926377281781760, 337801383002001244160, 337801383002001244160, 2718542164967391232⟩,
    ⟨1142797528631267033088, 209535657421872136192, 209535657421872136192, 2378040933883285504⟩,
    ⟨1173810199301229248512, 89348169887728009216, 89348169887728009216, 1726610076190502912⟩,
    ⟨1154196910860838371328, 248245978552446943232, 0, 2256053071340349184⟩,
    ⟨1041061378589664870400, 556765463114541957120, 0, 2854012212246573568⟩,
    ⟨1106428018996535230464, 394832710602860855296, 117135580954567933952, 2640520380804459520⟩,
    ⟨1025870404573958111232, 531541352337846435840, 242590763802501120000, 2853407358189991424⟩,
    ⟨911117171053669384192, 655246337119223414784, 366489172024445239296, 2947517050719316992⟩,
    ⟨944388122066248663040, 697157893098153181184, 126089340942413496320, 2965925779755128320⟩]
  neg := []

/-- `r7`, `w7` of so3/_delley_grids.npz: 590 points, precision 41. -/
def delleyRule41 : QuadratureRule where
  pos := [⟨1180591620717411303424, 0, 0, 365407426634250496⟩,
    ⟨681614890024214069248, 681614890024214069248, 681614890024214069248, 2186903950551239424⟩,
    ⟨1176197611891605635072, 71957462047545540608, 71957462047545540608, 1152768755536914816⟩,
    ⟨1155185978224917479424, 172252620619694047232, 172252620619694047232, 1634809176361305600⟩,
    ⟨1111425666819742498816, 281540016731595931648, 281540016731595931648, 1909265339083538944⟩,
    ⟨1042555346632827469824, 391710941968353067008, 391710941968353067008, 2065521374289459968⟩,
    ⟨947822490184956510208, 497709303714403188736, 497709303714403188736, 2146872543810055936⟩,
    ⟨827321508148117897216, 595539963841087537152, 595539963841087537152, 2180217383677298432⟩,
    ⟨752337551911726874624, 752337551911726874624, 511637558116195434496, 2186489716013594368⟩,
    ⟨803716560084573487104, 803716560084573487104, 319180132526766489600, 2194498562852544256⟩,
    ⟨831249240192022872064, 831249240192022872064, 108839222105513213952, 2209820344468590848⟩,
    ⟨1162898489628971237376, 203626318846119346176, 0, 1535148886594205696⟩,
    ⟨1083836574111247630336, 468075694227929432064, 0, 2013090520177764096⟩,
    ⟨933968309250895642624, 722149411287710695424, 0, 2192548947232995840⟩,
    ⟨1129946689101724778496, 328047828551823458304, 96962244604007809024, 1836072148596003584⟩,
    ⟨1014576656877921894400, 594258380077382762496, 106243870102647734272, 2127708413055919104⟩,
    ⟨921240130043782889472, 706480960071650639872, 214471095398229966848, 2183894459406778112⟩,
    ⟨1073409810137415024640, 447566463616839712768, 203155642438103728128, 2023421299799985152⟩,
    ⟨991753025761402028032, 559882925206709338112, 311052440696494227456, 2128204032937396736⟩,
    ⟨884629829728635453440, 662343044247335469056, 415365298261207285760, 2175672716013030400⟩]
  neg := []

/-- `r8`, `w8` of so3/_delley_grids.npz: 770 points, precision 47. -/
def delleyRule47 : QuadratureRule where
  pos := [⟨1180591620717411303424, 0, 0, 258896905402524832⟩,
    ⟨681614890024214069248, 681614890024214069248, 681614890024214069248, 1678730855682967296⟩,
    ⟨834804340821297987584, 834804340821297987584, 0, 1695841492323706112⟩,
    ⟨1177532327267756408832, 60059108999157448704, 60059108999157448704, 802580765374825088⟩,
    ⟨1162646337152030343168, 145000120026038960128, 145000120026038960128, 1170342224281711104⟩,
    ⟨1131050072005953454080, 239293031160010244096, 239293031160010244096, 1393343478626954752⟩,
    ⟨1080616702632646934528, 336202406966033907712, 336202406966033907712, 1530754625642264832⟩,
    ⟨1010470645176595906560, 431709190395894759424, 431709190395894759424, 1612536362199200000⟩,
    ⟨920414397166977548288, 522797241957105795072, 522797241957105795072, 1656356590759760896⟩,
    ⟨810646680852198981632, 606897245722649952256, 606897245722649952256, 1674841065148905984⟩,
    ⟨744528443623039434752, 744528443623039434752, 533995663072906575872, 1678065471312686848⟩,
    ⟨792989617912234115072, 792989617912234115072, 368960033980622241792, 1681158306895755776⟩,
    ⟨824028475865340051456, 824028475865340051456, 189078599619981803520, 1690080706800155648⟩,
    ⟨1168168889655401775104, 170815749125863014400, 0, 1092566886549569664⟩,
    ⟨1110673300068591206400, 400251665109477097472, 0, 1476022862045950720⟩,
    ⟨998484542939199700992, 629940626106668417024, 0, 1646176630849055744⟩,
    ⟨1144448827688161247232, 278051509315757506560, 81980570128456220672, 1330631940971439616⟩,
    ⟨1042828810125281984512, 484300225551220867072, 267876723908385177600, 1588785613680079616⟩,
    ⟨920091843214548926464, 733655336268273418240, 94749261333819899904, 1682292628564039936⟩,
    ⟨1103162315092175093760, 383135550539934269440, 173310794185180872704, 1489343886004719104⟩,
    ⟨989411493584681959424, 616797989574319407104, 185530890494737907712, 1644029444860093184⟩,
    ⟨900603249351109509120, 710426513348239425536, 279292913082754367488, 1674978148697336320⟩,
    ⟨1059327549231028895744, 513153063317171404800, 91080469676813565952, 1580064493143905024⟩,
    ⟨962901414694450233344, 579531953857264091136, 361607736291651092480, 1645391560262068224⟩,
    ⟨863367589218712027136, 666888834420227047424, 451278476464881139712, 1671617098315585536⟩]
  neg := []

/-- `r9`, `w9` of so3/_delley_grids.npz: 974 points, precision 53. -/
def delleyRule53 : QuadratureRule where
  pos := [⟨1180591620717411303424, 0, 0, 169803806946321696⟩,
    ⟨681614890024214069248, 681614890024214069248, 681614890024214069248, 1329077330387502848⟩,
    ⟨1178413836509449814016, 50682367896753053696, 50682367896753053696, 584160198016916096⟩,
    ⟨1167467248541157687296, 124130573373167714304, 124130573373167714304, 868678146815512064⟩,
    ⟨1143863675640261115904, 206606469476291379200, 206606469476291379200, 1049443566524649728⟩,
    ⟨1105745335459745366016, 292509681905726816256, 292509681905726816256, 1167410060136976896⟩,
    ⟨1052223464903809957888, 378564627781033197568, 378564627781033197568, 1243516778330517248⟩,
    ⟨982956715439766241280, 462381157963876335616, 462381157963876335616, 1290125502858980352⟩,
    ⟨897937804876090179584, 541989055923859292160, 541989055923859292160, 1315638780847399424⟩,
    ⟨797372724753813078016, 615627043235936731136, 615627043235936731136, 1326660068766115072⟩,
    ⟨738244039375819243520, 738244039375819243520, 551169712121694519296, 1328448118684560128⟩,
    ⟨783668069352005959680, 783668069352005959680, 406847992577526464512, 1329527116349354752⟩,
    ⟨815837261218556149760, 815837261218556149760, 250231295650593374208, 1334407279891204352⟩,
    ⟨832660291470374469632, 832660291470374469632, 84559168190717526016, 1339955592097179392⟩,
    ⟨1171528886388843216896, 146002202944616480768, 0, 805561099981791616⟩,
    ⟨1128387644890038796288, 347185681973890514944, 0, 1116149990516097664⟩,
    ⟨1042209731702617407488, 554612883056751607808, 0, 1268463025987947264⟩,
    ⟨913516351123786039296, 747853228339389923328, 0, 1333242219478963968⟩,
    ⟨1153878046908933734400, 239557240288591511552, 70529117356609552384, 996051514672544640⟩,
    ⟨1035447870958067908608, 543381689862676873216, 162421121035873845248, 1269437893690416384⟩,
    ⟨938502218291571458048, 593917157056194412544, 400340569670688178176, 1308776996760244736⟩,
    ⟨1122766443096658018304, 332644253281474641920, 150132907528806072320, 1129410060705851648⟩,
    ⟨1015478163381908668416, 511380496562870419456, 317947577971246366720, 1275821978614190592⟩,
    ⟨905634413285998329856, 738597876134628950016, 167618798914992275456, 1330287251338763008⟩,
    ⟨1089232849467680489472, 448435356519701479424, 79209251806399463424, 1207236056959494656⟩,
    ⟨981092359048439791616, 651392066779549794304, 83323065603695624192, 1309229199770631936⟩,
    ⟨882634628626354274304, 711851785187872473088, 328663540999942045696, 1325557237266092032⟩,
    ⟨1076839314652161900544, 423785915438706851840, 233707430783455461376, 1218844969920050944⟩,
    ⟨966607661408019808256, 631459077887518572544, 246425722620281094144, 1307209342768847616⟩,
    ⟨846002328232794128384, 669985455048727724032, 478744321695834505216, 1324364125570650112⟩]
  neg := []

/-- `r10`, `w10` of so3/_delley_grids.npz: 1202 points, precision 59. -/
def delleyRule59 : QuadratureRule where
  pos := [⟨1180591620717411303424, 0, 0, 130477714810279536⟩,
    ⟨681614890024214069248, 681614890024214069248, 681614890024214069248, 1078253191454849024⟩,
    ⟨834804340821297987584, 834804340821297987584, 0, 1086762063734352256⟩,
    ⟨1178963209208092950528, 43831074832351985664, 43831074832351985664, 435688116971197632⟩,
    ⟨1170687330329203441664, 107906787355677081600, 107906787355677081600, 661602473297677184⟩,
    ⟨1152583981011995459584, 180757768329198010368, 180757768329198010368, 810511285486215680⟩,
    ⟨1123034317099580915712, 257478637487502884864, 257478637487502884864, 911456700258413056⟩,
    ⟨1081193936053257633792, 335273207660430426112, 335273207660430426112, 980073559807168256⟩,
    ⟨1026662443297938735104, 412165502213413470208, 412165502213413470208, 1025543643649043072⟩,
    ⟨959317727762437111808, 486572744874226614272, 486572744874226614272, 1053923146057594880⟩,
    ⟨879221371548986769408, 557120433443112288256, 557120433443112288256, 1069712845048037504⟩,
    ⟨786560022128728342528, 622543133644978126848, 622543133644978126848, 1076673260999242240⟩,
    ⟨733085454653487054848, 733085454653487054848, 564772527004584640512, 1077729050351038208⟩,
    ⟨775615958405558566912, 775615958405558566912, 436619222024658026496, 1077964554423697920⟩,
    ⟨807735794841055789056, 807735794841055789056, 298198501627925037056, 1080580609552865024⟩,
    ⟨827902191155059359744, 827902191155059359744, 151500820689087561728, 1084661028133933696⟩,
    ⟨1173783567739814019072, 126604545779989626880, 0, 611189603633143808⟩,
    ⟨1140557337737270919168, 304836897769664544768, 0, 865508680136432256⟩,
    ⟨1072898208538129203200, 492631717435892432896, 0, 999162177081059328⟩,
    ⟨969996786694960578560, 672980541107701678080, 0, 1066206777850711424⟩,
    ⟨1160283794169029066752, 209174156490443423744, 61516373051388764160, 765705569563407360⟩,
    ⟨1136230799701913894912, 292281011199321866240, 131711636574810062848, 877773519328072576⟩,
    ⟨1100408439879123075072, 374674356753112039424, 206196427569926373376, 956483631921306624⟩,
    ⟨1052191368584275427328, 455034383628535463936, 282194274393921880064, 1010149520753293568⟩,
    ⟨991313696978181685248, 532142534451357548544, 357656332418845179904, 1044856917308125696⟩,
    ⟨917740342246277906432, 604878299365805391872, 430896138388567687168, 1065211567941297408⟩,
    ⟨831589515715382083584, 672193746054963134464, 500410851226285768704, 1075018426200173568⟩,
    ⟨1109993185578659086336, 396043188159403327488, 69724428930182029312, 944299500717968768⟩,
    ⟨1067688598030197194752, 482893663150195867648, 143705750176745226240, 1001541864704751104⟩,
    ⟨1013181366068526186496, 564950949243980611584, 219295506812164866048, 1040224965390918272⟩,
    ⟨946299597526409543680, 641569325881533530112, 294452792001423998976, 1063723873588595200⟩,
    ⟨867062583736138858496, 712033895806133862400, 367432690456517214208, 1075260839499353344⟩,
    ⟨1024332720065707900928, 582293900236032901120, 73978829801916612608, 1039299440272577536⟩,
    ⟨963987125942429941760, 664923724516136976384, 149672430664455028736, 1065052112587094272⟩,
    ⟨891769814623956631552, 740207984748206096384, 225022914274785918976, 1078066447449287808⟩,
    ⟨904524580624156590080, 754903295730877988864, 75847689810013716480, 1081187715823762560⟩]
  neg := []

/-- `r11`, `w11` of so3/_delley_grids.npz: 1454 points, precision 65. -/
def delleyRule65 : QuadratureRule where
  pos := [⟨1180591620717411303424, 0, 0, 91816508064666224⟩,
    ⟨681614890024214069248, 681614890024214069248, 681614890024214069248, 892249402753835008⟩,
    ⟨1179359819594274701312, 38124734980873658368, 38124734980873658368, 335480906061790720⟩,
    ⟨1172941501842566021120, 94880999582291279872, 94880999582291279872, 516440256690539968⟩,
    ⟨1158736075552501661696, 159886337942538354688, 159886337942538354688, 639547110703569920⟩,
    ⟨1135339049156913397760, 228912448730556923904, 228912448730556923904, 725827833650113024⟩,
    ⟨1101965595820314853376, 299556672882229837824, 299556672882229837824, 786792828709163392⟩,
    ⟨1058197382346814652416, 370145157271112581120, 370145157271112581120, 829370259999358592⟩,
    ⟨1003850099350786408448, 439364059147752833024, 439364059147752833024, 858114411347382784⟩,
    ⟨938897189101162594304, 506097146408720465920, 506097146408720465920, 876310367650925440⟩,
    ⟨863421725849835405312, 569341504827575107584, 569341504827575107584, 886570594471416960⟩,
    ⟨777585563224126259200, 628154943773263003648, 628154943773263003648, 891173723783396480⟩,
    ⟨728778994418618073088, 728778994418618073088, 575811539912617230336, 891829413986900736⟩,
    ⟨768645407505360355328, 768645407505360355328, 460613775249938644992, 891718226419257088⟩,
    ⟨800124159710241095680, 800124159710241095680, 336748025984006488064, 893090130415100032⟩,
    ⟨822058862435045605376, 822058862435045605376, 205511625686143467520, 895831954720956800⟩,
    ⟨833371952379613937664, 833371952379613937664, 69129970939853242368, 898225016712229120⟩,
    ⟨1175343441640996208640, 111195184696380375040, 0, 474796223796417216⟩,
    ⟨1149201566875035107328, 270429905151276122112, 0, 685318299927145216⟩,
    ⟨1095080629679902162944, 441129220759669112832, 0, 801875768582823040⟩,
    ⟨1011533547847079165952, 608766339811971563520, 0, 866169519741670912⟩,
    ⟨900023497129753182208, 764038140096744783872, 0, 895108782434804608⟩,
    ⟨819454479876396154880, 673825372129082343424, 517928854374587367424, 889960406408792320⟩,
    ⟨899929875261579591680, 613490113371348664320, 455579493958465421312, 883497775536514688⟩,
    ⟨970017909480352120832, 548542715637766750208, 389823959392282083328, 870304240821800320⟩,
    ⟨1029600236018038734848, 479780829155587391488, 321761223385509855232, 848071957418237824⟩,
    ⟨1078651735828198588416, 408051360675750739968, 252588785882601062400, 814114203252107520⟩,
    ⟨1117280794352697606144, 334272135485218226176, 183690884142139604992, 765035861095896320⟩,
    ⟨1145791405619670810624, 259456498126693400576, 116794500281888194560, 696260861600704896⟩,
    ⟨1164785423923786940416, 184726710303583240192, 54291192870150348800, 601595116903697920⟩,
    ⟨853538954701580795904, 711584678407052853248, 398641534679250173952, 889800857610204416⟩,
    ⟨928310264900757487616, 648856970448523886592, 333198527740463742976, 882197792871885312⟩,
    ⟨992823823840984825856, 581052693544983003136, 265471650173891641344, 866910449715380608⟩,
    ⟨1047022830260166066176, 508766868227226927104, 196713094674490556416, 841864723833060096⟩,
    ⟨1090963876531104251904, 432581541744162635776, 128326165510517620736, 804811908935832192⟩,
    ⟨1124868634397556473856, 353019214595050110976, 62004551312256180224, 753328564879118464⟩,
    ⟨878922387753761505280, 740080304250900840448, 271243717850357661696, 891391698799349888⟩,
    ⟨947842630032264265728, 673801906210990325760, 203425452655561080832, 882922755766137472⟩,
    ⟨1006809764846081015808, 601672097700623548416, 134615597785971965952, 866072417180579200⟩,
    ⟨1055839625187652141056, 524032737179919712256, 66249159658695286784, 839414871724403328⟩,
    ⟨894671728745301803008, 757937278814604623872, 137441456901364039680, 893868887064246528⟩,
    ⟨957836424781578240000, 686775889965014188032, 68445856211832086528, 884252301325249152⟩]
  neg := []

/-- `r12`, `w12` of so3/_delley_grids.npz: 1730 points, precision 71. -/
def delleyRule71 : QuadratureRule where
  pos := [⟨1180591620717411303424, 0, 0, 74484109005111024⟩,
    ⟨681614890024214069248, 681614890024214069248, 681614890024214069248, 750523942916016896⟩,
    ⟨834804340821297987584, 834804340821297987584, 0, 755376485213723776⟩,
    ⟨1179624924732453027840, 33775818703020797952, 33775818703020797952, 262233856355685088⟩,
    ⟨1174553258490243842048, 84324426704586604544, 84324426704586604544, 410348149213531328⟩,
    ⟨1163201360258977628160, 142757084587469701120, 142757084587469701120, 513645007280171712⟩,
    ⟨1144346134358290464768, 205266290081203388416, 205266290081203388416, 587765700574034048⟩,
    ⟨1117271332142294630400, 269723326096526311424, 269723326096526311424, 641655822198651648⟩,
    ⟨1081564533019407810560, 334675018355623854080, 334675018355623854080, 680718903191432832⟩,
    ⟨1037010633528706596864, 399002206044374171648, 399002206044374171648, 708496685834853760⟩,
    ⟨983529877559427203072, 461771347560728428544, 461771347560728428544, 727501591607802368⟩,
    ⟨921138502766511915008, 522159187235670786048, 522159187235670786048, 739666405273549696⟩,
    ⟨849922332098069921792, 579408579634933465088, 579408579634933465088, 746604625177064576⟩,
    ⟨770019723496341241856, 632797835147522473984, 632797835147522473984, 749766331065031296⟩,
    ⟨725131884598650732544, 725131884598650732544, 584947924848855351296, 750190744751439872⟩,
    ⟨762579591374296449024, 762579591374296449024, 480355398165760245760, 749947505973355648⟩,
    ⟨793128076878961967104, 793128076878961967104, 368364333562198556672, 750634069433559680⟩,
    ⟨815893709399173234688, 815893709399173234688, 249862932092535308288, 752403033550093312⟩,
    ⟨830011092202831478784, 830011092202831478784, 126331898381563084800, 754448688458171648⟩,
    ⟨1176463832333047300096, 98637853385014575104, 0, 376244331495854464⟩,
    ⟨1155514647770974650368, 242038165781523267584, 0, 552284131775012352⟩,
    ⟨1111523694693570707456, 397883966808060461056, 0, 653909592956569088⟩,
    ⟨1042755810878982455296, 553585489139915685888, 0, 713605760765734912⟩,
    ⟨949796947306984243200, 701200637331782369280, 0, 745375386397280256⟩,
    ⟨1168046825141374287872, 164690560898979102720, 48375699851261485056, 481519218948531072⟩,
    ⟨1152776247717204983808, 232340334205933977600, 104505821408571031552, 561953708322950848⟩,
    ⟨1129693794693087100928, 300600317945429295104, 165008951245694599168, 621953514735219584⟩,
    ⟨1098234638038229319680, 368495828271103737856, 227789550392454348800, 666213584583638784⟩,
    ⟨1058082945500434792448, 435163837540296884224, 291358009751731372032, 698261041177350144⟩,
    ⟨1009089160724044709888, 499834195974525157376, 354543956586354900992, 720699386920241408⟩,
    ⟨951219495548275523584, 561804738704051273728, 416357396675885662208, 735538432230231680⟩,
    ⟨884522767294408163328, 620421979668133052416, 475912403905047429120, 744436067357329536⟩,
    ⟨809108077339250786304, 675065315023442149376, 532379107915445567488, 748860217085928192⟩,
    ⟨1135815370262852927488, 317216441395016105984, 55621478688582721536, 611105974391782528⟩,
    ⟨1108203671063789830144, 390304394961423368192, 115514837240506400768, 656980384452859904⟩,
    ⟨1072231261377206026240, 461010030749445324800, 177725767917893746688, 691404825517458304⟩,
    ⟨1027653880385911783424, 528900081918465867776, 240808596986449068032, 716192557260208896⟩,
    ⟨974368893807669805056, 593492480453718048768, 303592670091151671296, 733008672491509888⟩,
    ⟨912373699548566388736, 654294193658602192896, 365061522794262429696, 743337590141295488⟩,
    ⟨841737006295887642624, 710816610722413543424, 424281902820874125312, 748545115906607872⟩,
    ⟨1079350137816052531200, 474580289020650717184, 59777957289523421184, 688240958749523456⟩,
    ⟨1038955384951608967168, 547276771520680165376, 121886908001307426816, 714103671609026816⟩,
    ⟨990159805209787760640, 615780171066432421888, 184918673952833306624, 732245698096836608⟩,
    ⟨932900125350823460864, 679808562083065626624, 247697900570708508672, 743655290956782720⟩,
    ⟨867196511779833905152, 739037802976679165952, 309176180577442791424, 749406786499369600⟩,
    ⟨998186996018780569600, 627342199856194912256, 62137429676137488384, 732412948203336576⟩,
    ⟨945527535207971422208, 695760179699677528064, 125267822747802615808, 744766150087670144⟩,
    ⟨884750635684691574784, 758677255949346406400, 188206559048477179904, 751175793997686784⟩,
    ⟨893734866604762202112, 768789973103735472128, 63218196575745466368, 752676054809846144⟩]
  neg := []

/-- `r13`, `w13` of so3/_delley_grids.npz: 2030 points, precision 77. -/
def delleyRule77 : QuadratureRule where
  pos := [⟨1180591620717411303424, 0, 0, 54968722459854616⟩,
    ⟨681614890024214069248, 681614890024214069248, 681614890024214069248, 640063555127309952⟩,
    ⟨1179829202977655357440, 29996889082657206272, 29996889082657206272, 209970832788939520⟩,
    ⟨1175747000662650912768, 75549868765419814912, 75549868765419814912, 331902721705908672⟩,
    ⟨1166525722271901548544, 128480181713333026816, 128480181713333026816, 418979724948761856⟩,
    ⟨1151097938278663192576, 185432078399039242240, 185432078399039242240, 482898677133199040⟩,
    ⟨1128812045064751415296, 244519878358486024192, 244519878358486024192, 530473595948679040⟩,
    ⟨1099272211622676529152, 304464431142911541248, 304464431142911541248, 565943563765947200⟩,
    ⟨1062250814711768154112, 364293687532702662656, 364293687532702662656, 592115730022307328⟩,
    ⟨1017636895679265898496, 423209004783942828032, 423209004783942828032, 610971201232888448⟩,
    ⟨965403433274776354816, 480516797796621418496, 480516797796621418496, 624004329372818816⟩,
    ⟨905585212846085898240, 535589393650897977344, 535589393650897977344, 632423180358969856⟩,
    ⟨838263454051584180224, 587839670535117799424, 587839670535117799424, 637273290687544192⟩,
    ⟨763556077258085629952, 636701928609615708160, 636701928609615708160, 639514609102170240⟩,
    ⟨722004698479320891392, 722004698479320891392, 592633955874731982848, 639799017789909760⟩,
    ⟨757267879124709408768, 757267879124709408768, 496877543666538577920, 639519031649225472⟩,
    ⟨786757992628695072768, 786757992628695072768, 394740797204819345408, 639826863437943936⟩,
    ⟨809786891224152276992, 809786891224152276992, 286857031482949500928, 640941261403030016⟩,
    ⟨825661577412552556544, 825661577412552556544, 174248368937545400320, 642511783955941376⟩,
    ⟨833780245575155187712, 833780245575155187712, 58460064021789253632, 643688107142826368⟩,
    ⟨1177285119915030347776, 88296779866632192000, 0, 303176223079968576⟩,
    ⟨1160236166168453578752, 218285623949202194432, 0, 451837406407654272⟩,
    ⟨1123978294503300136960, 361205437934725169152, 0, 540650936514627264⟩,
    ⟨1066682717624175165440, 505949162298019938304, 0, 595254763752399744⟩,
    ⟨988407484913843175424, 645637064204383158272, 0, 627213959881659392⟩,
    ⟨890466516540229943296, 775155441075448053760, 0, 642053158425060992⟩,
    ⟨1170466932023372283904, 148034568954100482048, 43468406257097318400, 391489124944485248⟩,
    ⟨1158000983270862487552, 209640193588694614016, 94240579815566016512, 460326080560731712⟩,
    ⟨1139038205792983842816, 272208225865373220864, 149302452837487837184, 512771473799274688⟩,
    ⟨1113055614060789628928, 334875149211931967488, 206790738081300152320, 552447844855088256⟩,
    ⟨1079740274846528045056, 396890670797401161728, 265396513195816157184, 582131781014495488⟩,
    ⟨1038921414030193590272, 457594853285105827840, 324107729967443542016, 603876376252036352⟩,
    ⟨990528623773424287744, 516393055450520092672, 382083541488201236480, 619245941431204096⟩,
    ⟨934564384173482967040, 572737561043602309120, 438585992608551403520, 629496351609391360⟩,
    ⟨871085087267594436608, 626113992495578611712, 492938752837934186496, 635699371963739776⟩,
    ⟨800188078650045890560, 676030064610596618240, 544498820418469298176, 638826060820785920⟩,
    ⟨1144056011357305962496, 287063300246673850368, 50270065017501417472, 502908110632185024⟩,
    ⟨1121255963234297970688, 354425032772020928512, 104711680171041783808, 543654338758266304⟩,
    ⟨1091412382941363830784, 420119957434083770368, 161600763104638042112, 575162382295450624⟩,
    ⟨1054274431684738940928, 483780772676205084672, 219677403464258977792, 598824747787770624⟩,
    ⟨1009713044859839578112, 545000956696141234176, 277939020557255081984, 615922894398233600⟩,
    ⟨957686753999422226432, 603365787007989055488, 335532983759337684992, 627577236931774080⟩,
    ⟨898218012180005650432, 658464975210617896960, 391694847967704973312, 634784482255168512⟩,
    ⟨831376455920671784960, 709896876013924384768, 445708636751205564416, 638467737246812800⟩,
    ⟨1097259199412967964672, 432285046187521998848, 54299751881832611840, 571730407135031232⟩,
    ⟨1063567890404622991360, 500291419270416891904, 111033387829137637376, 596071981916934528⟩,
    ⟨1022710068917899231232, 565069926757108482048, 168987182108069265408, 614215538763030016⟩,
    ⟨974592735911296237568, 626386741388097486848, 227167832736721272832, 626886168423336320⟩,
    ⟨919197489731329851392, 683968226148876681216, 284710406199957454848, 634853672259902464⟩,
    ⟨856560525787822555136, 737523733562541342720, 340821629305157844992, 638900334304586624⟩,
    ⟨1029284771886758363136, 575457609805562118144, 56727176794347667456, 613671086836938880⟩,
    ⟨984926462554999226368, 640746896522979180544, 114716401892799381504, 627026475633469568⟩,
    ⟨933549074201272254464, 701683891578578141184, 172980973708825952256, 635667046649183872⟩,
    ⟨875154129288461549568, 758094954202189398016, 230637952884382957568, 640100189919071616⟩,
    ⟨940853206422959161344, 710790341064081145856, 58042311478848413696, 636450845568798976⟩,
    ⟨886597875987736821760, 770834540854837116928, 116425477569602748416, 641452345229332608⟩]
  neg := []

/-- `r14`, `w14` of so3/_delley_grids.npz: 2354 points, precision 83. -/
def delleyRule83 : QuadratureRule where
  pos := [⟨1180591620717411303424, 0, 0, 46310079004372248⟩,
    ⟨681614890024214069248, 681614890024214069248, 681614890024214069248, 552304702721041088⟩,
    ⟨834804340821297987584, 834804340821297987584, 0, 555330435032324288⟩,
    ⟨1179972330911888834560, 27035839089326792704, 27035839089326792704, 169749268153384480⟩,
    ⟨1176642093077325414400, 68227412770727714816, 68227412770727714816, 271957838363258368⟩,
    ⟨1169050316432124674048, 116442974365379952640, 116442974365379952640, 346280597697526848⟩,
    ⟨1156261223723191631872, 168606876227381821440, 168606876227381821440, 401744230775250112⟩,
    ⟨1137685636628750139392, 223011173617825251328, 223011173617825251328, 443800737510360384⟩,
    ⟨1112950257245318414336, 278512387341876953088, 278512387341876953088, 475853797773191168⟩,
    ⟨1081825818879502319616, 334252503740703637504, 334252503740703637504, 500168434530832000⟩,
    ⟨1044184096047353036800, 389535716250728529920, 389535716250728529920, 518341425936126848⟩,
    ⟨999970383245441630208, 443765595523204513792, 443765595523204513792, 531564147678245504⟩,
    ⟨949184826802926649344, 496409477888598540288, 496409477888598540288, 540779168346604544⟩,
    ⟨891869203583927844864, 546976187144712028160, 546976187144712028160, 546778213483759424⟩,
    ⟨828097584104134017024, 595000405928038236160, 595000405928038236160, 550265366749582784⟩,
    ⟨757970662311863517184, 640030096941807435776, 640030096941807435776, 551897281338393600⟩,
    ⟨719294361607417233408, 719294361607417233408, 599189300328135131136, 552093625058122240⟩,
    ⟨752586333937614716928, 752586333937614716928, 510905269936459087872, 551818734737433216⟩,
    ⟨780977468946537119744, 780977468946537119744, 417067094007529340928, 551918146116656000⟩,
    ⟨803922363118391132160, 803922363118391132160, 318141859968862584832, 552605302409939136⟩,
    ⟨820862995259349532672, 820862995259349532672, 214859165352242315264, 553750573881850496⟩,
    ⟨831283543399338868736, 831283543399338868736, 108313968882332418048, 554863549416313088⟩,
    ⟨1177903778665182265344, 79619489538989932544, 0, 247917426102031552⟩,
    ⟨1163838323766526869504, 198184083721385181184, 0, 374515437799182912⟩,
    ⟨1133589466336819150848, 329805240586576527360, 0, 452408772405879424⟩,
    ⟨1085333586360550293504, 464593996114790514688, 0, 502010439137070400⟩,
    ⟨1018809783947706630144, 596509177666690351104, 0, 532896385953667392⟩,
    ⟨934783265443186081792, 721094183554088697856, 0, 549895666303496384⟩,
    ⟨1172301749798508167168, 134006716447457918976, 39336780174417682432, 322698521867750976⟩,
    ⟨1161989149975336189952, 190413682410772561920, 85559451836305178624, 381978691496165568⟩,
    ⟨1146211917850083983360, 248017099804443541504, 135949742519759880192, 427953686779682560⟩,
    ⟨1124489207663363489792, 306042641890490646528, 188834578669992902656, 463445971427396416⟩,
    ⟨1096518788153890570240, 363827708391960608768, 243048391765799403520, 490669199419990080⟩,
    ⟨1062120784954149830656, 420797064993987362816, 297700929069747011584, 511272318114809856⟩,
    ⟨1021202674183292321792, 476438053717067563008, 352063139393133543424, 526505815432277696⟩,
    ⟨973736189733373607936, 530282937745678073856, 405505133934835269632, 537357256197767744⟩,
    ⟨919741282914335850496, 581896465644532334592, 457459343200745226240, 544647227443075712⟩,
    ⟨859274669484689588224, 630866462666025730048, 507396416594951536640, 549095478912162496⟩,
    ⟨792422044567513989120, 676795776966382452736, 554807493165039681536, 551365746897977472⟩,
    ⟨1150380817846997483520, 261398519431411630080, 45731421111780704256, 419057557081783040⟩,
    ⟨1131325613325232635904, 323694197922022293504, 95503914967233970176, 455248908292029312⟩,
    ⟨1106277264741303582720, 384848954189595934720, 147778452028156149760, 483879978818152000⟩,
    ⟨1074987690777752895488, 444544826860957073408, 201439659689049161728, 506040363384127488⟩,
    ⟨1037313964982446325760, 502433062176136298496, 255611680079120629760, 522742617432637696⟩,
    ⟨993189836710159450112, 558159529966787559424, 309561726108163112960, 534863906554558016⟩,
    ⟨942605964557965197312, 611374907269608767488, 362644858296638832640, 543167239316590784⟩,
    ⟨885595748858367705088, 661738272432826220544, 414269481509040947200, 548337473177840000⟩,
    ⟨822225170462858412032, 708917325921884438528, 463873440685336035328, 551014511400260352⟩,
    ⟨1111148291023861579776, 395833792040245592064, 49615112032074334208, 480425292925309312⟩,
    ⟨1082741510071517577216, 459482909422908604416, 101699819195871526912, 502984309374225856⟩,
    ⟨1048170469907496697856, 520626214108567240704, 155188872362169794560, 520484890501604864⟩,
    ⟨1007324660824317624320, 579067564548928176128, 209223225982944346112, 533479616134926592⟩,
    ⟨960159659130916044800, 634574623831701192704, 263068528476178546688, 542548538433111616⟩,
    ⟨906680591837474586624, 686898393684700954624, 316065619843076784128, 548265423366300864⟩,
    ⟨846929719239069270016, 735784231103097470976, 367597865660042838016, 551197861521347328⟩,
    ⟨1053641572147284410368, 530024879084686016512, 52054201582839193600, 519524280372628800⟩,
    ⟨1015921851484456878080, 592082857247757303808, 105533202064037019648, 532979608978353984⟩,
    ⟨972095059182063058944, 650659524919045914624, 159593087112527511552, 542623358659938368⟩,
    ⟨922136602575955165184, 705606603524908646400, 213494688832957349888, 548816788280862208⟩,
    ⟨866063237688217042944, 756754079019895095296, 266560137904970825728, 551985850410370240⟩,
    ⟨978143857192391540736, 658914431713586315264, 53506459652229906432, 542894404681868992⟩,
    ⟨931595723943502151680, 717174698322321211392, 107640299723819565056, 549555595238791360⟩,
    ⟨879159944935435141120, 771194622187214864384, 161657727433010806784, 553072911117667584⟩,
    ⟨885824955695300476928, 778572016103710654464, 54187992357959368704, 553868129252178624⟩]
  neg := []

/-- `r15`, `w15` of so3/_delley_grids.npz: 2702 points, precision 89. -/
def delleyRule89 : QuadratureRule where
  pos := [⟨1180591620717411303424, 0, 0, 35402107552114904⟩,
    ⟨681614890024214069248, 681614890024214069248, 681614890024214069248, 481428797157648192⟩,
    ⟨1180087808064551780352, 24385858253971435520, 24385858253971435520, 139941332431404912⟩,
    ⟨1177331976796055666688, 61991899961429991424, 61991899961429991424, 225895421143671072⟩,
    ⟨1171003746076990504960, 106176272259434430464, 106176272259434430464, 289585733962421568⟩,
    ⟨1160279552785005805568, 154188090164563345408, 154188090164563345408, 337933511626358976⟩,
    ⟨1144625639772628451328, 204485598127673606144, 204485598127673606144, 375195825446826752⟩,
    ⟨1123692820636895543296, 256038102396168437760, 256038102396168437760, 404110097337929984⟩,
    ⟨1097256384166358417408, 308078725583520989184, 308078725583520989184, 426523021559782656⟩,
    ⟨1065179675500347654144, 359992245617275895808, 359992245617275895808, 443741679943186944⟩,
    ⟨1027390663517329424384, 411257218432446103552, 411257218432446103552, 456736873270464384⟩,
    ⟨983866024002948825088, 461413167194431553536, 461413167194431553536, 466266388573456640⟩,
    ⟨934619812694357180416, 510040381061798232064, 510040381061798232064, 472953043978634624⟩,
    ⟨879695195281044930560, 556746323879919288320, 556746323879919288320, 477335877285403456⟩,
    ⟨819158595981985447936, 601155458070949527552, 601155458070949527552, 479904295220724160⟩,
    ⟨753096366606940766208, 642900628990043881472, 642900628990043881472, 481120083111674048⟩,
    ⟨716923210192274849792, 716923210192274849792, 604846093054564237312, 481259147487414336⟩,
    ⟨748434228716316000256, 748434228716316000256, 522961743801389744128, 481006184642349504⟩,
    ⟨775733491688401272832, 775733491688401272832, 436201415236133847040, 480992359177863104⟩,
    ⟨798381851852620038144, 798381851852620038144, 344919428523425136640, 481403681909794112⟩,
    ⟨815925958881135165440, 815925958881135165440, 249652226419001098240, 482214719748824192⟩,
    ⟨827930239832162172928, 827930239832162172928, 151193951106123202560, 483153397101021056⟩,
    ⟨834035948106876190720, 834035948106876190720, 50642368024137261056, 483791415732335488⟩,
    ⟨1178376054944046120960, 72294177100720521216, 0, 205303325848426656⟩,
    ⟨1166635379456225312768, 180993000718793441280, 0, 313992041738337280⟩,
    ⟨1141128393774635679744, 302692193208685035520, 0, 382582049337760384⟩,
    ⟨1100092480548117282816, 428477664703370821632, 0, 427515361258523776⟩,
    ⟨1043075330931555172352, 552983208524626591744, 0, 456751811520622912⟩,
    ⟨970478671517776084992, 672285447587002580992, 0, 474469327990205568⟩,
    ⟨883346614238574149632, 783259429577079259136, 0, 482853641790554048⟩,
    ⟨1173717358485162164224, 122068282810477854720, 35825572297986875392, 269163972322073568⟩,
    ⟨1165086920179269632000, 173962703244411961344, 78141034132170604544, 320554885070335360⟩,
    ⟨1151813852417683488768, 227211015220187004928, 124485255550649614336, 361015224569052480⟩,
    ⟨1133457675942464061440, 281110005296578428928, 173341964559738535936, 392772567258087168⟩,
    ⟨1109730926077694705664, 335066270696632680448, 223661442489215746048, 417614772053021568⟩,
    ⟨1080452108852476248064, 388570851233402847232, 274649793293476659200, 436885898332373440⟩,
    ⟨1045516082083636707328, 441174926058637819904, 325664523136619118592, 451605263406676928⟩,
    ⟨1004874432984693080064, 492472701833126346752, 376157662145856405504, 462570574641647040⟩,
    ⟨958521823120417619968, 542089655442691915776, 425642214743907041280, 470432753867987008⟩,
    ⟨906486110610319605760, 589674090944053313536, 473670742866860703744, 475748436516056896⟩,
    ⟨848821162413186088960, 634890513748878688256, 519820396578834284544, 479016624478302144⟩,
    ⟨785602066060609191936, 677413771046460325888, 563681249915304607744, 480703765693358080⟩,
    ⟨1155318243898363609088, 239344123843477372928, 41841613321708412928, 353024868791364224⟩,
    ⟨1139223130715704000512, 297148107797467365376, 87579880011670536192, 385221347621706944⟩,
    ⟨1117983334309639094272, 354204403144242495488, 135827390121789030400, 411156923651145728⟩,
    ⟨1091358776707030712320, 410232766306210611200, 185584678412446859264, 431694740275916416⟩,
    ⟨1059200693080756453376, 464929161625267077120, 236074863879735345152, 447649702421297088⟩,
    ⟨1021427587164539322368, 517986886422549102592, 286656317881996967936, 459726444264017408⟩,
    ⟨978008516601657163776, 569104658290293407744, 336772629937586241536, 468529619582424384⟩,
    ⟨928951075979161370624, 617989394089478324224, 385921730585674448896, 474589726934573056⟩,
    ⟨874292551475934003200, 664356524203281219584, 433635236218645381120, 478388569702478784⟩,
    ⟨814093560885502672896, 707928850535809024000, 479463232805159501824, 480380205649701312⟩,
    ⟨1122090832562754289664, 364186630967711236096, 45572318474893434880, 407808853541873472⟩,
    ⟨1097907701617899995136, 423831007702516105216, 93608389293556039680, 428550453530128704⟩,
    ⟨1068382295150084227072, 481519453181018636288, 143160268672055558144, 445105145686613888⟩,
    ⟨1033394819292662857728, 537085041808170156032, 193471910708414644224, 457905282936995776⟩,
    ⟨992883870875967684608, 590328691365068144640, 243906191011472146432, 467403928389654976⟩,
    ⟨946832572624509599744, 641035872633894469632, 293900772918204366848, 474041415800804864⟩,
    ⟨895258101152420986880, 688986168650133667840, 342939596194337193984, 478241938373920896⟩,
    ⟨838203780113021796352, 733958504636348760064, 390532855704074846208, 480420531248851392⟩,
    ⟨1072995434534774636544, 490075938151532855296, 47989032294775554048, 443916730305637248⟩,
    ⟨1040645169179893825536, 548951996505188007936, 97498268208631693312, 457003423180409408⟩,
    ⟨1002949827072395313152, 605017286945167769600, 147791413083186102272, 466957962303038912⟩,
    ⟨959866686401331855360, 658145721329604624384, 198234025183936708608, 474050262663177920⟩,
    ⟨911391046264667373568, 708189374773670838272, 248255403071989448704, 478592597827541824⟩,
    ⟨857547279983976120320, 754989185396664434688, 297322329188927668224, 480923284803008640⟩,
    ⟨1008034442022434373632, 612544794339451863040, 49517810253705256960, 466880112757187520⟩,
    ⟨967808825610274471936, 668709608794266533888, 99850443590623379456, 474319862275833408⟩,
    ⟨922374055124214611968, 721396301417852567552, 150366397983455739904, 479205721785538880⟩,
    ⟨871736534802763612160, 770504892779827953664, 200484909658008879104, 481748180246380992⟩,
    ⟨927942627247612231680, 728136007031364648960, 50368747347769753600, 479676589539418688⟩,
    ⟨880420724441200197632, 780039954735283568640, 100963319572867203072, 482530379254845504⟩]
  neg := []

/-- `r16`, `w16` of so3/_delley_grids.npz: 3074 points, precision 95. -/
def delleyRule95 : QuadratureRule where
  pos := [⟨1180591620717411303424, 0, 0, 30684709044433672⟩,
    ⟨681614890024214069248, 681614890024214069248, 681614890024214069248, 423368180191439488⟩,
    ⟨834804340821297987584, 834804340821297987584, 0, 425382991460636864⟩,
    ⟨1180171561693996515328, 22267239129685651456, 22267239129685651456, 116070201357046048⟩,
    ⟨1177868150054065668096, 56670962566278529024, 56670962566278529024, 189487683230884064⟩,
    ⟨1172538642426084589568, 97338858956119343104, 97338858956119343104, 244642211165603328⟩,
    ⟨1163455159659841060864, 141719205418774642688, 141719205418774642688, 287036959624222400⟩,
    ⟨1150135081620381499392, 188395685903688237056, 188395685903688237056, 320155086444654144⟩,
    ⟨1132253829476456464384, 236429524958351228928, 236429524958351228928, 346239428800002496⟩,
    ⟨1109594831927609524224, 285127939588269735936, 285127939588269735936, 366813655155796416⟩,
    ⟨1082018650290535268352, 333940275597008830464, 333940275597008830464, 382961261357799488⟩,
    ⟨1049442884947376078848, 382404371144925773824, 382404371144925773824, 395486279752504960⟩,
    ⟨1011828469645685424128, 430116102304153600000, 430116102304153600000, 405011481504422784⟩,
    ⟨969169904485748441088, 476710746232581324800, 476710746232581324800, 412041127869199744⟩,
    ⟨921488052871523467264, 521850717793514422272, 521850717793514422272, 417002545179805888⟩,
    ⟨868824785454083735552, 565216802248849227776, 565216802248849227776, 420274403800029952⟩,
    ⟨811239230269097639936, 606501230905826738176, 606501230905826738176, 422206046310703872⟩,
    ⟨748805826790842695680, 645401583772555673600, 645401583772555673600, 423130002758919232⟩,
    ⟨714831629683433799680, 714831629683433799680, 609777055419778990080, 423230712924906688⟩,
    ⟨744729791469458817024, 744729791469458817024, 533433829358315765760, 423005018949384832⟩,
    ⟨770969919334082805760, 770969919334082805760, 452777364575747899392, 422931740680874368⟩,
    ⟨793193410762812293120, 793193410762812293120, 368082872670105436160, 423165786259107328⟩,
    ⟨811028251281418616832, 811028251281418616832, 279755118192629678080, 423728519433877696⟩,
    ⟨824108094008418631680, 824108094008418631680, 188383315842424799232, 424475307151441728⟩,
    ⟨832109511689923067904, 832109511689923067904, 94784471399483457536, 425124379020168320⟩,
    ⟨1178744884626989383680, 66008119757113098240, 0, 171946923843185216⟩,
    ⟨1168840976687666167808, 166154585022462459904, 0, 265912937104153120⟩,
    ⟨1147127705912135122944, 279096043033443762176, 0, 326567632633590400⟩,
    ⟨1111928980381952770048, 396749943282812321792, 0, 367250117198443840⟩,
    ⟨1062681429166773764096, 514300257643555127296, 0, 394613541673708672⟩,
    ⟨999542852782455128064, 628260026071749361664, 0, 412260449294952896⟩,
    ⟨923206460921169575936, 735857598602863575040, 0, 422179989094961024⟩,
    ⟨1174828077935991455744, 111800492738039611392, 32805670621395800064, 226900418929224416⟩,
    ⟨1167530999004348284928, 159754151825440833536, 71739474814124638208, 271708228582598112⟩,
    ⟨1156254675435877826560, 209162995072277250048, 114553663988679966720, 307455401583219968⟩,
    ⟨1140596183210289135616, 259383849394955943936, 159865382204338700288, 335910832641610880⟩,
    ⟨1120284549549317947392, 309879747403367710720, 206721177189156880384, 358530433534965632⟩,
    ⟨1095141149210763591680, 360194905180998270976, 254405323244509921280, 376421583438220672⟩,
    ⟨1065054443002595377152, 409931236848755605504, 302344157218631778304, 390427128654445568⟩,
    ⟨1029963129574998671360, 458731886595646554112, 350053685660695855104, 401204106646290432⟩,
    ⟨989844400391243169792, 506270008736191283200, 397108695669738569728, 409282532744805504⟩,
    ⟨944705416786914705408, 552240911816455880704, 443123262442579361792, 415107338460405184⟩,
    ⟨894576968482166800384, 596356210927509962752, 487737523733414805504, 419068136080755584⟩,
    ⟨839508827637574795264, 638339059104768589824, 530607904999527415808, 421520317599814016⟩,
    ⟨779566761164715065344, 677919807156274069504, 571399137959202914304, 422799586498367616⟩,
    ⟨1159230579596728205312, 220228390556943286272, 38477191018784768000, 300282455146308352⟩,
    ⟨1145507482453672984576, 274037327734850682880, 80701459458637824000, 328996771656172224⟩,
    ⟨1127332956870970048512, 327396844657957666816, 125412460978694930432, 352471810070847424⟩,
    ⟨1104477742205703421952, 380056077236718141440, 171705765878124544000, 371398531704289344⟩,
    ⟨1076792297951959711744, 431746203710077992960, 218883844907379687424, 386441952780956672⟩,
    ⟨1044186326222723088384, 482198100038886752256, 266376581847099441152, 398178786654792448⟩,
    ⟨1006614472121252184064, 531148754052032626688, 313695521952721338368, 407100390726153472⟩,
    ⟨964066032835333324800, 578343281357107101696, 360405754879691128832, 413631228207315200⟩,
    ⟨916557327377178558464, 623535065476107993088, 406107452112212852736, 418148409001593344⟩,
    ⟨864125982624065781760, 666484935221665988608, 450422792701177823232, 420998442795971584⟩,
    ⟨806826860165721096192, 706959660963701194752, 492985831838377050112, 422510374585045824⟩,
    ⟨1130832910440505802752, 336518837161104506880, 42054438630863437824, 349295101501255232⟩,
    ⟨1110067365892072013824, 392501784470698131456, 86541130550265970688, 368291238166001280⟩,
    ⟨1084640016737321222144, 446954081933683785728, 132607155323705671680, 383780257372920064⟩,
    ⟨1054427192186431864832, 499731567973033771008, 179577925306020102144, 396106600907450624⟩,
    ⟨1019356880988567633920, 550661820883029590016, 226891346488157863936, 405633284949162816⟩,
    ⟨979396938917677498368, 599558554386556387328, 274057933307448164352, 412709664122777728⟩,
    ⟨934546178805000568832, 646229858466274607104, 320635282861688160256, 417665902725799808⟩,
    ⟨884827552899458007040, 690482838096199286784, 366210631785504833536, 420817139047046848⟩,
    ⟨830283000754176393216, 732125981838943584256, 410387938764246810624, 422470468572118528⟩,
    ⟨1088573365525783904256, 454786463487039242240, 44428317602447335424, 382482024263403200⟩,
    ⟨1060612040532169588736, 510608834649609338880, 90428382514116509696, 394965956757510528⟩,
    ⟨1027946305683790757888, 564144080253807362048, 137347822166193029120, 404839763130521216⟩,
    ⟨990521349263552020480, 615284648596358430720, 184631613660640772096, 412312219308384192⟩,
    ⟨948316876446711021568, 663902097679017181184, 231788009724226502656, 417622367784147328⟩,
    ⟨901339569603822223360, 709856471126627713024, 278365489193993961472, 421023664335515776⟩,
    ⟨849617076212745371648, 753002492649819996160, 323936173927870758912, 422779814354098752⟩,
    ⟨1032273729453348225024, 571044665487181545472, 45994699773695787008, 404532330023141952⟩,
    ⟨997276392195045851136, 624980714132064174080, 92927280394790780928, 412244739881769792⟩,
    ⟨957651540365237813248, 676039966528109674496, 140250011767998529536, 417848945156661632⟩,
    ⟨913390074112751566848, 724134615548501295104, 187467879875168010240, 421498532026620416⟩,
    ⟨864505412855614930944, 769165533995375525888, 234118233730556723200, 423384632991737152⟩,
    ⟨962370674244713447424, 682227619928704942080, 46954604336039895040, 418070656713294272⟩,
    ⟨920736571545833963520, 732899978473024520192, 94331131024851484672, 421978498376033088⟩,
    ⟨874642554420484505600, 780216187867212808192, 141632189473042759680, 424067716782751936⟩,
    ⟨879781459497840279552, 785832842874145472512, 47412039529558925312, 424523632323647040⟩]
  neg := []

/-- `r17`, `w17` of so3/_delley_grids.npz: 3470 points, precision 101. -/
def delleyRule101 : QuadratureRule where
  pos := [⟨1180591620717411303424, 0, 0, 24088587550700744⟩,
    ⟨681614890024214069248, 681614890024214069248, 681614890024214069248, 375209690979751744⟩,
    ⟨1180241725370599735296, 20322950110574858240, 20322950110574858240, 97848792717478704⟩,
    ⟨1178294530492801482752, 52050813244908126208, 52050813244908126208, 160664729386775904⟩,
    ⟨1173762312877870678016, 89662165308884598784, 89662165308884598784, 208593356406029920⟩,
    ⟨1165998961423476457472, 130849143802200784896, 130849143802200784896, 245935316681930528⟩,
    ⟨1154566664961302462464, 174316366225749639168, 174316366225749639168, 275465027921357760⟩,
    ⟨1139164432616858320896, 219204208865700478976, 219204208865700478976, 299021371971477120⟩,
    ⟨1119585678441956507648, 264881561774152122368, 264881561774152122368, 317871009969439936⟩,
    ⟨1095691745452828524544, 310850586178229633024, 310850586178229633024, 332920927804862080⟩,
    ⟨1067394542870709665792, 356696975567492481024, 356696975567492481024, 344845333754896704⟩,
    ⟨1034644647799239213056, 402061579666941214720, 402061579666941214720, 354164474082459840⟩,
    ⟨997422812391875543040, 446623055959074537472, 446623055959074537472, 361295523440616064⟩,
    ⟨955733682192552820736, 490086575836774203392, 490086575836774203392, 366586586458951616⟩,
    ⟨909601043354921467904, 532175965652246528000, 532175965652246528000, 370340067375033984⟩,
    ⟨859064258601091989504, 572627791197004365824, 572627791197004365824, 372829021904212480⟩,
    ⟨804175825867344183296, 611186475635193937920, 611186475635193937920, 374308523499919296⟩,
    ⟨745000267878459637760, 647599867112859762688, 647599867112859762688, 375023006593871040⟩,
    ⟨712973120882653790208, 712973120882653790208, 614113371215658745856, 375097382162772928⟩,
    ⟨741406420603815591936, 741406420603815591936, 542613687519067439104, 374899170414602880⟩,
    ⟨766633244978061115392, 766633244978061115392, 467272415510460301312, 374797103574962304⟩,
    ⟨788357069149484875776, 788357069149484875776, 388307658889485025280, 374917696621101696⟩,
    ⟨806269531103053742080, 806269531103053742080, 306031797919575244800, 375301034999883904⟩,
    ⟨820062057881049628672, 820062057881049628672, 220891415306163322880, 375875377439840768⟩,
    ⟨829449617613012729856, 829449617613012729856, 133503702538236018688, 376461761287481920⟩,
    ⟨834206602003490799616, 834206602003490799616, 44668392132949196800, 376835033355031488⟩,
    ⟨1179035582379170463744, 60594309897666199552, 0, 145422868819611232⟩,
    ⟨1170604129341206822912, 153240162090357817344, 0, 227223909067382336⟩,
    ⟨1151963002631901544448, 258414038851331620864, 0, 281084918257450496⟩,
    ⟨1121535811681298284544, 368719402831658942464, 0, 317945207653103168⟩,
    ⟨1078698999981816020992, 479796876132383784960, 0, 343395542317801920⟩,
    ⟨1023445538952022458368, 588520011305790865408, 0, 360542601002824256⟩,
    ⟨956221403653252448256, 692414039504953671680, 0, 371168169353853376⟩,
    ⟨877838642654030200832, 789427572593897897984, 0, 376259536820417664⟩,
    ⟨1175711401878050570240, 102897281730167078912, 30189796532198535168, 193052648208128832⟩,
    ⟨1169485497160453849088, 147383065461704097792, 66170075220155203584, 232353407748281440⟩,
    ⟨1159821754861546897408, 193388309001821028352, 105882169412333109248, 264069343406360416⟩,
    ⟨1146351761349971935232, 240319601495033970688, 148056419297674723328, 289621164674799040⟩,
    ⟨1128821554340042244096, 287686445160460386304, 191820183078924877824, 310206562814100864⟩,
    ⟨1107058062047410257920, 335076400153500254208, 236522363052984139776, 326747013693352960⟩,
    ⟨1080947428773870960640, 382132420316104622080, 281645245794557984768, 339947464511248512⟩,
    ⟨1050420449355517132800, 428536996890974552064, 326756020265246720000, 350357082158191744⟩,
    ⟨1015442379962142949376, 474001406321529978880, 371478148334723399680, 358415890964026240⟩,
    ⟨976005533347314794496, 518258279502590902272, 415473380026448674816, 364488565327484544⟩,
    ⟨932123729516244369408, 561056232709636161536, 458429745455682420736, 368888701317787328⟩,
    ⟨883828089998947909632, 602155717189916295168, 500052971686473564160, 371896312231761344⟩,
    ⟨831163966540031197184, 641325512373956640768, 540059832622171422720, 373770395692518720⟩,
    ⟨774189064733183180800, 678339455826081611776, 578172508534692118528, 374757611406627136⟩,
    ⟨1162371737821443129344, 203531803949442695168, 35543252569338826752, 257627394174721728⟩,
    ⟨1150572601323248943104, 253774456449714421760, 74684598452880048128, 283309869078916352⟩,
    ⟨1134894382498311307264, 303796456748082855936, 116271356529675190272, 304568569838657408⟩,
    ⟨1115119958071686463488, 353370404414680203264, 159478560634868858880, 321960799926804672⟩,
    ⟨1091102170057572876288, 402255663866763673600, 203673784005032083456, 336035058082199552⟩,
    ⟨1062746252010995318784, 450213299358043734016, 248344445933244710912, 347269974749662848⟩,
    ⟨1029997489363382697984, 497011139657527656448, 293055752152415174656, 356072275808489152⟩,
    ⟨992832321137260494848, 542425145903670624256, 337424833266233114624, 362789869760883328⟩,
    ⟨951251727772565504000, 586239317169692278784, 381103907513798230016, 367726916996928704⟩,
    ⟨905276209671251034112, 628244942870437429248, 423768628934631751680, 371157188614337216⟩,
    ⟨854941993669399281664, 668239465410408742912, 465109427163939471360, 373334918660742848⟩,
    ⟨800298379986399133696, 706024994110286987264, 504824509697061224448, 374503102157070912⟩,
    ⟨1137903913947468529664, 312173907865342312448, 38970614304587702272, 301591031051179200⟩,
    ⟨1119934551537028169728, 364816239257259278336, 80326127479853563904, 318960918567971392⟩,
    ⟨1097871600244967735296, 416261385183078842368, 123292268570183057408, 333362878341637504⟩,
    ⟨1071591040607012651008, 466383039545215614976, 167260506466737815552, 345074943387858816⟩,
    ⟨1041014680688232366080, 515030221382928039936, 211728317808444735488, 354393423761496768⟩,
    ⟨1006100021639168393216, 562039744448876183552, 256262847532900581376, 361602328985131776⟩,
    ⟨966832594992737681408, 607243326152209465344, 300477704682683498496, 366966632093892864⟩,
    ⟨923220077286999982080, 650471630979124822016, 344017326734725414912, 370734474542047040⟩,
    ⟨875287736464484859904, 691556455899087634432, 386545756162625110016, 373142277549237760⟩,
    ⟨823075007549746577408, 730331675698933137408, 427737945856966262784, 374420250414901888⟩,
    ⟨1101257689302580592640, 423465767321585582080, 41289472833222000640, 332028219816985152⟩,
    ⟨1076918902660768595968, 476400194714970619904, 84173074528783007744, 343804513121701376⟩,
    ⟨1048417756574996627456, 527461809698787622912, 128065693750103146496, 353379554621216000⟩,
    ⟨1015691740172516196352, 576558251062027878400, 172474482129343774720, 360918869672492672⟩,
    ⟨978709521171750322176, 623577673755923054592, 216968045732727488512, 366611397622427776⟩,
    ⟨937464511201395998720, 668396985678241333248, 261155767086106148864, 370654473902724288⟩,
    ⟨891969704618307878912, 710887353502633295872, 304673253800386101248, 373249118237332544⟩,
    ⟨842253585620677951488, 750917754052896751616, 347171426049766522880, 374600063775404096⟩,
    ⟨1052139567965202284544, 533817613558507307008, 42867935393035763712, 352926098871563584⟩,
    ⟨1021499792652930646016, 585498553230661779456, 86753632102556237824, 360618308160169280⟩,
    ⟨986732629112869093376, 634782368438854746112, 131174076216786386944, 366545949702659520⟩,
    ⟨947817474731479793664, 681592669914228850688, 175698724585574531072, 370825696468995200⟩,
    ⟨904754889531041644544, 725841098094763966464, 219931500914316214272, 373600652892883072⟩,
    ⟨857562135321480396800, 767432658188064129024, 263497389204198359040, 375032909429259072⟩,
    ⟨990779340497368514560, 640488834146666020864, 43896773061445599232, 366585168981828480⟩,
    ⟨954109564947639304192, 689685162288505290752, 88350947378444517376, 371061613137810944⟩,
    ⟨913426309129288679424, 736055451805195042816, 132933534393918865408, 374031833892293184⟩,
    ⟨868736899466107944960, 779536920405821882368, 177242670196498300928, 375593638462782528⟩,
    ⟨917810816472871075840, 741243181711811411968, 44479496841987719168, 374325894811282368⟩,
    ⟨875548830413170933760, 786936533327480487936, 89116289110462758912, 376071315165637760⟩]
  neg := []

/-- The grids of so3/_delley_grids.npz, in the order of the file. -/
def delleyRules : List QuadratureRule :=
  [delleyRule5,
    delleyRule7,
    delleyRule11,
    delleyRule17,
    delleyRule23,
    delleyRule29,
    delleyRule35,
    delleyRule41,
    delleyRule47,
    delleyRule53,
    delleyRule59,
    delleyRule65,
    delleyRule71,
    delleyRule77,
    delleyRule83,
    delleyRule89,
    delleyRule95,
    delleyRule101]

end E3x
