/-!
# Approximations of the roots to 100 bits

`rootHP` lists for k = 0, ..., 1023 the numbers 2^100 cos t, 2^100 sin t for t = π rev(k)/1024, rounded. Their
accuracy is proved in `Verif.Proofs.RootTable`.
-/

namespace Falcon

/-- Roots to 100 bits, entries 0 to 63. -/
def rootHP0 : List (Int × Int) := [
  (1267650600228229401496703205376, 0),
  (0, 1267650600228229401496703205376),
  (896364335596578238699711011639, 896364335596578238699711011639),
  (-896364335596578238699711011639, 896364335596578238699711011639),
  (1171156443926508635938050024219, 485108882735005078916833875245),
  (-485108882735005078916833875245, 1171156443926508635938050024219),
  (485108882735005078916833875245, 1171156443926508635938050024219),
  (-1171156443926508635938050024219, 485108882735005078916833875245),
  (1243293049398167358316279903776, 247306363802463555846379077689),
  (-247306363802463555846379077689, 1243293049398167358316279903776),
  (704268939356236033728032079564, 1054012953106854663288574085998),
  (-1054012953106854663288574085998, 704268939356236033728032079564),
  (1054012953106854663288574085998, 704268939356236033728032079564),
  (-704268939356236033728032079564, 1054012953106854663288574085998),
  (247306363802463555846379077689, 1243293049398167358316279903776),
  (-1243293049398167358316279903776, 247306363802463555846379077689),
  (1261546516103976800713454972892, 124251486771422088128137189651),
  (-124251486771422088128137189651, 1261546516103976800713454972892),
  (804189027450802913557958000355, 979907165187969239135794912665),
  (-979907165187969239135794912665, 804189027450802913557958000355),
  (1117968020105231224757834908531, 597566356383104609904390262554),
  (-597566356383104609904390262554, 1117968020105231224757834908531),
  (367979545358677071164889447327, 1213065990973537927053399410672),
  (-1213065990973537927053399410672, 367979545358677071164889447327),
  (1213065990973537927053399410672, 367979545358677071164889447327),
  (-367979545358677071164889447327, 1213065990973537927053399410672),
  (597566356383104609904390262554, 1117968020105231224757834908531),
  (-1117968020105231224757834908531, 597566356383104609904390262554),
  (979907165187969239135794912665, 804189027450802913557958000355),
  (-804189027450802913557958000355, 979907165187969239135794912665),
  (124251486771422088128137189651, 1261546516103976800713454972892),
  (-1261546516103976800713454972892, 124251486771422088128137189651),
  (1266123659563714995915648986539, 62200666812954728165683991883),
  (-62200666812954728165683991883, 1266123659563714995915648986539),
  (851302112200465282098285881353, 939267138795995936782296490229),
  (-939267138795995936782296490229, 851302112200465282098285881353),
  (1145942570027825748680237028650, 541990470817533798115690531745),
  (-541990470817533798115690531745, 1145942570027825748680237028650),
  (427058624863447952198280718796, 1193548899370583438046578334518),
  (-1193548899370583438046578334518, 427058624863447952198280718796),
  (1229660700352205261300523887434, 308013970897935633086146900271),
  (-308013970897935633086146900271, 1229660700352205261300523887434),
  (651702652255517399264563655039, 1087300187299769776881815741221),
  (-1087300187299769776881815741221, 651702652255517399264563655039),
  (1018186509389273982490851351991, 755138580895371919042305360987),
  (-755138580895371919042305360987, 1018186509389273982490851351991),
  (186002974015112206073666872964, 1253930196588519742708457920850),
  (-1253930196588519742708457920850, 186002974015112206073666872964),
  (1253930196588519742708457920850, 186002974015112206073666872964),
  (-186002974015112206073666872964, 1253930196588519742708457920850),
  (755138580895371919042305360987, 1018186509389273982490851351991),
  (-1018186509389273982490851351991, 755138580895371919042305360987),
  (1087300187299769776881815741221, 651702652255517399264563655039),
  (-651702652255517399264563655039, 1087300187299769776881815741221),
  (308013970897935633086146900271, 1229660700352205261300523887434),
  (-1229660700352205261300523887434, 308013970897935633086146900271),
  (1193548899370583438046578334518, 427058624863447952198280718796),
  (-427058624863447952198280718796, 1193548899370583438046578334518),
  (541990470817533798115690531745, 1145942570027825748680237028650),
  (-1145942570027825748680237028650, 541990470817533798115690531745),
  (939267138795995936782296490229, 851302112200465282098285881353),
  (-851302112200465282098285881353, 939267138795995936782296490229),
  (62200666812954728165683991883, 1266123659563714995915648986539),
  (-1266123659563714995915648986539, 62200666812954728165683991883)]

/-- Roots to 100 bits, entries 64 to 127. -/
def rootHP1 : List (Int × Int) := [
  (1267268807567695160420278293046, 31109703067407905568579188454),
  (-31109703067407905568579188454, 1267268807567695160420278293046),
  (874096485417643155063604838614, 918092249416971291488845445923),
  (-918092249416971291488845445923, 874096485417643155063604838614),
  (1158898545552083601853133380426, 513704394935701795408155280878),
  (-513704394935701795408155280878, 1158898545552083601853133380426),
  (456221159082738276577665055156, 1182708881451472439929805218043),
  (-1182708881451472439929805218043, 456221159082738276577665055156),
  (1236849390787302645680099221645, 277743818595605437485807666872),
  (-277743818595605437485807666872, 1236849390787302645680099221645),
  (678190053970552897944368752694, 1070979129093750744791035928582),
  (-1070979129093750744791035928582, 678190053970552897944368752694),
  (1036411879129089856403060728335, 729923599467162805102006376722),
  (-729923599467162805102006376722, 1036411879129089856403060728335),
  (216719940903147635331116551917, 1248987794765796128933042163709),
  (-1248987794765796128933042163709, 216719940903147635331116551917),
  (1258117277748288498568615024986, 155173965890629248694126269277),
  (-155173965890629248694126269277, 1258117277748288498568615024986),
  (779898695078899906755139179849, 999347822168647837348959240638),
  (-999347822168647837348959240638, 779898695078899906755139179849),
  (1102966296529732128312238188320, 624822689231494931623924982921),
  (-624822689231494931623924982921, 1102966296529732128312238188320),
  (338098587101581117374312658859, 1221731308291190858942357042589),
  (-1221731308291190858942357042589, 338098587101581117374312658859),
  (1203669968062381535353930956228, 397638846497290415590154631717),
  (-397638846497290415590154631717, 1203669968062381535353930956228),
  (569950071906074373985853141216, 1132296321548935760805419834086),
  (-1132296321548935760805419834086, 569950071906074373985853141216),
  (959876248772070362470949524940, 827994946423134134278638987098),
  (-827994946423134134278638987098, 959876248772070362470949524940),
  (93254163202646165559299467283, 1264215846010626663744570680127),
  (-1264215846010626663744570680127, 93254163202646165559299467283),
  (1264215846010626663744570680127, 93254163202646165559299467283),
  (-93254163202646165559299467283, 1264215846010626663744570680127),
  (827994946423134134278638987098, 959876248772070362470949524940),
  (-959876248772070362470949524940, 827994946423134134278638987098),
  (1132296321548935760805419834086, 569950071906074373985853141216),
  (-569950071906074373985853141216, 1132296321548935760805419834086),
  (397638846497290415590154631717, 1203669968062381535353930956228),
  (-1203669968062381535353930956228, 397638846497290415590154631717),
  (1221731308291190858942357042589, 338098587101581117374312658859),
  (-338098587101581117374312658859, 1221731308291190858942357042589),
  (624822689231494931623924982921, 1102966296529732128312238188320),
  (-1102966296529732128312238188320, 624822689231494931623924982921),
  (999347822168647837348959240638, 779898695078899906755139179849),
  (-779898695078899906755139179849, 999347822168647837348959240638),
  (155173965890629248694126269277, 1258117277748288498568615024986),
  (-1258117277748288498568615024986, 155173965890629248694126269277),
  (1248987794765796128933042163709, 216719940903147635331116551917),
  (-216719940903147635331116551917, 1248987794765796128933042163709),
  (729923599467162805102006376722, 1036411879129089856403060728335),
  (-1036411879129089856403060728335, 729923599467162805102006376722),
  (1070979129093750744791035928582, 678190053970552897944368752694),
  (-678190053970552897944368752694, 1070979129093750744791035928582),
  (277743818595605437485807666872, 1236849390787302645680099221645),
  (-1236849390787302645680099221645, 277743818595605437485807666872),
  (1182708881451472439929805218043, 456221159082738276577665055156),
  (-456221159082738276577665055156, 1182708881451472439929805218043),
  (513704394935701795408155280878, 1158898545552083601853133380426),
  (-1158898545552083601853133380426, 513704394935701795408155280878),
  (918092249416971291488845445923, 874096485417643155063604838614),
  (-874096485417643155063604838614, 918092249416971291488845445923),
  (31109703067407905568579188454, 1267268807567695160420278293046),
  (-1267268807567695160420278293046, 31109703067407905568579188454)]

/-- Roots to 100 bits, entries 128 to 191. -/
def rootHP2 : List (Int × Int) := [
  (1267555148469424897028567089018, 15556022873616561564911268891),
  (-15556022873616561564911268891, 1267555148469424897028567089018),
  (885297071748424076614593670076, 907296610272878705080691286971),
  (-907296610272878705080691286971, 885297071748424076614593670076),
  (1165115225772981517378779727555, 499444246068532238988421836139),
  (-499444246068532238988421836139, 1165115225772981517378779727555),
  (470700463788108733949728553936, 1177021290227432383122041543020),
  (-1177021290227432383122041543020, 470700463788108733949728553936),
  (1240164602206439188876874050132, 262544860344160465300131682238),
  (-262544860344160465300131682238, 1240164602206439188876874050132),
  (691281548892659396202939708917, 1062576051122721301217353433781),
  (-1062576051122721301217353433781, 691281548892659396202939708917),
  (1045291124617214470581853739891, 717150269508050372421844234977),
  (-717150269508050372421844234977, 1045291124617214470581853739891),
  (232030623832042293226083067918, 1246234261229847412884456244787),
  (-1246234261229847412884456244787, 232030623832042293226083067918),
  (1259926767094507430387621098164, 139723247234571184229997114976),
  (-139723247234571184229997114976, 1259926767094507430387621098164),
  (792103505202000283340724312225, 989702016419939899078899514503),
  (-989702016419939899078899514503, 792103505202000283340724312225),
  (1110550780748808655996389294986, 611240548096411713344701776161),
  (-611240548096411713344701776161, 1110550780748808655996389294986),
  (353065651424342581861990659671, 1217490324414652132531325984370),
  (-1217490324414652132531325984370, 353065651424342581861990659671),
  (1208458974256190496917037749410, 382838022927015687735351470368),
  (-382838022927015687735351470368, 1208458974256190496917037749410),
  (583802173374548015270679002117, 1125216897590035507899867063040),
  (-1125216897590035507899867063040, 583802173374548015270679002117),
  (969964743541303097956195860790, 816153441790111172266874445001),
  (-816153441790111172266874445001, 969964743541303097956195860790),
  (108761014491398103053923383314, 1262976280848453688555803252036),
  (-1262976280848453688555803252036, 108761014491398103053923383314),
  (1265265024916541782031947994263, 77733268179931679896868283242),
  (-77733268179931679896868283242, 1265265024916541782031947994263),
  (839711758062830543539417785854, 949643200170474878968118040686),
  (-949643200170474878968118040686, 839711758062830543539417785854),
  (1139205225846723940950168266999, 556012138053212804588218134190),
  (-556012138053212804588218134190, 1139205225846723940950168266999),
  (412379787119913279096114396308, 1198699693598828480798123026577),
  (-1198699693598828480798123026577, 412379787119913279096114396308),
  (1225788303926581864243640925423, 323080606375226496292747514293),
  (-323080606375226496292747514293, 1225788303926581864243640925423),
  (638310734367858362654618303945, 1095215709643427109136008875687),
  (-1095215709643427109136008875687, 638310734367858362654618303945),
  (1008843129811227360501524299571, 767576435081013502896145780560),
  (-767576435081013502896145780560, 1008843129811227360501524299571),
  (170601315918198888915227210338, 1256118320567759720921659840460),
  (-1256118320567759720921659840460, 170601315918198888915227210338),
  (1251553235333991284927170262228, 201376620748311555844040800642),
  (-201376620748311555844040800642, 1251553235333991284927170262228),
  (742587005617065489563541969476, 1027376553824190900585115288646),
  (-1027376553824190900585115288646, 742587005617065489563541969476),
  (1079220921547309506930134867127, 664996426120897505353965707821),
  (-664996426120897505353965707821, 1079220921547309506930134867127),
  (292900949649591966982277937284, 1233347914399403144722348696791),
  (-1233347914399403144722348696791, 292900949649591966982277937284),
  (1188218361068311070630160071509, 441673149148923267181077240208),
  (-441673149148923267181077240208, 1188218361068311070630160071509),
  (527887181810547302324407179827, 1152507339472989409605349191675),
  (-1152507339472989409605349191675, 527887181810547302324407179827),
  (928749627245310379175896253447, 862764263371337895242775402374),
  (-862764263371337895242775402374, 928749627245310379175896253447),
  (46658698254347779073901780298, 1266791620644926747557652372301),
  (-1266791620644926747557652372301, 46658698254347779073901780298)]

/-- Roots to 100 bits, entries 192 to 255. -/
def rootHP3 : List (Int × Int) := [
  (1266791620644926747557652372301, 46658698254347779073901780298),
  (-46658698254347779073901780298, 1266791620644926747557652372301),
  (862764263371337895242775402374, 928749627245310379175896253447),
  (-928749627245310379175896253447, 862764263371337895242775402374),
  (1152507339472989409605349191675, 527887181810547302324407179827),
  (-527887181810547302324407179827, 1152507339472989409605349191675),
  (441673149148923267181077240208, 1188218361068311070630160071509),
  (-1188218361068311070630160071509, 441673149148923267181077240208),
  (1233347914399403144722348696791, 292900949649591966982277937284),
  (-292900949649591966982277937284, 1233347914399403144722348696791),
  (664996426120897505353965707821, 1079220921547309506930134867127),
  (-1079220921547309506930134867127, 664996426120897505353965707821),
  (1027376553824190900585115288646, 742587005617065489563541969476),
  (-742587005617065489563541969476, 1027376553824190900585115288646),
  (201376620748311555844040800642, 1251553235333991284927170262228),
  (-1251553235333991284927170262228, 201376620748311555844040800642),
  (1256118320567759720921659840460, 170601315918198888915227210338),
  (-170601315918198888915227210338, 1256118320567759720921659840460),
  (767576435081013502896145780560, 1008843129811227360501524299571),
  (-1008843129811227360501524299571, 767576435081013502896145780560),
  (1095215709643427109136008875687, 638310734367858362654618303945),
  (-638310734367858362654618303945, 1095215709643427109136008875687),
  (323080606375226496292747514293, 1225788303926581864243640925423),
  (-1225788303926581864243640925423, 323080606375226496292747514293),
  (1198699693598828480798123026577, 412379787119913279096114396308),
  (-412379787119913279096114396308, 1198699693598828480798123026577),
  (556012138053212804588218134190, 1139205225846723940950168266999),
  (-1139205225846723940950168266999, 556012138053212804588218134190),
  (949643200170474878968118040686, 839711758062830543539417785854),
  (-839711758062830543539417785854, 949643200170474878968118040686),
  (77733268179931679896868283242, 1265265024916541782031947994263),
  (-1265265024916541782031947994263, 77733268179931679896868283242),
  (1262976280848453688555803252036, 108761014491398103053923383314),
  (-108761014491398103053923383314, 1262976280848453688555803252036),
  (816153441790111172266874445001, 969964743541303097956195860790),
  (-969964743541303097956195860790, 816153441790111172266874445001),
  (1125216897590035507899867063040, 583802173374548015270679002117),
  (-583802173374548015270679002117, 1125216897590035507899867063040),
  (382838022927015687735351470368, 1208458974256190496917037749410),
  (-1208458974256190496917037749410, 382838022927015687735351470368),
  (1217490324414652132531325984370, 353065651424342581861990659671),
  (-353065651424342581861990659671, 1217490324414652132531325984370),
  (611240548096411713344701776161, 1110550780748808655996389294986),
  (-1110550780748808655996389294986, 611240548096411713344701776161),
  (989702016419939899078899514503, 792103505202000283340724312225),
  (-792103505202000283340724312225, 989702016419939899078899514503),
  (139723247234571184229997114976, 1259926767094507430387621098164),
  (-1259926767094507430387621098164, 139723247234571184229997114976),
  (1246234261229847412884456244787, 232030623832042293226083067918),
  (-232030623832042293226083067918, 1246234261229847412884456244787),
  (717150269508050372421844234977, 1045291124617214470581853739891),
  (-1045291124617214470581853739891, 717150269508050372421844234977),
  (1062576051122721301217353433781, 691281548892659396202939708917),
  (-691281548892659396202939708917, 1062576051122721301217353433781),
  (262544860344160465300131682238, 1240164602206439188876874050132),
  (-1240164602206439188876874050132, 262544860344160465300131682238),
  (1177021290227432383122041543020, 470700463788108733949728553936),
  (-470700463788108733949728553936, 1177021290227432383122041543020),
  (499444246068532238988421836139, 1165115225772981517378779727555),
  (-1165115225772981517378779727555, 499444246068532238988421836139),
  (907296610272878705080691286971, 885297071748424076614593670076),
  (-885297071748424076614593670076, 907296610272878705080691286971),
  (15556022873616561564911268891, 1267555148469424897028567089018),
  (-1267555148469424897028567089018, 15556022873616561564911268891)]

/-- Roots to 100 bits, entries 256 to 319. -/
def rootHP4 : List (Int × Int) := [
  (1267626737063919613192537442170, 7778157858431849463462493803),
  (-7778157858431849463462493803, 1267626737063919613192537442170),
  (890847473624437623716059572463, 901847449958110813465809524209),
  (-901847449958110813465809524209, 890847473624437623716059572463),
  (1168157825090679672528919382939, 492285831543426925456480418255),
  (-492285831543426925456480418255, 1168157825090679672528919382939),
  (477913669851332908583902945223, 1174110969384164064864495376581),
  (-1174110969384164064864495376581, 477913669851332908583902945223),
  (1241752201436574726092986296886, 254930411066256707390431579307),
  (-254930411066256707390431579307, 1241752201436574726092986296886),
  (697788379793501534169453083377, 1058314424584749924492266665301),
  (-1058314424584749924492266665301, 697788379793501534169453083377),
  (1049671798637005458853340706493, 710722983591458184999739228742),
  (-710722983591458184999739228742, 1049671798637005458853340706493),
  (239673005593851363543292118905, 1244787088079162222373365208559),
  (-1244787088079162222373365208559, 239673005593851363543292118905),
  (1260760375057010241160560963151, 131989851674653928636889858650),
  (-131989851674653928636889858650, 1260760375057010241160560963151),
  (798161291487152551097267036802, 984823129821061308784019512090),
  (-984823129821061308784019512090, 798161291487152551097267036802),
  (1114280376440209519699055779228, 604414830178127943235907651290),
  (-604414830178127943235907651290, 1114280376440209519699055779228),
  (360529385255301241324737540698, 1215301035392640834981897354163),
  (-1215301035392640834981897354163, 360529385255301241324737540698),
  (1210785275305502535756860439432, 375415851240153026798835960870),
  (-375415851240153026798835960870, 1210785275305502535756860439432),
  (590695384552509322938789442157, 1121613572906174047732425111722),
  (-1121613572906174047732425111722, 590695384552509322938789442157),
  (974954307603953611605501628623, 810186486152099229428575013490),
  (-810186486152099229428575013490, 974954307603953611605501628623),
  (116508443869940527854634123789, 1262285160637641019471660585960),
  (-1262285160637641019471660585960, 116508443869940527854634123789),
  (1265718169026966920777347509450, 69968284629628239596804065908),
  (-69968284629628239596804065908, 1265718169026966920777347509450),
  (845522851860388460553278717006, 944472948919589684577726033984),
  (-944472948919589684577726033984, 845522851860388460553278717006),
  (1142595406972912342284872112972, 549011639424334147808982386997),
  (-549011639424334147808982386997, 1142595406972912342284872112972),
  (419727107235858970583351884804, 1196146813610439719638244443946),
  (-1196146813610439719638244443946, 419727107235858970583351884804),
  (1227747614141266893470636175298, 315553228836938217012960950420),
  (-315553228836938217012960950420, 1227747614141266893470636175298),
  (645018835608985160126849688575, 1091278491480804020495126108131),
  (-1091278491480804020495126108131, 645018835608985160126849688575),
  (1013533899089475192862412931005, 761371840597927414812979156018),
  (-761371840597927414812979156018, 1013533899089475192862412931005),
  (178305501517332272803656727910, 1255047884499887475947886841042),
  (-1255047884499887475947886841042, 178305501517332272803656727910),
  (1252765298913974664436756691450, 193693443606049776357656764484),
  (-193693443606049776357656764484, 1252765298913974664436756691450),
  (748876890652051764169700250447, 1022800785542475607936531693415),
  (-1022800785542475607936531693415, 748876890652051764169700250447),
  (1083280946881228247620555096509, 658361932665536046572196317896),
  (-658361932665536046572196317896, 1083280946881228247620555096509),
  (300463116407018942142894374529, 1231527490532782406602180296533),
  (-1231527490532782406602180296533, 300463116407018942142894374529),
  (1190906048689262419546710120708, 434374063975185335733676123986),
  (-434374063975185335733676123986, 1190906048689262419546710120708),
  (534948896575841420999370184021, 1149246588992666966854467811500),
  (-1149246588992666966854467811500, 534948896575841420999370184021),
  (934025965795502453107668063859, 857049321497175655433743983208),
  (-857049321497175655433743983208, 934025965795502453107668063859),
  (54430707176331668019783979637, 1266481481260296483059866673291),
  (-1266481481260296483059866673291, 54430707176331668019783979637)]

/-- Roots to 100 bits, entries 320 to 383. -/
def rootHP5 : List (Int × Int) := [
  (1267054066041033249568506639149, 38884932658746216817270263399),
  (-38884932658746216817270263399, 1267054066041033249568506639149),
  (868446722658620537524764391671, 923438321796583931111905773427),
  (-923438321796583931111905773427, 868446722658620537524764391671),
  (1155724698703380476416228503962, 520805592391221058090789913565),
  (-520805592391221058090789913565, 1155724698703380476416228503962),
  (448955605578230414928263146808, 1185485937697649232929643096237),
  (-1185485937697649232929643096237, 448955605578230414928263146808),
  (1235121903414137805119893018560, 285327755336958970796689242923),
  (-285327755336958970796689242923, 1235121903414137805119893018560),
  (671605882836673012113819637262, 1075120264155672641253978516845),
  (-1075120264155672641253978516845, 671605882836673012113819637262),
  (1031913641959330288545726629367, 736269162601029605060932988973),
  (-736269162601029605060932988973, 1031913641959330288545726629367),
  (209052216174620687656099817598, 1250294051482078329448584717967),
  (-1250294051482078329448584717967, 209052216174620687656099817598),
  (1257141464490823535151597560950, 162890707275945438473168470086),
  (-162890707275945438473168470086, 1257141464490823535151597560950),
  (773752130745154746081875678233, 1004114378159342577923127557654),
  (-1004114378159342577923127557654, 773752130745154746081875678233),
  (1099111693553600544748470997152, 631578601088357301120191913256),
  (-631578601088357301120191913256, 1099111693553600544748470997152),
  (330595820111290645358853370952, 1223782843475072349899909529169),
  (-1223782843475072349899909529169, 330595820111290645358853370952),
  (1201207443221261052292926069753, 405016941138060520971386860033),
  (-405016941138060520971386860033, 1201207443221261052292926069753),
  (562991703139353088995349641586, 1135772154287663807549285732516),
  (-1135772154287663807549285732516, 562991703139353088995349641586),
  (954777697891614161948551492233, 833869049592188565617725025326),
  (-833869049592188565617725025326, 954777697891614161948551492233),
  (85495325116623166589406319702, 1264764244293059219099135345945),
  (-1264764244293059219099135345945, 85495325116623166589406319702),
  (1263619850716129493591469953950, 101009490322132051058237861861),
  (-101009490322132051058237861861, 1263619850716129493591469953950),
  (822089669712331507886179925819, 964938660854284543968785924366),
  (-964938660854284543968785924366, 822089669712331507886179925819),
  (1128777858493677865222232233243, 576886982374725478432357037576),
  (-576886982374725478432357037576, 1128777858493677865222232233243),
  (390245780978696071994659216419, 1206087175409521486462794183861),
  (-1206087175409521486462794183861, 390245780978696071994659216419),
  (1219633775614077532134786160862, 345588624871161308951944468915),
  (-345588624871161308951944468915, 1219633775614077532134786160862),
  (618043253153534208213150616100, 1106779373448198438884276916464),
  (-1106779373448198438884276916464, 618043253153534208213150616100),
  (994543641297282120096984252427, 786015896667575871618899108108),
  (-786015896667575871618899108108, 994543641297282120096984252427),
  (147451382293201956866488103721, 1259045723601336999499998459191),
  (-1259045723601336999499998459191, 147451382293201956866488103721),
  (1247634514364971752124142573566, 224379506248390185369232993654),
  (-224379506248390185369232993654, 1247634514364971752124142573566),
  (723550555122330552986914924619, 1040871095977382576637620158018),
  (-1040871095977382576637620158018, 723550555122330552986914924619),
  (1066797672272938319899916822542, 684748691632215360839678790146),
  (-684748691632215360839678790146, 1066797672272938319899916822542),
  (270149424956463220632272681702, 1238530311479974446557884027848),
  (-1238530311479974446557884027848, 270149424956463220632272681702),
  (1179887296884378761650118292355, 463469536118463914853110711323),
  (-463469536118463914853110711323, 1179887296884378761650118292355),
  (506583856800060101546417969636, 1162028760525558797735514704596),
  (-1162028760525558797735514704596, 506583856800060101546417969636),
  (912711611383075940396186063338, 879713338938031129480627811116),
  (-879713338938031129480627811116, 912711611383075940396186063338),
  (23333302213332381681381765561, 1267435837140015373693644889958),
  (-1267435837140015373693644889958, 23333302213332381681381765561)]

/-- Roots to 100 bits, entries 384 to 447. -/
def rootHP6 : List (Int × Int) := [
  (1267435837140015373693644889958, 23333302213332381681381765561),
  (-23333302213332381681381765561, 1267435837140015373693644889958),
  (879713338938031129480627811116, 912711611383075940396186063338),
  (-912711611383075940396186063338, 879713338938031129480627811116),
  (1162028760525558797735514704596, 506583856800060101546417969636),
  (-506583856800060101546417969636, 1162028760525558797735514704596),
  (463469536118463914853110711323, 1179887296884378761650118292355),
  (-1179887296884378761650118292355, 463469536118463914853110711323),
  (1238530311479974446557884027848, 270149424956463220632272681702),
  (-270149424956463220632272681702, 1238530311479974446557884027848),
  (684748691632215360839678790146, 1066797672272938319899916822542),
  (-1066797672272938319899916822542, 684748691632215360839678790146),
  (1040871095977382576637620158018, 723550555122330552986914924619),
  (-723550555122330552986914924619, 1040871095977382576637620158018),
  (224379506248390185369232993654, 1247634514364971752124142573566),
  (-1247634514364971752124142573566, 224379506248390185369232993654),
  (1259045723601336999499998459191, 147451382293201956866488103721),
  (-147451382293201956866488103721, 1259045723601336999499998459191),
  (786015896667575871618899108108, 994543641297282120096984252427),
  (-994543641297282120096984252427, 786015896667575871618899108108),
  (1106779373448198438884276916464, 618043253153534208213150616100),
  (-618043253153534208213150616100, 1106779373448198438884276916464),
  (345588624871161308951944468915, 1219633775614077532134786160862),
  (-1219633775614077532134786160862, 345588624871161308951944468915),
  (1206087175409521486462794183861, 390245780978696071994659216419),
  (-390245780978696071994659216419, 1206087175409521486462794183861),
  (576886982374725478432357037576, 1128777858493677865222232233243),
  (-1128777858493677865222232233243, 576886982374725478432357037576),
  (964938660854284543968785924366, 822089669712331507886179925819),
  (-822089669712331507886179925819, 964938660854284543968785924366),
  (101009490322132051058237861861, 1263619850716129493591469953950),
  (-1263619850716129493591469953950, 101009490322132051058237861861),
  (1264764244293059219099135345945, 85495325116623166589406319702),
  (-85495325116623166589406319702, 1264764244293059219099135345945),
  (833869049592188565617725025326, 954777697891614161948551492233),
  (-954777697891614161948551492233, 833869049592188565617725025326),
  (1135772154287663807549285732516, 562991703139353088995349641586),
  (-562991703139353088995349641586, 1135772154287663807549285732516),
  (405016941138060520971386860033, 1201207443221261052292926069753),
  (-1201207443221261052292926069753, 405016941138060520971386860033),
  (1223782843475072349899909529169, 330595820111290645358853370952),
  (-330595820111290645358853370952, 1223782843475072349899909529169),
  (631578601088357301120191913256, 1099111693553600544748470997152),
  (-1099111693553600544748470997152, 631578601088357301120191913256),
  (1004114378159342577923127557654, 773752130745154746081875678233),
  (-773752130745154746081875678233, 1004114378159342577923127557654),
  (162890707275945438473168470086, 1257141464490823535151597560950),
  (-1257141464490823535151597560950, 162890707275945438473168470086),
  (1250294051482078329448584717967, 209052216174620687656099817598),
  (-209052216174620687656099817598, 1250294051482078329448584717967),
  (736269162601029605060932988973, 1031913641959330288545726629367),
  (-1031913641959330288545726629367, 736269162601029605060932988973),
  (1075120264155672641253978516845, 671605882836673012113819637262),
  (-671605882836673012113819637262, 1075120264155672641253978516845),
  (285327755336958970796689242923, 1235121903414137805119893018560),
  (-1235121903414137805119893018560, 285327755336958970796689242923),
  (1185485937697649232929643096237, 448955605578230414928263146808),
  (-448955605578230414928263146808, 1185485937697649232929643096237),
  (520805592391221058090789913565, 1155724698703380476416228503962),
  (-1155724698703380476416228503962, 520805592391221058090789913565),
  (923438321796583931111905773427, 868446722658620537524764391671),
  (-868446722658620537524764391671, 923438321796583931111905773427),
  (38884932658746216817270263399, 1267054066041033249568506639149),
  (-1267054066041033249568506639149, 38884932658746216817270263399)]

/-- Roots to 100 bits, entries 448 to 511. -/
def rootHP7 : List (Int × Int) := [
  (1266481481260296483059866673291, 54430707176331668019783979637),
  (-54430707176331668019783979637, 1266481481260296483059866673291),
  (857049321497175655433743983208, 934025965795502453107668063859),
  (-934025965795502453107668063859, 857049321497175655433743983208),
  (1149246588992666966854467811500, 534948896575841420999370184021),
  (-534948896575841420999370184021, 1149246588992666966854467811500),
  (434374063975185335733676123986, 1190906048689262419546710120708),
  (-1190906048689262419546710120708, 434374063975185335733676123986),
  (1231527490532782406602180296533, 300463116407018942142894374529),
  (-300463116407018942142894374529, 1231527490532782406602180296533),
  (658361932665536046572196317896, 1083280946881228247620555096509),
  (-1083280946881228247620555096509, 658361932665536046572196317896),
  (1022800785542475607936531693415, 748876890652051764169700250447),
  (-748876890652051764169700250447, 1022800785542475607936531693415),
  (193693443606049776357656764484, 1252765298913974664436756691450),
  (-1252765298913974664436756691450, 193693443606049776357656764484),
  (1255047884499887475947886841042, 178305501517332272803656727910),
  (-178305501517332272803656727910, 1255047884499887475947886841042),
  (761371840597927414812979156018, 1013533899089475192862412931005),
  (-1013533899089475192862412931005, 761371840597927414812979156018),
  (1091278491480804020495126108131, 645018835608985160126849688575),
  (-645018835608985160126849688575, 1091278491480804020495126108131),
  (315553228836938217012960950420, 1227747614141266893470636175298),
  (-1227747614141266893470636175298, 315553228836938217012960950420),
  (1196146813610439719638244443946, 419727107235858970583351884804),
  (-419727107235858970583351884804, 1196146813610439719638244443946),
  (549011639424334147808982386997, 1142595406972912342284872112972),
  (-1142595406972912342284872112972, 549011639424334147808982386997),
  (944472948919589684577726033984, 845522851860388460553278717006),
  (-845522851860388460553278717006, 944472948919589684577726033984),
  (69968284629628239596804065908, 1265718169026966920777347509450),
  (-1265718169026966920777347509450, 69968284629628239596804065908),
  (1262285160637641019471660585960, 116508443869940527854634123789),
  (-116508443869940527854634123789, 1262285160637641019471660585960),
  (810186486152099229428575013490, 974954307603953611605501628623),
  (-974954307603953611605501628623, 810186486152099229428575013490),
  (1121613572906174047732425111722, 590695384552509322938789442157),
  (-590695384552509322938789442157, 1121613572906174047732425111722),
  (375415851240153026798835960870, 1210785275305502535756860439432),
  (-1210785275305502535756860439432, 375415851240153026798835960870),
  (1215301035392640834981897354163, 360529385255301241324737540698),
  (-360529385255301241324737540698, 1215301035392640834981897354163),
  (604414830178127943235907651290, 1114280376440209519699055779228),
  (-1114280376440209519699055779228, 604414830178127943235907651290),
  (984823129821061308784019512090, 798161291487152551097267036802),
  (-798161291487152551097267036802, 984823129821061308784019512090),
  (131989851674653928636889858650, 1260760375057010241160560963151),
  (-1260760375057010241160560963151, 131989851674653928636889858650),
  (1244787088079162222373365208559, 239673005593851363543292118905),
  (-239673005593851363543292118905, 1244787088079162222373365208559),
  (710722983591458184999739228742, 1049671798637005458853340706493),
  (-1049671798637005458853340706493, 710722983591458184999739228742),
  (1058314424584749924492266665301, 697788379793501534169453083377),
  (-697788379793501534169453083377, 1058314424584749924492266665301),
  (254930411066256707390431579307, 1241752201436574726092986296886),
  (-1241752201436574726092986296886, 254930411066256707390431579307),
  (1174110969384164064864495376581, 477913669851332908583902945223),
  (-477913669851332908583902945223, 1174110969384164064864495376581),
  (492285831543426925456480418255, 1168157825090679672528919382939),
  (-1168157825090679672528919382939, 492285831543426925456480418255),
  (901847449958110813465809524209, 890847473624437623716059572463),
  (-890847473624437623716059572463, 901847449958110813465809524209),
  (7778157858431849463462493803, 1267626737063919613192537442170),
  (-1267626737063919613192537442170, 7778157858431849463462493803)]

/-- Roots to 100 bits, entries 512 to 575. -/
def rootHP8 : List (Int × Int) := [
  (1267644634423113846968036898776, 3889097232048075534265022357),
  (-3889097232048075534265022357, 1267644634423113846968036898776),
  (893610110109850766508668702967, 899110124160800818886812182565),
  (-899110124160800818886812182565, 893610110109850766508668702967),
  (1169662639163705696421914101678, 488699657052862152632931271853),
  (-488699657052862152632931271853, 1169662639163705696421914101678),
  (481513542387591121964654520888, 1172639225318829151532166081316),
  (-1172639225318829151532166081316, 481513542387591121964654520888),
  (1242528472992971975963943928004, 251119569250872176007979582592),
  (-251119569250872176007979582592, 1242528472992971975963943928004),
  (701031958764759920389649611883, 1056168659376632999973298563451),
  (-1056168659376632999973298563451, 701031958764759920389649611883),
  (1051847326065743321273773472305, 707499291100235750737478562911),
  (-707499291100235750737478562911, 1051847326065743321273773472305),
  (243490830612372777688160768153, 1244045923455676560318557087800),
  (-1244045923455676560318557087800, 243490830612372777688160768153),
  (1261159380836694536054503163196, 128121272186142259528478978441),
  (-128121272186142259528478978441, 1261159380836694536054503163196),
  (801178929969585728347114270332, 982369770723722912532436157371),
  (-982369770723722912532436157371, 801178929969585728347114270332),
  (1116129450990454376453021451777, 600993421670102124321522145137),
  (-600993421670102124321522145137, 1116129450990454376453021451777),
  (364256179565933249790197351935, 1214189227388804033918204659787),
  (-1214189227388804033918204659787, 364256179565933249790197351935),
  (1211931336719171436829064579760, 371699447587795829005732850387),
  (-371699447587795829005732850387, 1211931336719171436829064579760),
  (594133666573979070989977361824, 1119796066479227341594247159554),
  (-1119796066479227341594247159554, 594133666573979070989977361824),
  (977435336392781468656019768839, 807191555598620224940657570530),
  (-807191555598620224940657570530, 977435336392781468656019768839),
  (120380531854387536490317037682, 1261921777214992459917263869082),
  (-1261921777214992459917263869082, 120380531854387536490317037682),
  (1265926871988263176663382514734, 66084786728881948093446178596),
  (-66084786728881948093446178596, 1265926871988263176663382514734),
  (848416474839916181262997317275, 941874476498434556083390348136),
  (-941874476498434556083390348136, 848416474839916181262997317275),
  (1144274373673468659902158740381, 545503622364857710207738125505),
  (-545503622364857710207738125505, 1144274373673468659902158740381),
  (423394858626482627560029707045, 1194853479698515614143793365447),
  (-1194853479698515614143793365447, 423394858626482627560029707045),
  (1228709939789688378495617562045, 311785067187334414804641431695),
  (-311785067187334414804641431695, 1228709939789688378495617562045),
  (648363795255735669333645744434, 1089294465817470658237599568909),
  (-1089294465817470658237599568909, 648363795255735669333645744434),
  (1015864985093439337090976796215, 758258779256855389420150925880),
  (-758258779256855389420150925880, 1015864985093439337090976796215),
  (182155095022786087242899208093, 1254494944436297856684813342767),
  (-1254494944436297856684813342767, 182155095022786087242899208093),
  (1253353646272174960201038328409, 189849102276608097823971481848),
  (-189849102276608097823971481848, 1253353646272174960201038328409),
  (752011274881972302197139611780, 1020498450125908309577670662242),
  (-1020498450125908309577670662242, 752011274881972302197139611780),
  (1085295674698610301329295571404, 655035375181736672108613718003),
  (-655035375181736672108613718003, 1085295674698610301329295571404),
  (304239975463736360864862471034, 1230599886879897032543873654699),
  (-1230599886879897032543873654699, 304239975463736360864862471034),
  (1192233084905850084205471824658, 430718371461991785393410327907),
  (-430718371461991785393410327907, 1192233084905850084205471824658),
  (538472217849482750480903087135, 1147599980334284192737253195351),
  (-1147599980334284192737253195351, 538472217849482750480903087135),
  (936650960353529280481650446909, 854179736781317937343357390303),
  (-854179736781317937343357390303, 936650960353529280481650446909),
  (58315961440662486489909427364, 1266308529901082772294591144105),
  (-1266308529901082772294591144105, 58315961440662486489909427364)]

/-- Roots to 100 bits, entries 576 to 639. -/
def rootHP9 : List (Int × Int) := [
  (1267167400335449051325222437436, 34997482567894380321913704690),
  (-34997482567894380321913704690, 1267167400335449051325222437436),
  (871275704427508537455392974464, 920769618923940743356834065665),
  (-920769618923940743356834065665, 871275704427508537455392974464),
  (1157317068682238004740198583249, 517257427975415618804526431299),
  (-517257427975415618804526431299, 1157317068682238004740198583249),
  (452590512307619283500464432829, 1184102982188676439533971619599),
  (-1184102982188676439533971619599, 452590512307619283500464432829),
  (1235991463911911621393199257681, 281537111933542338107449522999),
  (-281537111933542338107449522999, 1235991463911911621393199257681),
  (674901144616916782048640535294, 1073054746624684501817716543480),
  (-1073054746624684501817716543480, 674901144616916782048640535294),
  (1034167627533995406390585781012, 733099831141501233496453319081),
  (-733099831141501233496453319081, 1034167627533995406390585781012),
  (212887080426023419250264707876, 1249646804199760321976925836471),
  (-1249646804199760321976925836471, 212887080426023419250264707876),
  (1257635289790713498681922143519, 159033085023269151994731957284),
  (-159033085023269151994731957284, 1257635289790713498681922143519),
  (776829068817551947183303305183, 1001735814523492724128332308148),
  (-1001735814523492724128332308148, 776829068817551947183303305183),
  (1101044176765227241164266598741, 628203601605700207685207318973),
  (-628203601605700207685207318973, 1101044176765227241164266598741),
  (334348777115448960858137990059, 1222762830437854824471250147307),
  (-1222762830437854824471250147307, 334348777115448960858137990059),
  (1202444364573975038396460848121, 401329782552054911931173641521),
  (-401329782552054911931173641521, 1202444364573975038396460848121),
  (566473553455126354101588521821, 1134039574924487536330199947464),
  (-1134039574924487536330199947464, 566473553455126354101588521821),
  (957331478716079825391004964658, 830935908550276984486318284677),
  (-830935908550276984486318284677, 957331478716079825391004964658),
  (89375164776179263822431867234, 1264495996110790807491087939239),
  (-1264495996110790807491087939239, 89375164776179263822431867234),
  (1263923796629446225113753851945, 97132283885413374431393204716),
  (-97132283885413374431393204716, 1263923796629446225113753851945),
  (825046190892215614198573264448, 962411984107240836492081359293),
  (-962411984107240836492081359293, 825046190892215614198573264448),
  (1130542410569173165631852492218, 573421225769881464418900043312),
  (-573421225769881464418900043312, 1130542410569173165631852492218),
  (393944167714262863740277791403, 1204884242150633742066444774621),
  (-1204884242150633742066444774621, 393944167714262863740277791403),
  (1220688286744159750507150464281, 341845214775047419084193459355),
  (-341845214775047419084193459355, 1220688286744159750507150464281),
  (621435895788176351512563277733, 1104878034755391947863647367921),
  (-1104878034755391947863647367921, 621435895788176351512563277733),
  (996950423571501422678304003809, 782960980636707193020958865366),
  (-782960980636707193020958865366, 996950423571501422678304003809),
  (151313386201524741457781672593, 1258587423826894314131443780652),
  (-1258587423826894314131443780652, 151313386201524741457781672593),
  (1248317029383033524986769525033, 220550761529650789273301706963),
  (-220550761529650789273301706963, 1248317029383033524986769525033),
  (726740497473916499142067625584, 1038646375620862907592529697371),
  (-1038646375620862907592529697371, 726740497473916499142067625584),
  (1068893431099374065395893981834, 681472579941113949956539951666),
  (-681472579941113949956539951666, 1068893431099374065395893981834),
  (273947911027069832473851449623, 1237695675965176387359922189393),
  (-1237695675965176387359922189393, 273947911027069832473851449623),
  (1181303648607844312680541994242, 459847511730557223422287583458),
  (-459847511730557223422287583458, 1181303648607844312680541994242),
  (510146526714579721996518577399, 1160469114427454667007829106340),
  (-1160469114427454667007829106340, 510146526714579721996518577399),
  (915406238476097045008011448072, 876909039078759423371441476397),
  (-876909039078759423371441476397, 915406238476097045008011448072),
  (27221630750548102849569955396, 1267358286783288086246493966436),
  (-1267358286783288086246493966436, 27221630750548102849569955396)]

/-- Roots to 100 bits, entries 640 to 703. -/
def rootHP10 : List (Int × Int) := [
  (1267501457907943530372844305501, 19444754054189795151337043980),
  (-19444754054189795151337043980, 1267501457907943530372844305501),
  (882509358600319986895001832400, 910008393500764419582809298724),
  (-910008393500764419582809298724, 882509358600319986895001832400),
  (1163577469166412931117935737681, 503016418725349004006047809332),
  (-503016418725349004006047809332, 1163577469166412931117935737681),
  (467087198154585372390707456272, 1178459839612317622331637374700),
  (-1178459839612317622331637374700, 467087198154585372390707456272),
  (1239353289475789489014411066488, 266348396136583143030551706843),
  (-266348396136583143030551706843, 1239353289475789489014411066488),
  (688018358207846194485755631519, 1064691872340523747554977643878),
  (-1064691872340523747554977643878, 688018358207846194485755631519),
  (1043086019258733588439997862338, 720353802437357261833966184082),
  (-720353802437357261833966184082, 1043086019258733588439997862338),
  (228206139021762362388420008778, 1246940256135702094588047824010),
  (-1246940256135702094588047824010, 228206139021762362388420008778),
  (1259492172757924535224434860901, 143587990516312515194014266246),
  (-143587990516312515194014266246, 1259492172757924535224434860901),
  (789063414417472802400339620968, 992127497999541311947065693084),
  (-992127497999541311947065693084, 789063414417472802400339620968),
  (1108670294712027704293158588406, 614644793260413058975902924944),
  (-614644793260413058975902924944, 1108670294712027704293158588406),
  (349328782155521293389425830824, 1218567784826404568252251265365),
  (-1218567784826404568252251265365, 349328782155521293389425830824),
  (1207278756516578801578382013864, 386543721101214517430777652163),
  (-386543721101214517430777652163, 1207278756516578801578382013864),
  (580347309099585325951757379558, 1127002681931086019661892517313),
  (-1127002681931086019661892517313, 580347309099585325951757379558),
  (967456255231157662806638990215, 819125410711385144574828847102),
  (-819125410711385144574828847102, 967456255231157662806638990215),
  (104885746019058588056609197171, 1263304011131531162403730436714),
  (-1263304011131531162403730436714, 104885746019058588056609197171),
  (1265020588032577845366717624494, 81614680742506377445997741154),
  (-81614680742506377445997741154, 1265020588032577845366717624494),
  (836794341941028311307662968053, 952214930335831093457843558030),
  (-952214930335831093457843558030, 836794341941028311307662968053),
  (1137494043330767759456620367208, 559504553731255805259813998061),
  (-559504553731255805259813998061, 1137494043330767759456620367208),
  (408700287550366385517619727093, 1199959215646614427386409572383),
  (-1199959215646614427386409572383, 408700287550366385517619727093),
  (1224791337802092259361675729031, 326839751413366798896292795092),
  (-326839751413366798896292795092, 1224791337802092259361675729031),
  (634947655912685720515047355363, 1097168865084120008598613154712),
  (-1097168865084120008598613154712, 634947655912685720515047355363),
  (1006483490688250587726837342654, 770667909823021285508848373392),
  (-770667909823021285508848373392, 1006483490688250587726837342654),
  (166746796339248299543793990456, 1256635806496690402750397002546),
  (-1256635806496690402750397002546, 166746796339248299543793990456),
  (1250929530520612227559977044680, 205215384244142273816102618232),
  (-205215384244142273816102618232, 1250929530520612227559977044680),
  (739431564014793190253867853393, 1029649943620465156741543235032),
  (-1029649943620465156741543235032, 739431564014793190253867853393),
  (1077175662245277513927332054688, 668304299646080456522399854709),
  (-668304299646080456522399854709, 1077175662245277513927332054688),
  (289115713126875964937554017421, 1234240717478615771985516041043),
  (-1234240717478615771985516041043, 289115713126875964937554017421),
  (1186857734961486874299592706654, 445316473107698153580309296936),
  (-445316473107698153580309296936, 1186857734961486874299592706654),
  (524348854786443321601823066424, 1154121450603503708263767877280),
  (-1154121450603503708263767877280, 524348854786443321601823066424),
  (926098332916053048200163898850, 865609566738432975123885627652),
  (-865609566738432975123885627652, 926098332916053048200163898850),
  (42772016749802633698448445545, 1266928805751193297292140413828),
  (-1266928805751193297292140413828, 42772016749802633698448445545)]

/-- Roots to 100 bits, entries 704 to 767. -/
def rootHP11 : List (Int × Int) := [
  (1266642512013472067172102349812, 50544940589455098620300756945),
  (-50544940589455098620300756945, 1266642512013472067172102349812),
  (859910839338414216101072030975, 931392179829363957835850057216),
  (-931392179829363957835850057216, 859910839338414216101072030975),
  (1150882380504466271283708028812, 531420540159451485835127857774),
  (-531420540159451485835127857774, 1150882380504466271283708028812),
  (438025667994258407113104765974, 1189567803211390713227203813062),
  (-1189567803211390713227203813062, 438025667994258407113104765974),
  (1232443502579902526840498623688, 296683429277019226667070207945),
  (-296683429277019226667070207945, 1232443502579902526840498623688),
  (661682293396089573512095240165, 1081256022811009137324179840628),
  (-1081256022811009137324179840628, 661682293396089573512095240165),
  (1025093493968518097787047840015, 745735457707628399862121584324),
  (-745735457707628399862121584324, 1025093493968518097787047840015),
  (197535961819032540581707269353, 1252165160051668261509655839497),
  (-1252165160051668261509655839497, 197535961819032540581707269353),
  (1255589011574806136064515180353, 174454229732590944754106278963),
  (-174454229732590944754106278963, 1255589011574806136064515180353),
  (764477735617269050933114594646, 1011193273318450807758506484110),
  (-1011193273318450807758506484110, 764477735617269050933114594646),
  (1093252245615364708835527359755, 641667804799299986904115150815),
  (-641667804799299986904115150815, 1093252245615364708835527359755),
  (319318420379374498104757480263, 1226773732464716308637046822932),
  (-1226773732464716308637046822932, 319318420379374498104757480263),
  (1197428888933004412310205670238, 416055405213849924341599282049),
  (-416055405213849924341599282049, 1197428888933004412310205670238),
  (552514488977170527049456228959, 1140905685729230811998487569196),
  (-1140905685729230811998487569196, 552514488977170527049456228959),
  (947062531601649272219918292439, 842621270497763632815964874779),
  (-842621270497763632815964874779, 947062531601649272219918292439),
  (73851123962232339775288323330, 1265497552644217984011718177174),
  (-1265497552644217984011718177174, 73851123962232339775288323330),
  (1262636662951619311683302668955, 112635259263647847472818544167),
  (-112635259263647847472818544167, 1262636662951619311683302668955),
  (813173790921812945393219260243, 972464102173873522433148227377),
  (-972464102173873522433148227377, 813173790921812945393219260243),
  (1123420522279008659685727591715, 587251542681115213475997507100),
  (-587251542681115213475997507100, 1123420522279008659685727591715),
  (379128721335542104934872741625, 1209627817519697724092631246951),
  (-1209627817519697724092631246951, 379128721335542104934872741625),
  (1216401404520287968659236539382, 356799197504788438318212507643),
  (-356799197504788438318212507643, 1216401404520287968659236539382),
  (607830549703582153694696900670, 1112420813858690537110565916648),
  (-1112420813858690537110565916648, 607830549703582153694696900670),
  (987267219388034247677615314186, 795136140406666039015118397276),
  (-795136140406666039015118397276, 987267219388034247677615314186),
  (135857188824413610147511851592, 1260349502520518274836524895377),
  (-1260349502520518274836524895377, 135857188824413610147511851592),
  (1245516536292500637423364370191, 235852924681722397448374501844),
  (-235852924681722397448374501844, 1245516536292500637423364370191),
  (713939986487281873397166905032, 1047486391297533779831960553282),
  (-1047486391297533779831960553282, 713939986487281873397166905032),
  (1060450228534446088397051067398, 694538232972261462002796703165),
  (-694538232972261462002796703165, 1060450228534446088397051067398),
  (258738853379522633418027130920, 1240964242035539138717754453206),
  (-1240964242035539138717754453206, 258738853379522633418027130920),
  (1175571662269897722723881255431, 474309299009601753057732702044),
  (-474309299009601753057732702044, 1175571662269897722723881255431),
  (495867372452259306039597793571, 1166642015871313724493900485094),
  (-1166642015871313724493900485094, 495867372452259306039597793571),
  (904576287223755314038746287865, 888076452143325554662931910921),
  (-888076452143325554662931910921, 904576287223755314038746287865),
  (11667145273831566636113051670, 1267596908319103461073648327393),
  (-1267596908319103461073648327393, 11667145273831566636113051670)]

/-- Roots to 100 bits, entries 768 to 831. -/
def rootHP12 : List (Int × Int) := [
  (1267596908319103461073648327393, 11667145273831566636113051670),
  (-11667145273831566636113051670, 1267596908319103461073648327393),
  (888076452143325554662931910921, 904576287223755314038746287865),
  (-904576287223755314038746287865, 888076452143325554662931910921),
  (1166642015871313724493900485094, 495867372452259306039597793571),
  (-495867372452259306039597793571, 1166642015871313724493900485094),
  (474309299009601753057732702044, 1175571662269897722723881255431),
  (-1175571662269897722723881255431, 474309299009601753057732702044),
  (1240964242035539138717754453206, 258738853379522633418027130920),
  (-258738853379522633418027130920, 1240964242035539138717754453206),
  (694538232972261462002796703165, 1060450228534446088397051067398),
  (-1060450228534446088397051067398, 694538232972261462002796703165),
  (1047486391297533779831960553282, 713939986487281873397166905032),
  (-713939986487281873397166905032, 1047486391297533779831960553282),
  (235852924681722397448374501844, 1245516536292500637423364370191),
  (-1245516536292500637423364370191, 235852924681722397448374501844),
  (1260349502520518274836524895377, 135857188824413610147511851592),
  (-135857188824413610147511851592, 1260349502520518274836524895377),
  (795136140406666039015118397276, 987267219388034247677615314186),
  (-987267219388034247677615314186, 795136140406666039015118397276),
  (1112420813858690537110565916648, 607830549703582153694696900670),
  (-607830549703582153694696900670, 1112420813858690537110565916648),
  (356799197504788438318212507643, 1216401404520287968659236539382),
  (-1216401404520287968659236539382, 356799197504788438318212507643),
  (1209627817519697724092631246951, 379128721335542104934872741625),
  (-379128721335542104934872741625, 1209627817519697724092631246951),
  (587251542681115213475997507100, 1123420522279008659685727591715),
  (-1123420522279008659685727591715, 587251542681115213475997507100),
  (972464102173873522433148227377, 813173790921812945393219260243),
  (-813173790921812945393219260243, 972464102173873522433148227377),
  (112635259263647847472818544167, 1262636662951619311683302668955),
  (-1262636662951619311683302668955, 112635259263647847472818544167),
  (1265497552644217984011718177174, 73851123962232339775288323330),
  (-73851123962232339775288323330, 1265497552644217984011718177174),
  (842621270497763632815964874779, 947062531601649272219918292439),
  (-947062531601649272219918292439, 842621270497763632815964874779),
  (1140905685729230811998487569196, 552514488977170527049456228959),
  (-552514488977170527049456228959, 1140905685729230811998487569196),
  (416055405213849924341599282049, 1197428888933004412310205670238),
  (-1197428888933004412310205670238, 416055405213849924341599282049),
  (1226773732464716308637046822932, 319318420379374498104757480263),
  (-319318420379374498104757480263, 1226773732464716308637046822932),
  (641667804799299986904115150815, 1093252245615364708835527359755),
  (-1093252245615364708835527359755, 641667804799299986904115150815),
  (1011193273318450807758506484110, 764477735617269050933114594646),
  (-764477735617269050933114594646, 1011193273318450807758506484110),
  (174454229732590944754106278963, 1255589011574806136064515180353),
  (-1255589011574806136064515180353, 174454229732590944754106278963),
  (1252165160051668261509655839497, 197535961819032540581707269353),
  (-197535961819032540581707269353, 1252165160051668261509655839497),
  (745735457707628399862121584324, 1025093493968518097787047840015),
  (-1025093493968518097787047840015, 745735457707628399862121584324),
  (1081256022811009137324179840628, 661682293396089573512095240165),
  (-661682293396089573512095240165, 1081256022811009137324179840628),
  (296683429277019226667070207945, 1232443502579902526840498623688),
  (-1232443502579902526840498623688, 296683429277019226667070207945),
  (1189567803211390713227203813062, 438025667994258407113104765974),
  (-438025667994258407113104765974, 1189567803211390713227203813062),
  (531420540159451485835127857774, 1150882380504466271283708028812),
  (-1150882380504466271283708028812, 531420540159451485835127857774),
  (931392179829363957835850057216, 859910839338414216101072030975),
  (-859910839338414216101072030975, 931392179829363957835850057216),
  (50544940589455098620300756945, 1266642512013472067172102349812),
  (-1266642512013472067172102349812, 50544940589455098620300756945)]

/-- Roots to 100 bits, entries 832 to 895. -/
def rootHP13 : List (Int × Int) := [
  (1266928805751193297292140413828, 42772016749802633698448445545),
  (-42772016749802633698448445545, 1266928805751193297292140413828),
  (865609566738432975123885627652, 926098332916053048200163898850),
  (-926098332916053048200163898850, 865609566738432975123885627652),
  (1154121450603503708263767877280, 524348854786443321601823066424),
  (-524348854786443321601823066424, 1154121450603503708263767877280),
  (445316473107698153580309296936, 1186857734961486874299592706654),
  (-1186857734961486874299592706654, 445316473107698153580309296936),
  (1234240717478615771985516041043, 289115713126875964937554017421),
  (-289115713126875964937554017421, 1234240717478615771985516041043),
  (668304299646080456522399854709, 1077175662245277513927332054688),
  (-1077175662245277513927332054688, 668304299646080456522399854709),
  (1029649943620465156741543235032, 739431564014793190253867853393),
  (-739431564014793190253867853393, 1029649943620465156741543235032),
  (205215384244142273816102618232, 1250929530520612227559977044680),
  (-1250929530520612227559977044680, 205215384244142273816102618232),
  (1256635806496690402750397002546, 166746796339248299543793990456),
  (-166746796339248299543793990456, 1256635806496690402750397002546),
  (770667909823021285508848373392, 1006483490688250587726837342654),
  (-1006483490688250587726837342654, 770667909823021285508848373392),
  (1097168865084120008598613154712, 634947655912685720515047355363),
  (-634947655912685720515047355363, 1097168865084120008598613154712),
  (326839751413366798896292795092, 1224791337802092259361675729031),
  (-1224791337802092259361675729031, 326839751413366798896292795092),
  (1199959215646614427386409572383, 408700287550366385517619727093),
  (-408700287550366385517619727093, 1199959215646614427386409572383),
  (559504553731255805259813998061, 1137494043330767759456620367208),
  (-1137494043330767759456620367208, 559504553731255805259813998061),
  (952214930335831093457843558030, 836794341941028311307662968053),
  (-836794341941028311307662968053, 952214930335831093457843558030),
  (81614680742506377445997741154, 1265020588032577845366717624494),
  (-1265020588032577845366717624494, 81614680742506377445997741154),
  (1263304011131531162403730436714, 104885746019058588056609197171),
  (-104885746019058588056609197171, 1263304011131531162403730436714),
  (819125410711385144574828847102, 967456255231157662806638990215),
  (-967456255231157662806638990215, 819125410711385144574828847102),
  (1127002681931086019661892517313, 580347309099585325951757379558),
  (-580347309099585325951757379558, 1127002681931086019661892517313),
  (386543721101214517430777652163, 1207278756516578801578382013864),
  (-1207278756516578801578382013864, 386543721101214517430777652163),
  (1218567784826404568252251265365, 349328782155521293389425830824),
  (-349328782155521293389425830824, 1218567784826404568252251265365),
  (614644793260413058975902924944, 1108670294712027704293158588406),
  (-1108670294712027704293158588406, 614644793260413058975902924944),
  (992127497999541311947065693084, 789063414417472802400339620968),
  (-789063414417472802400339620968, 992127497999541311947065693084),
  (143587990516312515194014266246, 1259492172757924535224434860901),
  (-1259492172757924535224434860901, 143587990516312515194014266246),
  (1246940256135702094588047824010, 228206139021762362388420008778),
  (-228206139021762362388420008778, 1246940256135702094588047824010),
  (720353802437357261833966184082, 1043086019258733588439997862338),
  (-1043086019258733588439997862338, 720353802437357261833966184082),
  (1064691872340523747554977643878, 688018358207846194485755631519),
  (-688018358207846194485755631519, 1064691872340523747554977643878),
  (266348396136583143030551706843, 1239353289475789489014411066488),
  (-1239353289475789489014411066488, 266348396136583143030551706843),
  (1178459839612317622331637374700, 467087198154585372390707456272),
  (-467087198154585372390707456272, 1178459839612317622331637374700),
  (503016418725349004006047809332, 1163577469166412931117935737681),
  (-1163577469166412931117935737681, 503016418725349004006047809332),
  (910008393500764419582809298724, 882509358600319986895001832400),
  (-882509358600319986895001832400, 910008393500764419582809298724),
  (19444754054189795151337043980, 1267501457907943530372844305501),
  (-1267501457907943530372844305501, 19444754054189795151337043980)]

/-- Roots to 100 bits, entries 896 to 959. -/
def rootHP14 : List (Int × Int) := [
  (1267358286783288086246493966436, 27221630750548102849569955396),
  (-27221630750548102849569955396, 1267358286783288086246493966436),
  (876909039078759423371441476397, 915406238476097045008011448072),
  (-915406238476097045008011448072, 876909039078759423371441476397),
  (1160469114427454667007829106340, 510146526714579721996518577399),
  (-510146526714579721996518577399, 1160469114427454667007829106340),
  (459847511730557223422287583458, 1181303648607844312680541994242),
  (-1181303648607844312680541994242, 459847511730557223422287583458),
  (1237695675965176387359922189393, 273947911027069832473851449623),
  (-273947911027069832473851449623, 1237695675965176387359922189393),
  (681472579941113949956539951666, 1068893431099374065395893981834),
  (-1068893431099374065395893981834, 681472579941113949956539951666),
  (1038646375620862907592529697371, 726740497473916499142067625584),
  (-726740497473916499142067625584, 1038646375620862907592529697371),
  (220550761529650789273301706963, 1248317029383033524986769525033),
  (-1248317029383033524986769525033, 220550761529650789273301706963),
  (1258587423826894314131443780652, 151313386201524741457781672593),
  (-151313386201524741457781672593, 1258587423826894314131443780652),
  (782960980636707193020958865366, 996950423571501422678304003809),
  (-996950423571501422678304003809, 782960980636707193020958865366),
  (1104878034755391947863647367921, 621435895788176351512563277733),
  (-621435895788176351512563277733, 1104878034755391947863647367921),
  (341845214775047419084193459355, 1220688286744159750507150464281),
  (-1220688286744159750507150464281, 341845214775047419084193459355),
  (1204884242150633742066444774621, 393944167714262863740277791403),
  (-393944167714262863740277791403, 1204884242150633742066444774621),
  (573421225769881464418900043312, 1130542410569173165631852492218),
  (-1130542410569173165631852492218, 573421225769881464418900043312),
  (962411984107240836492081359293, 825046190892215614198573264448),
  (-825046190892215614198573264448, 962411984107240836492081359293),
  (97132283885413374431393204716, 1263923796629446225113753851945),
  (-1263923796629446225113753851945, 97132283885413374431393204716),
  (1264495996110790807491087939239, 89375164776179263822431867234),
  (-89375164776179263822431867234, 1264495996110790807491087939239),
  (830935908550276984486318284677, 957331478716079825391004964658),
  (-957331478716079825391004964658, 830935908550276984486318284677),
  (1134039574924487536330199947464, 566473553455126354101588521821),
  (-566473553455126354101588521821, 1134039574924487536330199947464),
  (401329782552054911931173641521, 1202444364573975038396460848121),
  (-1202444364573975038396460848121, 401329782552054911931173641521),
  (1222762830437854824471250147307, 334348777115448960858137990059),
  (-334348777115448960858137990059, 1222762830437854824471250147307),
  (628203601605700207685207318973, 1101044176765227241164266598741),
  (-1101044176765227241164266598741, 628203601605700207685207318973),
  (1001735814523492724128332308148, 776829068817551947183303305183),
  (-776829068817551947183303305183, 1001735814523492724128332308148),
  (159033085023269151994731957284, 1257635289790713498681922143519),
  (-1257635289790713498681922143519, 159033085023269151994731957284),
  (1249646804199760321976925836471, 212887080426023419250264707876),
  (-212887080426023419250264707876, 1249646804199760321976925836471),
  (733099831141501233496453319081, 1034167627533995406390585781012),
  (-1034167627533995406390585781012, 733099831141501233496453319081),
  (1073054746624684501817716543480, 674901144616916782048640535294),
  (-674901144616916782048640535294, 1073054746624684501817716543480),
  (281537111933542338107449522999, 1235991463911911621393199257681),
  (-1235991463911911621393199257681, 281537111933542338107449522999),
  (1184102982188676439533971619599, 452590512307619283500464432829),
  (-452590512307619283500464432829, 1184102982188676439533971619599),
  (517257427975415618804526431299, 1157317068682238004740198583249),
  (-1157317068682238004740198583249, 517257427975415618804526431299),
  (920769618923940743356834065665, 871275704427508537455392974464),
  (-871275704427508537455392974464, 920769618923940743356834065665),
  (34997482567894380321913704690, 1267167400335449051325222437436),
  (-1267167400335449051325222437436, 34997482567894380321913704690)]

/-- Roots to 100 bits, entries 960 to 1023. -/
def rootHP15 : List (Int × Int) := [
  (1266308529901082772294591144105, 58315961440662486489909427364),
  (-58315961440662486489909427364, 1266308529901082772294591144105),
  (854179736781317937343357390303, 936650960353529280481650446909),
  (-936650960353529280481650446909, 854179736781317937343357390303),
  (1147599980334284192737253195351, 538472217849482750480903087135),
  (-538472217849482750480903087135, 1147599980334284192737253195351),
  (430718371461991785393410327907, 1192233084905850084205471824658),
  (-1192233084905850084205471824658, 430718371461991785393410327907),
  (1230599886879897032543873654699, 304239975463736360864862471034),
  (-304239975463736360864862471034, 1230599886879897032543873654699),
  (655035375181736672108613718003, 1085295674698610301329295571404),
  (-1085295674698610301329295571404, 655035375181736672108613718003),
  (1020498450125908309577670662242, 752011274881972302197139611780),
  (-752011274881972302197139611780, 1020498450125908309577670662242),
  (189849102276608097823971481848, 1253353646272174960201038328409),
  (-1253353646272174960201038328409, 189849102276608097823971481848),
  (1254494944436297856684813342767, 182155095022786087242899208093),
  (-182155095022786087242899208093, 1254494944436297856684813342767),
  (758258779256855389420150925880, 1015864985093439337090976796215),
  (-1015864985093439337090976796215, 758258779256855389420150925880),
  (1089294465817470658237599568909, 648363795255735669333645744434),
  (-648363795255735669333645744434, 1089294465817470658237599568909),
  (311785067187334414804641431695, 1228709939789688378495617562045),
  (-1228709939789688378495617562045, 311785067187334414804641431695),
  (1194853479698515614143793365447, 423394858626482627560029707045),
  (-423394858626482627560029707045, 1194853479698515614143793365447),
  (545503622364857710207738125505, 1144274373673468659902158740381),
  (-1144274373673468659902158740381, 545503622364857710207738125505),
  (941874476498434556083390348136, 848416474839916181262997317275),
  (-848416474839916181262997317275, 941874476498434556083390348136),
  (66084786728881948093446178596, 1265926871988263176663382514734),
  (-1265926871988263176663382514734, 66084786728881948093446178596),
  (1261921777214992459917263869082, 120380531854387536490317037682),
  (-120380531854387536490317037682, 1261921777214992459917263869082),
  (807191555598620224940657570530, 977435336392781468656019768839),
  (-977435336392781468656019768839, 807191555598620224940657570530),
  (1119796066479227341594247159554, 594133666573979070989977361824),
  (-594133666573979070989977361824, 1119796066479227341594247159554),
  (371699447587795829005732850387, 1211931336719171436829064579760),
  (-1211931336719171436829064579760, 371699447587795829005732850387),
  (1214189227388804033918204659787, 364256179565933249790197351935),
  (-364256179565933249790197351935, 1214189227388804033918204659787),
  (600993421670102124321522145137, 1116129450990454376453021451777),
  (-1116129450990454376453021451777, 600993421670102124321522145137),
  (982369770723722912532436157371, 801178929969585728347114270332),
  (-801178929969585728347114270332, 982369770723722912532436157371),
  (128121272186142259528478978441, 1261159380836694536054503163196),
  (-1261159380836694536054503163196, 128121272186142259528478978441),
  (1244045923455676560318557087800, 243490830612372777688160768153),
  (-243490830612372777688160768153, 1244045923455676560318557087800),
  (707499291100235750737478562911, 1051847326065743321273773472305),
  (-1051847326065743321273773472305, 707499291100235750737478562911),
  (1056168659376632999973298563451, 701031958764759920389649611883),
  (-701031958764759920389649611883, 1056168659376632999973298563451),
  (251119569250872176007979582592, 1242528472992971975963943928004),
  (-1242528472992971975963943928004, 251119569250872176007979582592),
  (1172639225318829151532166081316, 481513542387591121964654520888),
  (-481513542387591121964654520888, 1172639225318829151532166081316),
  (488699657052862152632931271853, 1169662639163705696421914101678),
  (-1169662639163705696421914101678, 488699657052862152632931271853),
  (899110124160800818886812182565, 893610110109850766508668702967),
  (-893610110109850766508668702967, 899110124160800818886812182565),
  (3889097232048075534265022357, 1267644634423113846968036898776),
  (-1267644634423113846968036898776, 3889097232048075534265022357)]

def rootHP : List (Int × Int) :=
  rootHP0 ++ rootHP1 ++ rootHP2 ++ rootHP3 ++ rootHP4 ++ rootHP5 ++ rootHP6 ++ rootHP7 ++ rootHP8 ++ rootHP9 ++ rootHP10 ++ rootHP11 ++ rootHP12 ++ rootHP13 ++ rootHP14 ++ rootHP15

end Falcon
