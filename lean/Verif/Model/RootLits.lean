import Mathlib.Data.Rat.Init

/-!
# The table of roots of include/fft.hpp, as written in the source
-/

namespace Falcon

/-- fft.hpp:55-1080 `POWERS_OF_ζ`: (m, e, m', e') stands for the literal {m * 10^-e, m' * 10^-e'}, entries 0 to 63. -/
def rootLits0 : List (Int × Nat × Int × Nat) := [
  (10, 1, 0, 1),
  (6123233995736766, 32, 10, 1),
  (7071067811865476, 16, 7071067811865475, 16),
  (-7071067811865475, 16, 7071067811865476, 16),
  (9238795325112867, 16, 3826834323650898, 16),
  (-3826834323650897, 16, 9238795325112867, 16),
  (38268343236508984, 17, 9238795325112867, 16),
  (-9238795325112867, 16, 38268343236508984, 17),
  (9807852804032304, 16, 19509032201612825, 17),
  (-1950903220161282, 16, 9807852804032304, 16),
  (5555702330196023, 16, 8314696123025451, 16),
  (-8314696123025453, 16, 5555702330196022, 16),
  (8314696123025452, 16, 5555702330196022, 16),
  (-555570233019602, 15, 8314696123025455, 16),
  (1950903220161283, 16, 9807852804032304, 16),
  (-9807852804032304, 16, 19509032201612858, 17),
  (9951847266721969, 16, 980171403295606, 16),
  (-9801714032956066, 17, 9951847266721969, 16),
  (6343932841636456, 16, 7730104533627369, 16),
  (-773010453362737, 15, 6343932841636455, 16),
  (881921264348355, 15, 47139673682599764, 17),
  (-4713967368259977, 16, 881921264348355, 15),
  (2902846772544623, 16, 9569403357322089, 16),
  (-9569403357322088, 16, 29028467725446233, 17),
  (9569403357322088, 16, 29028467725446233, 17),
  (-2902846772544622, 16, 9569403357322089, 16),
  (4713967368259978, 16, 8819212643483549, 16),
  (-8819212643483549, 16, 4713967368259978, 16),
  (773010453362737, 15, 6343932841636455, 16),
  (-6343932841636453, 16, 7730104533627371, 16),
  (9801714032956077, 17, 9951847266721968, 16),
  (-9951847266721968, 16, 9801714032956084, 17),
  (9987954562051724, 16, 49067674327418015, 18),
  (-4906767432741801, 17, 9987954562051724, 16),
  (6715589548470184, 16, 740951125354959, 15),
  (-7409511253549589, 16, 6715589548470186, 16),
  (9039892931234433, 16, 4275550934302821, 16),
  (-42755509343028186, 17, 9039892931234434, 16),
  (33688985339222005, 17, 9415440651830208, 16),
  (-9415440651830207, 16, 3368898533922203, 16),
  (970031253194544, 15, 24298017990326387, 17),
  (-24298017990326387, 17, 970031253194544, 15),
  (5141027441932218, 16, 8577286100002721, 16),
  (-8577286100002721, 16, 5141027441932218, 16),
  (8032075314806449, 16, 5956993044924334, 16),
  (-5956993044924332, 16, 8032075314806449, 16),
  (14673047445536175, 17, 989176509964781, 15),
  (-989176509964781, 15, 1467304744553618, 16),
  (989176509964781, 15, 14673047445536175, 17),
  (-14673047445536164, 17, 989176509964781, 15),
  (5956993044924335, 16, 8032075314806448, 16),
  (-8032075314806448, 16, 5956993044924335, 16),
  (8577286100002721, 16, 5141027441932217, 16),
  (-5141027441932216, 16, 8577286100002721, 16),
  (24298017990326398, 17, 970031253194544, 15),
  (-970031253194544, 15, 24298017990326404, 17),
  (9415440651830208, 16, 33688985339222005, 17),
  (-33688985339221994, 17, 9415440651830208, 16),
  (4275550934302822, 16, 9039892931234433, 16),
  (-9039892931234433, 16, 42755509343028203, 17),
  (7409511253549592, 16, 6715589548470183, 16),
  (-6715589548470184, 16, 740951125354959, 15),
  (4906767432741813, 17, 9987954562051724, 16),
  (-9987954562051724, 16, 4906767432741797, 17)]

/-- fft.hpp:55-1080 `POWERS_OF_ζ`: (m, e, m', e') stands for the literal {m * 10^-e, m' * 10^-e'}, entries 64 to 127. -/
def rootLits1 : List (Int × Nat × Int × Nat) := [
  (9996988186962042, 16, 24541228522912288, 18),
  (-24541228522912142, 18, 9996988186962042, 16),
  (6895405447370669, 16, 7242470829514669, 16),
  (-7242470829514669, 16, 689540544737067, 15),
  (9142097557035307, 16, 40524131400498986, 17),
  (-40524131400498975, 17, 9142097557035307, 16),
  (3598950365349883, 16, 9329927988347388, 16),
  (-9329927988347388, 16, 35989503653498833, 17),
  (9757021300385286, 16, 2191012401568698, 16),
  (-21910124015686966, 17, 9757021300385286, 16),
  (5349976198870974, 16, 844853565249707, 15),
  (-8448535652497071, 16, 5349976198870972, 16),
  (8175848131515837, 16, 5758081914178453, 16),
  (-5758081914178453, 16, 8175848131515837, 16),
  (17096188876030136, 17, 9852776423889412, 16),
  (-9852776423889412, 16, 1709618887603012, 16),
  (99247953459871, 14, 1224106751992162, 16),
  (-12241067519921617, 17, 99247953459871, 14),
  (6152315905806269, 16, 7883464276266062, 16),
  (-7883464276266062, 16, 6152315905806269, 16),
  (8700869911087115, 16, 49289819222978404, 17),
  (-4928981922297839, 16, 8700869911087115, 16),
  (2667127574748984, 16, 9637760657954398, 16),
  (-9637760657954398, 16, 2667127574748985, 16),
  (9495281805930367, 16, 3136817403988915, 16),
  (-31368174039889146, 17, 9495281805930367, 16),
  (4496113296546066, 16, 8932243011955153, 16),
  (-8932243011955152, 16, 4496113296546069, 16),
  (7572088465064846, 16, 6531728429537768, 16),
  (-6531728429537765, 16, 7572088465064848, 16),
  (7356456359966745, 17, 9972904566786902, 16),
  (-9972904566786902, 16, 7356456359966775, 17),
  (9972904566786902, 16, 7356456359966743, 17),
  (-7356456359966734, 17, 9972904566786902, 16),
  (6531728429537769, 16, 7572088465064845, 16),
  (-7572088465064847, 16, 6531728429537766, 16),
  (8932243011955153, 16, 44961132965460654, 17),
  (-4496113296546067, 16, 8932243011955152, 16),
  (3136817403988915, 16, 9495281805930367, 16),
  (-9495281805930367, 16, 3136817403988914, 16),
  (9637760657954398, 16, 26671275747489837, 17),
  (-2667127574748983, 16, 9637760657954398, 16),
  (49289819222978415, 17, 8700869911087113, 16),
  (-8700869911087113, 16, 49289819222978415, 17),
  (7883464276266063, 16, 6152315905806268, 16),
  (-6152315905806267, 16, 7883464276266063, 16),
  (12241067519921628, 17, 99247953459871, 14),
  (-99247953459871, 14, 12241067519921635, 17),
  (9852776423889412, 16, 17096188876030122, 17),
  (-17096188876030124, 17, 9852776423889412, 16),
  (5758081914178454, 16, 8175848131515837, 16),
  (-8175848131515836, 16, 5758081914178454, 16),
  (8448535652497071, 16, 5349976198870972, 16),
  (-5349976198870969, 16, 8448535652497072, 16),
  (21910124015686977, 17, 9757021300385286, 16),
  (-9757021300385285, 16, 21910124015687002, 17),
  (932992798834739, 15, 3598950365349881, 16),
  (-35989503653498817, 17, 9329927988347388, 16),
  (4052413140049898, 16, 9142097557035307, 16),
  (-9142097557035307, 16, 40524131400498986, 17),
  (724247082951467, 15, 6895405447370668, 16),
  (-6895405447370668, 16, 724247082951467, 15),
  (24541228522912267, 18, 9996988186962042, 16),
  (-9996988186962042, 16, 24541228522912326, 18)]

/-- fft.hpp:55-1080 `POWERS_OF_ζ`: (m, e, m', e') stands for the literal {m * 10^-e, m' * 10^-e'}, entries 128 to 191. -/
def rootLits2 : List (Int × Nat × Int × Nat) := [
  (9999247018391445, 16, 12271538285719925, 18),
  (-12271538285719823, 18, 9999247018391445, 16),
  (6983762494089729, 16, 7157308252838186, 16),
  (-7157308252838186, 16, 6983762494089729, 16),
  (9191138516900578, 16, 3939920400610481, 16),
  (-393992040061048, 15, 9191138516900578, 16),
  (3713171939518376, 16, 9285060804732155, 16),
  (-9285060804732155, 16, 37131719395183765, 17),
  (9783173707196277, 16, 20711137619221856, 17),
  (-20711137619221845, 17, 9783173707196277, 16),
  (5453249884220466, 16, 838224705554838, 15),
  (-8382247055548381, 16, 5453249884220464, 16),
  (8245893027850253, 16, 5657318107836131, 16),
  (-5657318107836132, 16, 8245893027850253, 16),
  (18303988795514103, 17, 9831054874312163, 16),
  (-9831054874312164, 16, 1830398879551409, 16),
  (9939069700023561, 16, 11022220729388306, 17),
  (-11022220729388307, 17, 9939069700023561, 16),
  (6248594881423865, 16, 7807372285720944, 16),
  (-7807372285720945, 16, 6248594881423863, 16),
  (8760700941954066, 16, 4821837720791227, 16),
  (-4821837720791227, 16, 8760700941954066, 16),
  (27851968938505306, 17, 9604305194155658, 16),
  (-9604305194155658, 16, 2785196893850531, 16),
  (9533060403541939, 16, 3020059493192281, 16),
  (-3020059493192281, 16, 9533060403541939, 16),
  (46053871095824, 14, 8876396204028539, 16),
  (-8876396204028538, 16, 4605387109582402, 16),
  (765167265622459, 15, 6438315428897914, 16),
  (-6438315428897913, 16, 7651672656224591, 16),
  (8579731234443988, 17, 996312612182778, 15),
  (-996312612182778, 15, 8579731234444016, 17),
  (9981181129001492, 16, 6132073630220858, 17),
  (-6132073630220853, 17, 9981181129001492, 16),
  (6624157775901718, 16, 7491363945234593, 16),
  (-749136394523459, 15, 662415777590172, 15),
  (8986744656939538, 16, 43861623853852766, 17),
  (-4386162385385274, 16, 8986744656939539, 16),
  (325310292162263, 15, 9456073253805213, 16),
  (-9456073253805213, 16, 3253102921622632, 16),
  (9669764710448521, 16, 25486565960451457, 17),
  (-2548656596045145, 16, 9669764710448521, 16),
  (5035383837257176, 16, 8639728561215867, 16),
  (-8639728561215867, 16, 5035383837257176, 16),
  (7958369046088836, 16, 6055110414043255, 16),
  (-6055110414043254, 16, 7958369046088836, 16),
  (13458070850712622, 17, 99090263542778, 14),
  (-99090263542778, 14, 13458070850712628, 17),
  (9873014181578584, 16, 15885814333386145, 17),
  (-15885814333386128, 17, 9873014181578584, 16),
  (5857978574564389, 16, 8104571982525948, 16),
  (-8104571982525947, 16, 585797857456439, 15),
  (8513551931052652, 16, 524589682678469, 15),
  (-5245896826784687, 16, 8513551931052652, 16),
  (23105810828067125, 17, 9729399522055601, 16),
  (-9729399522055601, 16, 2310581082806713, 16),
  (937339011912575, 15, 34841868024943456, 17),
  (-3484186802494344, 16, 937339011912575, 15),
  (4164295600976373, 16, 9091679830905224, 16),
  (-9091679830905224, 16, 41642956009763715, 17),
  (7326542716724128, 16, 680600997795453, 15),
  (-680600997795453, 15, 7326542716724128, 16),
  (3680722294135899, 17, 9993223845883495, 16),
  (-9993223845883495, 16, 3680722294135883, 17)]

/-- fft.hpp:55-1080 `POWERS_OF_ζ`: (m, e, m', e') stands for the literal {m * 10^-e, m' * 10^-e'}, entries 192 to 255. -/
def rootLits3 : List (Int × Nat × Int × Nat) := [
  (9993223845883495, 16, 3680722294135883, 17),
  (-36807222941358866, 18, 9993223845883495, 16),
  (6806009977954531, 16, 7326542716724127, 16),
  (-7326542716724127, 16, 6806009977954532, 16),
  (9091679830905224, 16, 41642956009763715, 17),
  (-416429560097637, 15, 9091679830905225, 16),
  (3484186802494345, 16, 937339011912575, 15),
  (-9373390119125748, 16, 3484186802494348, 16),
  (9729399522055602, 16, 2310581082806711, 16),
  (-23105810828067117, 17, 9729399522055602, 16),
  (524589682678469, 15, 8513551931052652, 16),
  (-8513551931052652, 16, 524589682678469, 15),
  (8104571982525948, 16, 5857978574564389, 16),
  (-5857978574564389, 16, 8104571982525948, 16),
  (1588581433338614, 16, 9873014181578584, 16),
  (-9873014181578584, 16, 15885814333386145, 17),
  (99090263542778, 14, 13458070850712617, 17),
  (-1345807085071261, 16, 99090263542778, 14),
  (6055110414043255, 16, 7958369046088835, 16),
  (-7958369046088835, 16, 6055110414043255, 16),
  (8639728561215867, 16, 5035383837257176, 16),
  (-5035383837257175, 16, 8639728561215868, 16),
  (2548656596045146, 16, 9669764710448521, 16),
  (-9669764710448521, 16, 2548656596045147, 16),
  (9456073253805213, 16, 3253102921622629, 16),
  (-32531029216226287, 17, 9456073253805214, 16),
  (4386162385385277, 16, 8986744656939538, 16),
  (-8986744656939539, 16, 43861623853852755, 17),
  (7491363945234594, 16, 6624157775901718, 16),
  (-6624157775901718, 16, 7491363945234593, 16),
  (61320736302208655, 18, 9981181129001492, 16),
  (-9981181129001492, 16, 61320736302208495, 18),
  (996312612182778, 15, 857973123444399, 16),
  (-8579731234443977, 17, 996312612182778, 15),
  (6438315428897915, 16, 7651672656224588, 16),
  (-765167265622459, 15, 6438315428897914, 16),
  (8876396204028539, 16, 46053871095824, 14),
  (-4605387109582401, 16, 8876396204028539, 16),
  (3020059493192282, 16, 9533060403541938, 16),
  (-9533060403541939, 16, 30200594931922803, 17),
  (9604305194155658, 16, 27851968938505306, 17),
  (-27851968938505295, 17, 9604305194155659, 16),
  (4821837720791229, 16, 8760700941954065, 16),
  (-8760700941954065, 16, 4821837720791229, 16),
  (7807372285720945, 16, 6248594881423863, 16),
  (-6248594881423862, 16, 7807372285720946, 16),
  (11022220729388318, 17, 9939069700023561, 16),
  (-9939069700023561, 16, 11022220729388325, 17),
  (9831054874312163, 16, 18303988795514095, 17),
  (-18303988795514095, 17, 9831054874312163, 16),
  (5657318107836132, 16, 8245893027850253, 16),
  (-8245893027850251, 16, 5657318107836135, 16),
  (838224705554838, 15, 5453249884220465, 16),
  (-5453249884220461, 16, 8382247055548382, 16),
  (20711137619221856, 17, 9783173707196277, 16),
  (-9783173707196275, 16, 20711137619221884, 17),
  (9285060804732156, 16, 37131719395183754, 17),
  (-37131719395183754, 17, 9285060804732156, 16),
  (3939920400610481, 16, 9191138516900578, 16),
  (-9191138516900578, 16, 39399204006104815, 17),
  (7157308252838186, 16, 6983762494089729, 16),
  (-6983762494089728, 16, 7157308252838187, 16),
  (12271538285719944, 18, 9999247018391445, 16),
  (-9999247018391445, 16, 12271538285720007, 18)]

/-- fft.hpp:55-1080 `POWERS_OF_ζ`: (m, e, m', e') stands for the literal {m * 10^-e, m' * 10^-e'}, entries 256 to 319. -/
def rootLits4 : List (Int × Nat × Int × Nat) := [
  (9999811752826011, 16, 6135884649154475, 18),
  (-6135884649154393, 18, 9999811752826011, 16),
  (7027547444572254, 16, 7114321957452163, 16),
  (-7114321957452165, 16, 7027547444572252, 16),
  (9215140393420419, 16, 38834504669882625, 17),
  (-3883450466988262, 16, 921514039342042, 15),
  (3770074102164183, 16, 9262102421383114, 16),
  (-9262102421383114, 16, 37700741021641815, 17),
  (9795697656854405, 16, 2011046348420919, 16),
  (-20110463484209182, 17, 9795697656854405, 16),
  (5504579729366049, 16, 83486287498638, 14),
  (-83486287498638, 14, 5504579729366049, 16),
  (8280450452577558, 16, 560661576197336, 15),
  (-5606615761973359, 16, 8280450452577559, 16),
  (18906866414980628, 17, 9819638691095552, 16),
  (-9819638691095552, 16, 18906866414980633, 17),
  (9945645707342554, 16, 10412163387205459, 17),
  (-10412163387205461, 17, 9945645707342554, 16),
  (6296382389149271, 16, 7768884656732324, 16),
  (-7768884656732323, 16, 6296382389149272, 16),
  (8790122264286335, 16, 4767992300633221, 16),
  (-476799230063322, 15, 8790122264286335, 16),
  (2844075372112718, 16, 9587034748958716, 16),
  (-9587034748958715, 16, 28440753721127204, 17),
  (9551411683057707, 16, 2961508882436238, 16),
  (-29615088824362384, 17, 9551411683057707, 16),
  (4659764957679661, 16, 8847970984309378, 16),
  (-8847970984309378, 16, 4659764957679662, 16),
  (7691033376455797, 16, 6391244448637757, 16),
  (-6391244448637757, 16, 7691033376455797, 16),
  (919089564971327, 16, 9957674144676598, 16),
  (-9957674144676598, 16, 9190895649713277, 17),
  (9984755805732948, 16, 5519524434968994, 17),
  (-5519524434968991, 17, 9984755805732948, 16),
  (6669999223036376, 16, 745057785441466, 15),
  (-745057785441466, 15, 6669999223036376, 16),
  (901348847046022, 15, 43309381885315196, 17),
  (-43309381885315196, 17, 901348847046022, 15),
  (33110630575987643, 17, 9435934581619604, 16),
  (-9435934581619604, 16, 3311063057598765, 16),
  (9685220942744173, 16, 24892760574572015, 17),
  (-24892760574572015, 17, 9685220942744173, 16),
  (5088301425431071, 16, 8608669386377672, 16),
  (-8608669386377672, 16, 5088301425431073, 16),
  (799537269107905, 15, 600616479383869, 15),
  (-6006164793838686, 16, 7995372691079052, 16),
  (14065823933284924, 17, 9900582102622971, 16),
  (-990058210262297, 15, 14065823933284952, 17),
  (9882575677307495, 16, 15279718525844344, 17),
  (-1527971852584433, 16, 9882575677307495, 16),
  (5907597018588743, 16, 8068475535437992, 16),
  (-8068475535437993, 16, 5907597018588742, 16),
  (8545579883654005, 16, 5193559901655896, 16),
  (-5193559901655896, 16, 8545579883654005, 16),
  (23702360599436734, 17, 9715038909862518, 16),
  (-9715038909862518, 16, 23702360599436717, 17),
  (9394592236021899, 16, 3426607173119944, 16),
  (-34266071731199427, 17, 9394592236021899, 16),
  (4220002707997998, 16, 9065957045149153, 16),
  (-9065957045149153, 16, 42200027079979985, 17),
  (7368165688773698, 16, 6760927035753159, 16),
  (-6760927035753158, 16, 73681656887737, 14),
  (4293825693494096, 17, 9990777277526454, 16),
  (-9990777277526454, 16, 4293825693494102, 17)]

/-- fft.hpp:55-1080 `POWERS_OF_ζ`: (m, e, m', e') stands for the literal {m * 10^-e, m' * 10^-e'}, entries 320 to 383. -/
def rootLits5 : List (Int × Nat × Int × Nat) := [
  (9995294175010931, 16, 30674803176636626, 18),
  (-3067480317663646, 17, 9995294175010931, 16),
  (6850836677727005, 16, 7284643904482252, 16),
  (-7284643904482252, 16, 6850836677727004, 16),
  (9117060320054299, 16, 4108431710579039, 16),
  (-4108431710579038, 16, 9117060320054299, 16),
  (3541635254204905, 16, 9351835099389475, 16),
  (-9351835099389476, 16, 35416352542049034, 17),
  (9743393827855759, 16, 22508391135979283, 17),
  (-22508391135979267, 17, 9743393827855759, 16),
  (5298036246862948, 16, 8481203448032971, 16),
  (-8481203448032971, 16, 5298036246862948, 16),
  (8140363297059484, 16, 5808139580957645, 16),
  (-5808139580957643, 16, 8140363297059485, 16),
  (16491312048997006, 17, 9863080972445987, 16),
  (-9863080972445986, 16, 16491312048997012, 17),
  (9917097536690995, 16, 12849811079379317, 17),
  (-1284981107937931, 16, 9917097536690995, 16),
  (6103828062763095, 16, 7921065773002123, 16),
  (-7921065773002122, 16, 6103828062763097, 16),
  (8670462455156926, 16, 49822766697278187, 17),
  (-49822766697278154, 17, 8670462455156929, 16),
  (26079411791527557, 17, 9653944416976894, 16),
  (-9653944416976893, 16, 26079411791527585, 17),
  (9475855910177411, 16, 3195020308160157, 16),
  (-31950203081601564, 17, 9475855910177412, 16),
  (44412214457042926, 17, 8959662497561851, 16),
  (-8959662497561851, 16, 4441221445704293, 16),
  (7531867990436125, 16, 6578066932970786, 16),
  (-6578066932970785, 16, 7531867990436125, 16),
  (674439195636641, 16, 9977230666441916, 16),
  (-9977230666441916, 16, 6744391956366418, 17),
  (9968202992911657, 16, 7968243797143013, 17),
  (-7968243797143001, 17, 9968202992911657, 16),
  (6485144010221126, 16, 7612023854842618, 16),
  (-7612023854842618, 16, 6485144010221126, 16),
  (8904487232447579, 16, 45508358712634384, 17),
  (-4550835871263437, 16, 890448723244758, 15),
  (307849640041535, 15, 9514350209690083, 16),
  (-9514350209690083, 16, 30784964004153503, 17),
  (9621214042690416, 16, 272621355449949, 15),
  (-27262135544994887, 17, 9621214042690416, 16),
  (4875501601484361, 16, 87309497841829, 14),
  (-8730949784182902, 16, 4875501601484359, 16),
  (7845565971555752, 16, 6200572117632891, 16),
  (-6200572117632892, 16, 7845565971555752, 16),
  (11631863091190486, 17, 9932119492347945, 16),
  (-9932119492347945, 16, 11631863091190471, 17),
  (984210092386929, 15, 17700422041214875, 17),
  (-17700422041214875, 17, 984210092386929, 15),
  (5707807458869674, 16, 8211025149911046, 16),
  (-8211025149911046, 16, 5707807458869673, 16),
  (8415549774368984, 16, 5401714727298929, 16),
  (-5401714727298929, 16, 8415549774368984, 16),
  (21311031991609136, 17, 9770281426577544, 16),
  (-9770281426577544, 16, 21311031991609142, 17),
  (9307669610789837, 16, 36561299780477385, 17),
  (-36561299780477385, 17, 9307669610789837, 16),
  (3996241998456468, 16, 9166790599210427, 16),
  (-9166790599210426, 16, 39962419984564707, 17),
  (7200025079613817, 16, 6939714608896539, 16),
  (-6939714608896538, 16, 7200025079613819, 16),
  (1840672990580482, 17, 9998305817958234, 16),
  (-9998305817958234, 16, 184067299058051, 16)]

/-- fft.hpp:55-1080 `POWERS_OF_ζ`: (m, e, m', e') stands for the literal {m * 10^-e, m' * 10^-e'}, entries 384 to 447. -/
def rootLits6 : List (Int × Nat × Int × Nat) := [
  (9998305817958234, 16, 1840672990580482, 17),
  (-18406729905804695, 18, 9998305817958234, 16),
  (693971460889654, 15, 7200025079613817, 16),
  (-7200025079613817, 16, 6939714608896539, 16),
  (9166790599210427, 16, 3996241998456468, 16),
  (-39962419984564673, 17, 9166790599210427, 16),
  (36561299780477396, 17, 9307669610789837, 16),
  (-9307669610789837, 16, 3656129978047738, 16),
  (9770281426577544, 16, 21311031991609136, 17),
  (-21311031991609125, 17, 9770281426577544, 16),
  (540171472729893, 15, 8415549774368983, 16),
  (-8415549774368983, 16, 540171472729893, 15),
  (8211025149911046, 16, 5707807458869673, 16),
  (-5707807458869671, 16, 8211025149911048, 16),
  (17700422041214886, 17, 984210092386929, 15),
  (-984210092386929, 15, 17700422041214892, 17),
  (9932119492347945, 16, 11631863091190475, 17),
  (-11631863091190475, 17, 9932119492347945, 16),
  (6200572117632892, 16, 7845565971555752, 16),
  (-7845565971555751, 16, 6200572117632894, 16),
  (8730949784182901, 16, 487550160148436, 15),
  (-4875501601484357, 16, 8730949784182902, 16),
  (272621355449949, 15, 9621214042690416, 16),
  (-9621214042690416, 16, 27262135544994925, 17),
  (9514350209690083, 16, 30784964004153487, 17),
  (-30784964004153487, 17, 9514350209690083, 16),
  (45508358712634384, 17, 8904487232447579, 16),
  (-8904487232447579, 16, 4550835871263439, 16),
  (7612023854842618, 16, 6485144010221124, 16),
  (-6485144010221124, 16, 7612023854842619, 16),
  (7968243797143013, 17, 9968202992911657, 16),
  (-9968202992911657, 16, 796824379714302, 16),
  (9977230666441916, 16, 6744391956366405, 17),
  (-67443919563664, 15, 9977230666441916, 16),
  (6578066932970787, 16, 7531867990436124, 16),
  (-7531867990436124, 16, 6578066932970787, 16),
  (8959662497561852, 16, 4441221445704292, 16),
  (-44412214457042914, 17, 8959662497561852, 16),
  (31950203081601575, 17, 9475855910177411, 16),
  (-9475855910177411, 16, 3195020308160158, 16),
  (9653944416976894, 16, 2607941179152755, 16),
  (-26079411791527546, 17, 9653944416976894, 16),
  (4982276669727819, 16, 8670462455156926, 16),
  (-8670462455156926, 16, 49822766697278176, 17),
  (7921065773002124, 16, 6103828062763095, 16),
  (-6103828062763095, 16, 7921065773002123, 16),
  (12849811079379322, 17, 9917097536690995, 16),
  (-9917097536690995, 16, 12849811079379306, 17),
  (9863080972445987, 16, 16491312048996992, 17),
  (-16491312048996995, 17, 9863080972445987, 16),
  (5808139580957646, 16, 8140363297059483, 16),
  (-8140363297059484, 16, 5808139580957645, 16),
  (8481203448032972, 16, 5298036246862946, 16),
  (-5298036246862946, 16, 8481203448032972, 16),
  (22508391135979278, 17, 9743393827855759, 16),
  (-9743393827855759, 16, 22508391135979283, 17),
  (9351835099389476, 16, 35416352542049034, 17),
  (-3541635254204904, 16, 9351835099389476, 16),
  (4108431710579039, 16, 9117060320054299, 16),
  (-9117060320054298, 16, 41084317105790413, 17),
  (7284643904482252, 16, 6850836677727004, 16),
  (-6850836677727002, 16, 7284643904482253, 16),
  (30674803176636584, 18, 9995294175010931, 16),
  (-9995294175010931, 16, 30674803176636865, 18)]

/-- fft.hpp:55-1080 `POWERS_OF_ζ`: (m, e, m', e') stands for the literal {m * 10^-e, m' * 10^-e'}, entries 448 to 511. -/
def rootLits7 : List (Int × Nat × Int × Nat) := [
  (9990777277526454, 16, 4293825693494082, 17),
  (-42938256934940834, 18, 9990777277526454, 16),
  (676092703575316, 15, 7368165688773698, 16),
  (-7368165688773698, 16, 6760927035753159, 16),
  (9065957045149153, 16, 4220002707997997, 16),
  (-4220002707997997, 16, 9065957045149153, 16),
  (3426607173119944, 16, 9394592236021899, 16),
  (-9394592236021899, 16, 34266071731199443, 17),
  (9715038909862518, 16, 2370236059943672, 16),
  (-23702360599436723, 17, 9715038909862518, 16),
  (5193559901655896, 16, 8545579883654005, 16),
  (-8545579883654004, 16, 5193559901655898, 16),
  (8068475535437993, 16, 5907597018588742, 16),
  (-590759701858874, 15, 8068475535437994, 16),
  (1527971852584434, 16, 9882575677307495, 16),
  (-9882575677307495, 16, 15279718525844369, 17),
  (9900582102622971, 16, 1406582393328492, 16),
  (-14065823933284913, 17, 9900582102622971, 16),
  (600616479383869, 15, 799537269107905, 15),
  (-799537269107905, 15, 6006164793838689, 16),
  (8608669386377673, 16, 508830142543107, 15),
  (-5088301425431071, 16, 8608669386377672, 16),
  (24892760574572026, 17, 9685220942744173, 16),
  (-9685220942744174, 16, 2489276057457201, 16),
  (9435934581619604, 16, 33110630575987643, 17),
  (-3311063057598763, 16, 9435934581619604, 16),
  (433093818853152, 15, 901348847046022, 15),
  (-9013488470460219, 16, 43309381885315207, 17),
  (745057785441466, 15, 6669999223036375, 16),
  (-6669999223036374, 16, 7450577854414661, 16),
  (5519524434969003, 17, 9984755805732948, 16),
  (-9984755805732948, 16, 55195244349690094, 18),
  (9957674144676598, 16, 9190895649713272, 17),
  (-9190895649713259, 17, 9957674144676598, 16),
  (6391244448637758, 16, 7691033376455796, 16),
  (-7691033376455796, 16, 6391244448637758, 16),
  (8847970984309378, 16, 4659764957679662, 16),
  (-465976495767966, 15, 8847970984309379, 16),
  (29615088824362396, 17, 9551411683057707, 16),
  (-9551411683057707, 16, 296150888243624, 15),
  (9587034748958716, 16, 2844075372112719, 16),
  (-2844075372112717, 16, 9587034748958716, 16),
  (47679923006332225, 17, 8790122264286334, 16),
  (-8790122264286335, 16, 4767992300633221, 16),
  (7768884656732324, 16, 629638238914927, 15),
  (-629638238914927, 15, 7768884656732324, 16),
  (10412163387205473, 17, 9945645707342554, 16),
  (-9945645707342554, 16, 10412163387205457, 17),
  (9819638691095552, 16, 1890686641498062, 16),
  (-18906866414980616, 17, 9819638691095552, 16),
  (560661576197336, 15, 8280450452577557, 16),
  (-8280450452577557, 16, 560661576197336, 15),
  (83486287498638, 14, 5504579729366048, 16),
  (-5504579729366047, 16, 8348628749863801, 16),
  (20110463484209193, 17, 9795697656854405, 16),
  (-9795697656854405, 16, 20110463484209198, 17),
  (9262102421383114, 16, 37700741021641826, 17),
  (-3770074102164182, 16, 9262102421383114, 16),
  (3883450466988263, 16, 9215140393420419, 16),
  (-9215140393420418, 16, 3883450466988266, 16),
  (7114321957452164, 16, 7027547444572253, 16),
  (-7027547444572251, 16, 7114321957452168, 16),
  (6135884649154516, 18, 9999811752826011, 16),
  (-9999811752826011, 16, 6135884649154799, 18)]

/-- fft.hpp:55-1080 `POWERS_OF_ζ`: (m, e, m', e') stands for the literal {m * 10^-e, m' * 10^-e'}, entries 512 to 575. -/
def rootLits8 : List (Int × Nat × Int × Nat) := [
  (9999952938095762, 16, 3067956762965976, 18),
  (-30679567629660156, 19, 9999952938095762, 16),
  (704934080375905, 15, 7092728264388656, 16),
  (-7092728264388655, 16, 7049340803759051, 16),
  (9227011283338786, 16, 38551605384391885, 17),
  (-3855160538439189, 16, 9227011283338785, 16),
  (3798472089240511, 16, 9250492407826776, 16),
  (-9250492407826775, 16, 3798472089240514, 16),
  (9801821359681174, 16, 19809841071795356, 17),
  (-19809841071795362, 17, 9801821359681174, 16),
  (5530167055800276, 16, 8331701647019132, 16),
  (-8331701647019132, 16, 5530167055800275, 16),
  (829761233794523, 15, 5581185312205561, 16),
  (-5581185312205561, 16, 829761233794523, 15),
  (19208039704989238, 17, 9813791933137546, 16),
  (-9813791933137546, 16, 19208039704989244, 17),
  (9948793307948056, 16, 10106986275482782, 17),
  (-10106986275482775, 17, 9948793307948056, 16),
  (6320187359398091, 16, 7749531065948738, 16),
  (-7749531065948738, 16, 6320187359398091, 16),
  (8804708890521608, 16, 47410021465054997, 17),
  (-47410021465054997, 17, 8804708890521609, 16),
  (28734745954472957, 17, 9578264130275329, 16),
  (-9578264130275329, 16, 2873474595447296, 16),
  (9560452513499964, 16, 29321916269425863, 17),
  (-2932191626942586, 16, 9560452513499965, 16),
  (46868882203582796, 17, 8833633386657316, 16),
  (-8833633386657317, 16, 46868882203582785, 17),
  (7710605242618138, 16, 6367618612362842, 16),
  (-6367618612362843, 16, 7710605242618137, 16),
  (9496349532963906, 17, 9954807554919269, 16),
  (-9954807554919269, 16, 9496349532963891, 17),
  (9986402181802653, 16, 52131704680283324, 18),
  (-5213170468028319, 17, 9986402181802653, 16),
  (6692825883466361, 16, 7430079521351216, 16),
  (-7430079521351217, 16, 669282588346636, 15),
  (9026733182372588, 16, 4303264813400826, 16),
  (-4303264813400827, 16, 9026733182372588, 16),
  (3339996514420095, 16, 9425731976014469, 16),
  (-9425731976014469, 16, 3339996514420093, 16),
  (9692812353565485, 16, 2459550503357946, 16),
  (-24595505033579448, 17, 9692812353565485, 16),
  (5114688504379705, 16, 8593018183570083, 16),
  (-8593018183570083, 16, 5114688504379705, 16),
  (8013761717231402, 16, 5981607069963424, 16),
  (-5981607069963422, 16, 8013761717231404, 16),
  (14369503315029458, 17, 9896220174632008, 16),
  (-9896220174632008, 16, 14369503315029464, 17),
  (9887216919603238, 16, 1497645346773215, 16),
  (-1497645346773215, 16, 9887216919603238, 16),
  (5932322950397999, 16, 8050313311429635, 16),
  (-8050313311429634, 16, 5932322950398, 13),
  (8561473283751945, 16, 5167317990176499, 16),
  (-5167317990176497, 16, 8561473283751946, 16),
  (2400030224487415, 16, 9707721407289504, 16),
  (-9707721407289502, 16, 24000302244874175, 17),
  (9405060705932683, 16, 33977688440682685, 17),
  (-33977688440682685, 17, 9405060705932683, 16),
  (4247796812091088, 16, 9052967593181188, 16),
  (-9052967593181187, 16, 42477968120910886, 17),
  (7388873244606151, 16, 673829000378756, 15),
  (-673829000378756, 15, 7388873244606152, 16),
  (46003182130914644, 18, 9989412931868569, 16),
  (-9989412931868569, 16, 46003182130914706, 18)]

/-- fft.hpp:55-1080 `POWERS_OF_ζ`: (m, e, m', e') stands for the literal {m * 10^-e, m' * 10^-e'}, entries 576 to 639. -/
def rootLits9 : List (Int × Nat × Int × Nat) := [
  (9996188224951786, 16, 2760814577896574, 17),
  (-27608145778965695, 18, 9996188224951786, 16),
  (6873153408917592, 16, 7263591550843459, 16),
  (-7263591550843458, 16, 6873153408917593, 16),
  (9129621904283982, 16, 4080441628649787, 16),
  (-40804416286497863, 17, 9129621904283982, 16),
  (35703096123343003, 17, 9340925504042589, 16),
  (-9340925504042588, 16, 3570309612334303, 16),
  (9750253450669941, 16, 2220936209732035, 16),
  (-22209362097320348, 17, 9750253450669941, 16),
  (532403127877198, 15, 846490938774052, 15),
  (-846490938774052, 15, 532403127877198, 15),
  (8158144108067338, 16, 5783137964116556, 16),
  (-5783137964116555, 16, 8158144108067339, 16),
  (1679382949747312, 16, 9857975091675674, 16),
  (-9857975091675674, 16, 16793829497473126, 17),
  (9920993131421918, 16, 12545498341154623, 17),
  (-1254549834115461, 16, 9920993131421918, 16),
  (6128100824294098, 16, 79023022143731, 14),
  (-7902302214373099, 16, 6128100824294098, 16),
  (8685707059713409, 16, 49556526182577254, 17),
  (-4955652618257723, 16, 868570705971341, 15),
  (2637546789748315, 16, 9645897932898126, 16),
  (-9645897932898126, 16, 26375467897483157, 17),
  (9485613499157303, 16, 31659337555616585, 17),
  (-31659337555616573, 17, 9485613499157304, 16),
  (4468688401623743, 16, 8945994856313826, 16),
  (-8945994856313827, 16, 44686884016237416, 17),
  (7552013768965365, 16, 6554928529996153, 16),
  (-6554928529996153, 16, 7552013768965365, 16),
  (7050457338961401, 17, 9975114561403035, 16),
  (-9975114561403035, 16, 7050457338961386, 17),
  (997060070339483, 15, 7662386139203149, 17),
  (-766238613920315, 16, 997060070339483, 15),
  (650846684996381, 15, 759209188978388, 15),
  (-759209188978388, 15, 650846684996381, 15),
  (8918407093923427, 16, 4523495872337709, 16),
  (-4523495872337709, 16, 8918407093923427, 16),
  (3107671527496115, 16, 9504860739494817, 16),
  (-9504860739494817, 16, 31076715274961153, 17),
  (9629532668736839, 16, 2696683255729151, 16),
  (-2696683255729151, 16, 9629532668736839, 16),
  (49022648328829116, 17, 871595086655951, 15),
  (-871595086655951, 15, 4902264832882914, 16),
  (7864552135990858, 16, 6176473079378039, 16),
  (-6176473079378038, 16, 7864552135990859, 16),
  (11936521481099134, 17, 9928504144598651, 16),
  (-9928504144598651, 16, 11936521481099163, 17),
  (9847485018019042, 16, 17398387338746382, 17),
  (-17398387338746374, 17, 9847485018019042, 16),
  (5732971666980423, 16, 8193475200767969, 16),
  (-819347520076797, 15, 5732971666980421, 16),
  (8432082396418454, 16, 5375870762956454, 16),
  (-5375870762956455, 16, 8432082396418454, 16),
  (2161067970762196, 16, 9763697313300211, 16),
  (-9763697313300211, 16, 21610679707621944, 17),
  (9318842655816681, 16, 3627557243673972, 16),
  (-3627557243673971, 16, 9318842655816681, 16),
  (40243465085941854, 17, 9154487160882678, 16),
  (-9154487160882677, 16, 40243465085941854, 17),
  (7221281939292153, 16, 6917592583641577, 16),
  (-6917592583641576, 16, 7221281939292155, 16),
  (2147408027546961, 17, 9997694053512153, 16),
  (-9997694053512153, 16, 21474080275469667, 18)]

/-- fft.hpp:55-1080 `POWERS_OF_ζ`: (m, e, m', e') stands for the literal {m * 10^-e, m' * 10^-e'}, entries 640 to 703. -/
def rootLits10 : List (Int × Nat × Int × Nat) := [
  (9998823474542126, 16, 153392062849881, 16),
  (-15339206284988098, 18, 9998823474542126, 16),
  (6961771314914631, 16, 7178700450557316, 16),
  (-7178700450557316, 16, 6961771314914631, 16),
  (9179007756213905, 16, 3968099874167103, 16),
  (-3968099874167103, 16, 9179007756213905, 16),
  (3684668299533723, 16, 9296408958431812, 16),
  (-9296408958431812, 16, 3684668299533726, 16),
  (9776773578245099, 16, 2101118368804696, 16),
  (-2101118368804696, 16, 9776773578245099, 16),
  (542750784864516, 15, 8398937941959994, 16),
  (-8398937941959995, 16, 5427507848645159, 16),
  (8228497813758264, 16, 5682589526701315, 16),
  (-5682589526701315, 16, 8228497813758264, 16),
  (18002290140569951, 17, 9836624192117303, 16),
  (-9836624192117303, 16, 18002290140569957, 17),
  (9935641355205953, 16, 11327095217756435, 17),
  (-11327095217756424, 17, 9935641355205953, 16),
  (6224612793741501, 16, 7826505961665756, 16),
  (-7826505961665756, 16, 6224612793741501, 16),
  (8745866522781762, 16, 48486924800079106, 17),
  (-48486924800079095, 17, 8745866522781762, 16),
  (27557181931095825, 17, 9612804858113206, 16),
  (-9612804858113206, 16, 2755718193109583, 16),
  (9523750127197659, 16, 3049292297354024, 16),
  (-3049292297354023, 16, 9523750127197659, 16),
  (4578133035988773, 16, 8890483558546645, 16),
  (-8890483558546646, 16, 4578133035988772, 16),
  (7631884172633814, 16, 6461760129833163, 16),
  (-6461760129833164, 16, 7631884172633813, 16),
  (827402645493758, 16, 9965711457905548, 16),
  (-9965711457905548, 16, 8274026454937565, 17),
  (997925286198596, 15, 6438263092985747, 17),
  (-643826309298573, 16, 997925286198596, 15),
  (6601143420674206, 16, 7511651319096864, 16),
  (-7511651319096864, 16, 6601143420674205, 16),
  (8973245807054183, 16, 44137126873171667, 17),
  (-4413712687317167, 16, 8973245807054182, 16),
  (32240767880106996, 17, 9466009130832835, 16),
  (-9466009130832835, 16, 32240767880106985, 17),
  (9661900034454125, 16, 257831102162159, 15),
  (-2578311021621588, 16, 9661900034454126, 16),
  (5008853826112409, 16, 865513624090569, 15),
  (-865513624090569, 15, 5008853826112409, 16),
  (7939754775543372, 16, 6079497849677736, 16),
  (-6079497849677735, 16, 7939754775543373, 16),
  (13154002870288325, 17, 9913108598461154, 16),
  (-9913108598461154, 16, 1315400287028833, 16),
  (9868094018141855, 16, 16188639378011183, 17),
  (-16188639378011177, 17, 9868094018141855, 16),
  (5833086529376984, 16, 8122505865852039, 16),
  (-8122505865852037, 16, 5833086529376985, 16),
  (8497417680008525, 16, 5271991347819014, 16),
  (-5271991347819011, 16, 8497417680008527, 16),
  (2280720831708858, 16, 9736442496508119, 16),
  (-9736442496508119, 16, 22807208317088606, 17),
  (9362656671702783, 16, 3512927560855671, 16),
  (-35129275608556704, 17, 9362656671702783, 16),
  (41363831223843456, 17, 9104412922580671, 16),
  (-9104412922580671, 16, 4136383122384346, 16),
  (7305627692278276, 16, 6828455463852481, 16),
  (-682845546385248, 15, 7305627692278276, 16),
  (3374117185137764, 17, 9994306045554617, 16),
  (-9994306045554617, 16, 33741171851377705, 18)]

/-- fft.hpp:55-1080 `POWERS_OF_ζ`: (m, e, m', e') stands for the literal {m * 10^-e, m' * 10^-e'}, entries 704 to 767. -/
def rootLits11 : List (Int × Nat × Int × Nat) := [
  (9992047586183639, 16, 3987292758773981, 17),
  (-3987292758773972, 17, 9992047586183639, 16),
  (6783500431298616, 16, 7347388780959634, 16),
  (-7347388780959636, 16, 6783500431298615, 16),
  (9078861164876663, 16, 4192168883632239, 16),
  (-41921688836322407, 17, 9078861164876662, 16),
  (34554132496398915, 17, 9384035340631081, 16),
  (-9384035340631082, 16, 345541324963989, 15),
  (9722264970789363, 16, 23404195858354343, 17),
  (-23404195858354335, 17, 9722264970789363, 16),
  (5219752929371544, 16, 8529606049303636, 16),
  (-8529606049303636, 16, 5219752929371544, 16),
  (808656181588175, 15, 5882815482226452, 16),
  (-5882815482226452, 16, 8086561815881751, 16),
  (15582839765426532, 17, 9877841416445722, 16),
  (-9877841416445722, 16, 15582839765426537, 17),
  (9904850842564571, 16, 13762012158648604, 17),
  (-13762012158648607, 17, 990485084256457, 15),
  (6030665985403483, 16, 797690840943391, 15),
  (-7976908409433909, 16, 6030665985403484, 16),
  (8624239561110405, 16, 5061866453451552, 16),
  (-5061866453451551, 16, 8624239561110407, 16),
  (2518978181542169, 16, 9677538370934755, 16),
  (-9677538370934754, 16, 2518978181542172, 16),
  (9446048372614803, 16, 3282098435790925, 16),
  (-32820984357909255, 17, 9446048372614803, 16),
  (4358570799222555, 16, 9000158920161603, 16),
  (-9000158920161603, 16, 4358570799222555, 16),
  (7471006059801801, 16, 6647109782033448, 16),
  (-6647109782033448, 16, 7471006059801801, 16),
  (5825826450043573, 17, 9983015449338929, 16),
  (-9983015449338929, 16, 58258264500435794, 18),
  (996044700901252, 15, 888535525825246, 16),
  (-8885355258252457, 17, 996044700901252, 15),
  (6414810128085832, 16, 7671389119358203, 16),
  (-7671389119358203, 16, 6414810128085832, 16),
  (8862225301488806, 16, 46325978355186015, 17),
  (-46325978355186015, 17, 8862225301488806, 16),
  (2990798263080405, 16, 9542280951091057, 16),
  (-9542280951091056, 16, 29907982630804053, 17),
  (9595715130819845, 16, 28146493792575794, 17),
  (-28146493792575794, 17, 9595715130819845, 16),
  (47949375766015306, 17, 8775452902072612, 16),
  (-8775452902072611, 16, 4794937576601533, 16),
  (778816512381476, 15, 6272518154951441, 16),
  (-6272518154951439, 16, 7788165123814762, 16),
  (10717242495680887, 17, 9942404494531879, 16),
  (-9942404494531879, 16, 10717242495680916, 17),
  (9825393022874412, 16, 18605515166344663, 17),
  (-18605515166344652, 17, 9825393022874412, 16),
  (5631993440138342, 16, 8263210628456634, 16),
  (-8263210628456635, 16, 5631993440138341, 16),
  (836547727223512, 15, 5478940591731002, 16),
  (-5478940591731002, 16, 836547727223512, 15),
  (204108966092817, 15, 9789481753190622, 16),
  (-9789481753190622, 16, 20410896609281684, 17),
  (9273625256504011, 16, 37416406297145793, 17),
  (-3741640629714579, 16, 9273625256504011, 16),
  (391170384302254, 15, 9203182767091105, 16),
  (-9203182767091105, 16, 39117038430225404, 17),
  (7135848687807935, 16, 7005687939432483, 16),
  (-7005687939432482, 16, 7135848687807937, 16),
  (920375478205996, 17, 9999576445519639, 16),
  (-9999576445519639, 16, 9203754782060022, 18)]

/-- fft.hpp:55-1080 `POWERS_OF_ζ`: (m, e, m', e') stands for the literal {m * 10^-e, m' * 10^-e'}, entries 768 to 831. -/
def rootLits12 : List (Int × Nat × Int × Nat) := [
  (9999576445519639, 16, 920375478205982, 17),
  (-9203754782059839, 18, 9999576445519639, 16),
  (7005687939432484, 16, 7135848687807935, 16),
  (-7135848687807935, 16, 7005687939432483, 16),
  (9203182767091106, 16, 39117038430225387, 17),
  (-39117038430225387, 17, 9203182767091106, 16),
  (37416406297145793, 17, 9273625256504011, 16),
  (-9273625256504011, 16, 374164062971458, 15),
  (9789481753190622, 16, 20410896609281687, 17),
  (-2041089660928169, 16, 9789481753190622, 16),
  (5478940591731003, 16, 8365477272235119, 16),
  (-8365477272235119, 16, 5478940591731003, 16),
  (8263210628456635, 16, 5631993440138341, 16),
  (-5631993440138339, 16, 8263210628456636, 16),
  (1860551516634466, 16, 9825393022874412, 16),
  (-9825393022874412, 16, 18605515166344688, 17),
  (9942404494531879, 16, 10717242495680884, 17),
  (-10717242495680876, 17, 9942404494531879, 16),
  (6272518154951442, 16, 7788165123814759, 16),
  (-7788165123814761, 16, 6272518154951441, 16),
  (8775452902072614, 16, 479493757660153, 15),
  (-47949375766015306, 17, 8775452902072612, 16),
  (28146493792575805, 17, 9595715130819845, 16),
  (-9595715130819845, 16, 2814649379257579, 16),
  (9542280951091057, 16, 2990798263080405, 16),
  (-29907982630804036, 17, 9542280951091057, 16),
  (46325978355186026, 17, 8862225301488806, 16),
  (-8862225301488805, 16, 4632597835518603, 16),
  (7671389119358204, 16, 6414810128085832, 16),
  (-641481012808583, 15, 7671389119358205, 16),
  (8885355258252468, 17, 996044700901252, 15),
  (-996044700901252, 15, 8885355258252475, 17),
  (9983015449338929, 16, 5825826450043575, 17),
  (-5825826450043561, 17, 9983015449338929, 16),
  (6647109782033449, 16, 7471006059801801, 16),
  (-74710060598018, 14, 664710978203345, 15),
  (9000158920161603, 16, 4358570799222555, 16),
  (-43585707992225536, 17, 9000158920161603, 16),
  (32820984357909266, 17, 9446048372614803, 16),
  (-9446048372614801, 16, 3282098435790927, 16),
  (9677538370934755, 16, 25189781815421697, 17),
  (-2518978181542168, 16, 9677538370934755, 16),
  (5061866453451555, 16, 8624239561110405, 16),
  (-8624239561110405, 16, 5061866453451552, 16),
  (7976908409433912, 16, 6030665985403482, 16),
  (-6030665985403482, 16, 7976908409433912, 16),
  (13762012158648618, 17, 990485084256457, 15),
  (-9904850842564571, 16, 137620121586486, 15),
  (9877841416445722, 16, 15582839765426523, 17),
  (-1558283976542652, 16, 9877841416445722, 16),
  (5882815482226453, 16, 808656181588175, 15),
  (-808656181588175, 15, 5882815482226453, 16),
  (8529606049303636, 16, 5219752929371544, 16),
  (-5219752929371543, 16, 8529606049303637, 16),
  (23404195858354346, 17, 9722264970789363, 16),
  (-9722264970789363, 16, 23404195858354349, 17),
  (9384035340631081, 16, 3455413249639891, 16),
  (-34554132496398904, 17, 9384035340631082, 16),
  (41921688836322396, 17, 9078861164876662, 16),
  (-907886116487666, 15, 41921688836322424, 17),
  (7347388780959634, 16, 6783500431298615, 16),
  (-6783500431298612, 16, 7347388780959637, 16),
  (39872927587739845, 18, 9992047586183639, 16),
  (-9992047586183639, 16, 3987292758774013, 17)]

/-- fft.hpp:55-1080 `POWERS_OF_ζ`: (m, e, m', e') stands for the literal {m * 10^-e, m' * 10^-e'}, entries 832 to 895. -/
def rootLits13 : List (Int × Nat × Int × Nat) := [
  (9994306045554617, 16, 3374117185137758, 17),
  (-3374117185137752, 17, 9994306045554617, 16),
  (6828455463852481, 16, 7305627692278276, 16),
  (-7305627692278276, 16, 6828455463852481, 16),
  (9104412922580672, 16, 41363831223843456, 17),
  (-4136383122384345, 16, 9104412922580672, 16),
  (35129275608556715, 17, 9362656671702783, 16),
  (-9362656671702783, 16, 3512927560855672, 16),
  (973644249650812, 15, 22807208317088573, 17),
  (-22807208317088568, 17, 973644249650812, 15),
  (5271991347819014, 16, 8497417680008524, 16),
  (-8497417680008525, 16, 5271991347819013, 16),
  (8122505865852039, 16, 5833086529376983, 16),
  (-5833086529376984, 16, 8122505865852039, 16),
  (16188639378011188, 17, 9868094018141854, 16),
  (-9868094018141855, 16, 16188639378011171, 17),
  (9913108598461154, 16, 13154002870288312, 17),
  (-13154002870288317, 17, 9913108598461154, 16),
  (6079497849677737, 16, 7939754775543371, 16),
  (-7939754775543372, 16, 6079497849677736, 16),
  (8655136240905691, 16, 5008853826112407, 16),
  (-5008853826112407, 16, 8655136240905691, 16),
  (25783110216215893, 17, 9661900034454126, 16),
  (-9661900034454125, 16, 257831102162159, 15),
  (9466009130832835, 16, 32240767880106985, 17),
  (-3224076788010699, 16, 9466009130832835, 16),
  (4413712687317166, 16, 8973245807054183, 16),
  (-8973245807054182, 16, 4413712687317169, 16),
  (7511651319096864, 16, 6601143420674205, 16),
  (-6601143420674203, 16, 7511651319096866, 16),
  (6438263092985741, 17, 997925286198596, 15),
  (-997925286198596, 15, 643826309298577, 16),
  (9965711457905548, 16, 8274026454937569, 17),
  (-8274026454937569, 17, 9965711457905548, 16),
  (6461760129833164, 16, 7631884172633813, 16),
  (-7631884172633812, 16, 6461760129833165, 16),
  (8890483558546646, 16, 45781330359887723, 17),
  (-457813303598877, 15, 8890483558546647, 16),
  (3049292297354024, 16, 9523750127197659, 16),
  (-9523750127197658, 16, 30492922973540265, 17),
  (9612804858113206, 16, 27557181931095814, 17),
  (-27557181931095814, 17, 9612804858113206, 16),
  (4848692480007911, 16, 8745866522781761, 16),
  (-8745866522781761, 16, 4848692480007911, 16),
  (7826505961665757, 16, 62246127937415, 14),
  (-62246127937415, 14, 7826505961665757, 16),
  (11327095217756435, 17, 9935641355205953, 16),
  (-9935641355205953, 16, 11327095217756442, 17),
  (9836624192117303, 16, 18002290140569951, 17),
  (-1800229014056994, 16, 9836624192117303, 16),
  (5682589526701316, 16, 8228497813758263, 16),
  (-8228497813758262, 16, 5682589526701317, 16),
  (8398937941959995, 16, 5427507848645159, 16),
  (-5427507848645158, 16, 8398937941959996, 16),
  (21011183688046972, 17, 9776773578245099, 16),
  (-9776773578245099, 16, 21011183688046978, 17),
  (9296408958431812, 16, 3684668299533723, 16),
  (-3684668299533722, 16, 9296408958431813, 16),
  (3968099874167104, 16, 9179007756213904, 16),
  (-9179007756213905, 16, 39680998741671025, 17),
  (7178700450557317, 16, 696177131491463, 15),
  (-696177131491463, 15, 7178700450557317, 16),
  (1533920628498822, 17, 9998823474542126, 16),
  (-9998823474542126, 16, 1533920628498806, 17)]

/-- fft.hpp:55-1080 `POWERS_OF_ζ`: (m, e, m', e') stands for the literal {m * 10^-e, m' * 10^-e'}, entries 896 to 959. -/
def rootLits14 : List (Int × Nat × Int × Nat) := [
  (9997694053512153, 16, 21474080275469508, 18),
  (-21474080275469484, 18, 9997694053512153, 16),
  (6917592583641579, 16, 7221281939292152, 16),
  (-7221281939292152, 16, 6917592583641579, 16),
  (9154487160882678, 16, 40243465085941843, 17),
  (-40243465085941843, 17, 9154487160882678, 16),
  (3627557243673972, 16, 9318842655816681, 16),
  (-9318842655816681, 16, 3627557243673973, 16),
  (9763697313300211, 16, 21610679707621952, 17),
  (-2161067970762195, 16, 9763697313300211, 16),
  (5375870762956455, 16, 8432082396418454, 16),
  (-8432082396418453, 16, 5375870762956457, 16),
  (819347520076797, 15, 5732971666980422, 16),
  (-573297166698042, 15, 8193475200767971, 16),
  (17398387338746385, 17, 9847485018019042, 16),
  (-9847485018019042, 16, 1739838733874641, 16),
  (9928504144598651, 16, 11936521481099135, 17),
  (-11936521481099123, 17, 9928504144598651, 16),
  (617647307937804, 15, 7864552135990858, 16),
  (-7864552135990858, 16, 6176473079378039, 16),
  (871595086655951, 15, 49022648328829116, 17),
  (-49022648328829116, 17, 871595086655951, 15),
  (2696683255729152, 16, 9629532668736839, 16),
  (-9629532668736839, 16, 26966832557291504, 17),
  (9504860739494817, 16, 3107671527496115, 16),
  (-31076715274961136, 17, 9504860739494818, 16),
  (452349587233771, 15, 8918407093923427, 16),
  (-8918407093923426, 16, 452349587233771, 15),
  (759209188978388, 15, 650846684996381, 15),
  (-6508466849963808, 16, 7592091889783882, 16),
  (7662386139203162, 17, 997060070339483, 15),
  (-997060070339483, 15, 7662386139203169, 17),
  (9975114561403035, 16, 7050457338961386, 17),
  (-705045733896139, 16, 9975114561403035, 16),
  (6554928529996155, 16, 7552013768965364, 16),
  (-7552013768965364, 16, 6554928529996156, 16),
  (8945994856313827, 16, 44686884016237416, 17),
  (-446868840162374, 15, 8945994856313828, 16),
  (31659337555616585, 17, 9485613499157303, 16),
  (-9485613499157303, 16, 31659337555616607, 17),
  (9645897932898128, 16, 26375467897483135, 17),
  (-2637546789748314, 16, 9645897932898128, 16),
  (49556526182577254, 17, 8685707059713409, 16),
  (-8685707059713409, 16, 49556526182577254, 17),
  (79023022143731, 14, 6128100824294097, 16),
  (-6128100824294097, 16, 79023022143731, 14),
  (1254549834115462, 16, 9920993131421918, 16),
  (-9920993131421918, 16, 12545498341154626, 17),
  (9857975091675675, 16, 16793829497473117, 17),
  (-1679382949747311, 16, 9857975091675675, 16),
  (5783137964116557, 16, 8158144108067338, 16),
  (-8158144108067338, 16, 5783137964116557, 16),
  (8464909387740521, 16, 5324031278771979, 16),
  (-5324031278771978, 16, 8464909387740521, 16),
  (2220936209732036, 16, 9750253450669941, 16),
  (-9750253450669941, 16, 22209362097320365, 17),
  (934092550404259, 15, 35703096123343, 14),
  (-3570309612334299, 16, 934092550404259, 15),
  (40804416286497874, 17, 9129621904283981, 16),
  (-9129621904283982, 16, 4080441628649786, 16),
  (726359155084346, 15, 687315340891759, 15),
  (-6873153408917592, 16, 7263591550843459, 16),
  (2760814577896582, 17, 9996188224951786, 16),
  (-9996188224951786, 16, 27608145778965656, 18)]

/-- fft.hpp:55-1080 `POWERS_OF_ζ`: (m, e, m', e') stands for the literal {m * 10^-e, m' * 10^-e'}, entries 960 to 1023. -/
def rootLits15 : List (Int × Nat × Int × Nat) := [
  (9989412931868569, 16, 4600318213091462, 17),
  (-4600318213091452, 17, 9989412931868569, 16),
  (6738290003787561, 16, 7388873244606151, 16),
  (-7388873244606151, 16, 6738290003787561, 16),
  (9052967593181188, 16, 4247796812091088, 16),
  (-42477968120910875, 17, 9052967593181188, 16),
  (33977688440682696, 17, 9405060705932683, 16),
  (-9405060705932683, 16, 339776884406827, 15),
  (9707721407289504, 16, 2400030224487415, 16),
  (-2400030224487414, 16, 9707721407289504, 16),
  (51673179901765, 14, 8561473283751944, 16),
  (-8561473283751946, 16, 5167317990176498, 16),
  (8050313311429637, 16, 5932322950397998, 16),
  (-5932322950397999, 16, 8050313311429635, 16),
  (14976453467732162, 17, 9887216919603238, 16),
  (-9887216919603238, 16, 14976453467732145, 17),
  (9896220174632009, 16, 14369503315029447, 17),
  (-14369503315029447, 17, 9896220174632009, 16),
  (5981607069963424, 16, 8013761717231401, 16),
  (-8013761717231402, 16, 5981607069963424, 16),
  (8593018183570085, 16, 5114688504379703, 16),
  (-5114688504379703, 16, 8593018183570085, 16),
  (2459550503357946, 16, 9692812353565485, 16),
  (-9692812353565485, 16, 24595505033579465, 17),
  (9425731976014469, 16, 3339996514420094, 16),
  (-3339996514420094, 16, 9425731976014469, 16),
  (4303264813400826, 16, 9026733182372588, 16),
  (-9026733182372587, 16, 4303264813400829, 16),
  (7430079521351217, 16, 669282588346636, 15),
  (-6692825883466358, 16, 7430079521351218, 16),
  (5213170468028332, 17, 9986402181802653, 16),
  (-9986402181802652, 16, 521317046802836, 16),
  (9954807554919269, 16, 9496349532963899, 17),
  (-9496349532963895, 17, 9954807554919269, 16),
  (6367618612362843, 16, 7710605242618137, 16),
  (-7710605242618136, 16, 6367618612362844, 16),
  (8833633386657316, 16, 46868882203582796, 17),
  (-4686888220358277, 16, 8833633386657317, 16),
  (2932191626942587, 16, 9560452513499964, 16),
  (-9560452513499964, 16, 29321916269425896, 17),
  (9578264130275329, 16, 2873474595447295, 16),
  (-28734745954472946, 17, 9578264130275329, 16),
  (47410021465055, 14, 8804708890521608, 16),
  (-8804708890521608, 16, 4741002146505501, 16),
  (7749531065948738, 16, 6320187359398091, 16),
  (-632018735939809, 15, 7749531065948739, 16),
  (10106986275482786, 17, 9948793307948056, 16),
  (-9948793307948056, 16, 10106986275482793, 17),
  (9813791933137546, 16, 19208039704989244, 17),
  (-19208039704989227, 17, 9813791933137546, 16),
  (5581185312205562, 16, 829761233794523, 15),
  (-8297612337945229, 16, 5581185312205563, 16),
  (8331701647019132, 16, 5530167055800275, 16),
  (-5530167055800274, 16, 8331701647019133, 16),
  (19809841071795373, 17, 9801821359681173, 16),
  (-9801821359681173, 16, 19809841071795378, 17),
  (9250492407826776, 16, 37984720892405116, 17),
  (-379847208924051, 15, 9250492407826777, 16),
  (385516053843919, 15, 9227011283338785, 16),
  (-9227011283338786, 16, 38551605384391885, 17),
  (7092728264388657, 16, 7049340803759049, 16),
  (-7049340803759049, 16, 7092728264388657, 16),
  (3067956762966138, 18, 9999952938095762, 16),
  (-9999952938095762, 16, 3067956762965977, 18)]

/-- fft.hpp:55-1080 `POWERS_OF_ζ`: entry (m, e, m', e') stands for the literal {m * 10^-e, m' * 10^-e'}. -/
def rootLits : List (Int × Nat × Int × Nat) :=
  rootLits0 ++ rootLits1 ++ rootLits2 ++ rootLits3 ++ rootLits4 ++ rootLits5 ++ rootLits6 ++ rootLits7 ++ 
  rootLits8 ++ rootLits9 ++ rootLits10 ++ rootLits11 ++ rootLits12 ++ rootLits13 ++ rootLits14 ++ rootLits15

/-- The complex number the table entry `k` is written as. -/
def rootLit (k : Nat) : Rat × Rat :=
  match rootLits.getD k (0, 0, 0, 0) with
  | (m, e, m', e') => (mkRat m (10 ^ e), mkRat m' (10 ^ e'))

end Falcon
