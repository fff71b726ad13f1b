import Verif.Model.Kat

/-!
# The 2048 known answer tests of Falcon-1024, written by tools/gen_kats.py
-/

namespace Falcon

/-- tests/test_samplerz.cpp:5237-5890. -/
def kats1024_0 : List Kat := [
  ⟨23440800716087555, 15, 1767660377221966, 15, 12982803343442921, 16, 33, 0x2456d910a6d01ff847e5ba9b3a192d03e66ef1b982e1b0afdd171571b1596af080, 23⟩,
  ⟨-44301977378143064, 15, 1767660377221966, 15, 12982803343442921, 16, 11, 0x1570f5400b5d4105a9ad59, -41⟩,
  ⟨56172871211098006, 15, 17663846448294307, 16, 1298280334344292, 15, 11, 0x93155b536586ee894be67f, 55⟩,
  ⟨-19578009402976746, 16, 17663846448294307, 16, 1298280334344292, 15, 11, 0xf6f463543fd39329967e8e, -2⟩,
  ⟨549644617264131, 13, 17659333379592692, 16, 1298280334344292, 15, 11, 0x4241276fb38918ac525f76, 57⟩,
  ⟨4522176027775572, 15, 17659333379592692, 16, 1298280334344292, 15, 22, 0xf5fdcc11f556da626774eb2deae8a40e1bfbd372f868, 2⟩,
  ⟨15397964657667156, 15, 17645859149486813, 16, 1298280334344292, 15, 11, 0x6bd800dfe201a3a2617320, 17⟩,
  ⟨-3844210563507413, 14, 17645859149486813, 16, 1298280334344292, 15, 22, 0x220100a789ee305be51efe66569af9997c0b1fe5a06c, -40⟩,
  ⟨3737092973365196, 14, 1764022083652821, 15, 1298280334344292, 15, 11, 0xc2bc576bd87f27b91a3f97, 38⟩,
  ⟨-1081440560936328, 14, 1764022083652821, 15, 1298280334344292, 15, 11, 0x216758322128f4b7fbf249, -14⟩,
  ⟨-8900465516067484, 15, 17625794584689674, 16, 1298280334344292, 15, 11, 0xed3dac498d9354120b6d18, -8⟩,
  ⟨-1935193223204291, 14, 17625794584689674, 16, 1298280334344292, 15, 11, 0xdec35e48061b08798e1168, -19⟩,
  ⟨-12831292971257412, 15, 17619413406162074, 16, 12982803343442917, 16, 11, 0xeb7b3225e4dd31ed368805, -13⟩,
  ⟨2853081311221446, 14, 17619413406162074, 16, 12982803343442917, 16, 22, 0x0b4e68b248a677835c88bab2e8dca849c5d1b8fd8a2e, 28⟩,
  ⟨5828069481891631, 14, 17603929574674935, 16, 1298280334344292, 15, 11, 0x72ec586cad2529daf2756d, 60⟩,
  ⟨-8514711583615282, 15, 17603929574674935, 16, 1298280334344292, 15, 11, 0xcef87d5d741ab8bebe7fa6, -8⟩,
  ⟨-62744239214521835, 16, 17643591634061362, 16, 12982803343442917, 16, 11, 0x1436ed556f5128268c1104, -3⟩,
  ⟨18895072974517813, 15, 17643591634061362, 16, 12982803343442917, 16, 11, 0x3b42c7289305c2b83f4a38, 16⟩,
  ⟨2873705926035017, 15, 17630705378724352, 16, 1298280334344292, 15, 11, 0xfd60c84c5bd9db67384278, 2⟩,
  ⟨5837417635069777, 14, 17630705378724352, 16, 1298280334344292, 15, 11, 0x2d4e0366f86db94e547115, 61⟩,
  ⟨8085793567983794, 15, 1762677899102633, 15, 1298280334344292, 15, 11, 0x9ffa24f76c3eb32df1713a, 10⟩,
  ⟨-34800194690021975, 15, 1762677899102633, 15, 1298280334344292, 15, 11, 0x3a4ebe02a22a9d8f77ed2e, -32⟩,
  ⟨-2015832920837208, 14, 1761328532524089, 15, 1298280334344292, 15, 11, 0xce6c1980786fc620f3dc92, -21⟩,
  ⟨-7485672287859765, 14, 1761328532524089, 15, 1298280334344292, 15, 11, 0xd509a94b8157f8f728a100, -74⟩,
  ⟨16219864435499225, 15, 1760646873704209, 15, 12982803343442917, 16, 11, 0xa71615fed56c8d4bbf8da0, 17⟩,
  ⟨-33580512852599886, 16, 1760646873704209, 15, 12982803343442917, 16, 11, 0x72e6441c8c58ce1e20b3a0, -2⟩,
  ⟨25937778483324024, 15, 17591799300787736, 16, 1298280334344292, 15, 33, 0x02b58d0d9429b5acac13fa9795fa963022748efb7aaa422c6d4897f8b5050ba221, 23⟩,
  ⟨-7698495268675873, 14, 17591799300787736, 16, 1298280334344292, 15, 11, 0x64d705da002de9a15a2c46, -78⟩,
  ⟨12305166336121482, 15, 17586131074152782, 16, 12982803343442917, 16, 22, 0xa49c0b3b44a2edb49fb4c64bdbe27bb0fa2f2df6b033, 10⟩,
  ⟨10717146348709969, 15, 17586131074152782, 16, 12982803343442917, 16, 11, 0xced5ec97678a6e57d19b53, 11⟩,
  ⟨807949034357147, 13, 17570515948486978, 16, 1298280334344292, 15, 22, 0xa8e6a8958b7c7c59cd4ad72b01d558170098471f4a4d, 78⟩,
  ⟨-3097495437083434, 14, 17570515948486978, 16, 1298280334344292, 15, 33, 0x121a132d840fc5b7bcb8f1767206f7d33975129af99966f69bfebdb5311b1f3c5b, -32⟩,
  ⟨-13646309106920587, 15, 17573618004838931, 16, 1298280334344292, 15, 88, 0x70bfa77763007191710fb3b0294cd5bba5eb73ef65bc77669b3527eb4d804614fb3e30eb031aa17146019fc70b918f6935e2178db526780b7257182eecb41b895eb345218eee3866589be4b3fc3dc7419a76d67f6ceaa303, -11⟩,
  ⟨-346457225934583, 13, 17573618004838931, 16, 1298280334344292, 15, 11, 0x618fee560ad462ec12e725, -33⟩,
  ⟨-35319419083908956, 16, 17563799689551332, 16, 1298280334344292, 15, 11, 0xd0c340be1c78025d151377, -3⟩,
  ⟨7961036560613574, 15, 17563799689551332, 16, 1298280334344292, 15, 33, 0x36f60c502e3dfed019bc93e871900ea8b072e5e46ce59d53cabf1d4297bed6615f, 9⟩,
  ⟨-3556782219127461, 14, 17556747437153692, 16, 1298280334344292, 15, 11, 0xddc7e8acc6b6042910dc36, -36⟩,
  ⟨24214026343387985, 15, 17556747437153692, 16, 1298280334344292, 15, 11, 0xe905c12fd25426a654d885, 24⟩,
  ⟨-23958421293755197, 15, 17546071338807894, 16, 1298280334344292, 15, 44, 0x061456c7654fa5284ac3423f4da3be9beca63ae4376a2064f0caed78016352e2c53e1838e1c6dd0b0859ae81, -26⟩,
  ⟨-59629176804376186, 15, 17546071338807894, 16, 1298280334344292, 15, 11, 0x7fa372c2b6e01d9e72683c, -61⟩,
  ⟨21389833377055748, 15, 17541520937920587, 16, 1298280334344292, 15, 22, 0x299eab3e1e955718df0384fe47bc329bcbc6b170fc83, 21⟩,
  ⟨-2532803285281837, 14, 17541520937920587, 16, 1298280334344292, 15, 11, 0x48815a7a12887cee63f125, -23⟩,
  ⟨-10184119460243101, 15, 17530321541068434, 16, 1298280334344292, 15, 22, 0xfd04890088cbc2df9eddef246257db1ff699e89f4940, -8⟩,
  ⟨18323745648082447, 15, 17530321541068434, 16, 1298280334344292, 15, 11, 0x7498236b7a17f763b6f977, 20⟩,
  ⟨5254860195102121, 14, 1752116462470827, 15, 1298280334344292, 15, 11, 0xde8799cbf0fe01a545b96c, 53⟩,
  ⟨-2556695564352569, 14, 1752116462470827, 15, 1298280334344292, 15, 11, 0xe2f6da1f7ea6a83f7b252e, -25⟩,
  ⟨626185423700922, 13, 1750881004038607, 15, 1298280334344292, 15, 22, 0x4c06d4ab6865855b4d00f5acadfc2cec4b6d87e71c50, 62⟩,
  ⟨-5344611953826815, 14, 1750881004038607, 15, 1298280334344292, 15, 11, 0x2cfc5f6b8e82556a38665f, -56⟩,
  ⟨5045595425048864, 14, 17541312451047817, 16, 1298280334344292, 15, 11, 0x2736d3a5593bae6b87d431, 48⟩,
  ⟨-7776416763504095, 15, 17541312451047817, 16, 1298280334344292, 15, 11, 0x1b1e46a76d09a434b74034, -11⟩,
  ⟨-5086395756811147, 15, 17531275236564465, 16, 1298280334344292, 15, 44, 0x155864da4af229895b7a630896c65feeb428506091d704c823896e7a8549ffffabe4d3311ed995e0d2fb1e14, -6⟩,
  ⟨-11108169753221514, 15, 17531275236564465, 16, 1298280334344292, 15, 11, 0xe2d21cfcebd318771eed42, -11⟩,
  ⟨-3362896451035883, 15, 17524825785432796, 16, 1298280334344292, 15, 11, 0x8dc5a855deaa8e946a514c, -2⟩,
  ⟨-10090820342571377, 15, 17524825785432796, 16, 1298280334344292, 15, 11, 0xa83284a0a99dd4e262993b, -10⟩,
  ⟨26242334555957205, 16, 17514025374688214, 16, 1298280334344292, 15, 11, 0xdd7b1bf010d82a4dba36a1, 2⟩,
  ⟨-1134227295001763, 14, 17514025374688214, 16, 1298280334344292, 15, 22, 0xfc1f44fbcdc1e7cb6861f8ed4c386eba0ac4261a49a0, -11⟩,
  ⟨4278562859045172, 14, 17508238675337426, 16, 1298280334344292, 15, 22, 0xddd5560f461af4e756bbdfd26beb85e141d35173e357, 43⟩,
  ⟨-48948599372511424, 15, 17508238675337426, 16, 1298280334344292, 15, 11, 0xd5a2979912122cf027be7c, -49⟩,
  ⟨3744662692316013, 14, 17496743184534111, 16, 1298280334344292, 15, 55, 0xc20e788556dffe8227cdddf7e3b23319abd9af7a19ce3f84edbdc00a8463cbb4a8cd7f5b842966807590fdf0cc9a1d5a7ee2bddfe42129, 38⟩,
  ⟨-4717192764157281, 15, 17496743184534111, 16, 1298280334344292, 15, 22, 0xeba5fc6ebe56f77f642bb75284c33e39ecb5ed791b09, -2⟩,
  ⟨-8395396639921433, 15, 17488252057235831, 16, 1298280334344292, 15, 44, 0x10007ddf12354f38329bf26d99dbee714f3f5756a3c80502c233d6953800b7ad9e94261ffb8b615611eb0b2c, -7⟩,
  ⟨-19021660539834134, 15, 17488252057235831, 16, 1298280334344292, 15, 11, 0x30190508ffe206acf67359, -17⟩,
  ⟨7682898483251579, 14, 1747570004557001, 15, 1298280334344292, 15, 44, 0xd79ccd31e2368e4246bab1a038b20ee77ff3a023e3dcf0761e86d2b0de872d51bfb539d499f389f75a652d93, 77⟩,
  ⟨12780465567457144, 15, 1747570004557001, 15, 1298280334344292, 15, 22, 0x6c9e41e89c5a1aa6bae3ae9396765a2f262950d31991, 14⟩,
  ⟨-33518164694941056, 15, 1742756909543348, 15, 1298280334344292, 15, 11, 0x45a15eceb565495d943815, -36⟩,
  ⟨-1923045017023035, 14, 1742756909543348, 15, 1298280334344292, 15, 11, 0x820a2a26bbe99f0892fe1f, -21⟩,
  ⟨6236622231039687, 14, 17421223156446848, 16, 12982803343442917, 16, 11, 0x73112e6121037fa1018626, 61⟩,
  ⟨-4319772357041242, 14, 17421223156446848, 16, 12982803343442917, 16, 22, 0x3e09b4e9ff49c8ad7d45efb92aa4d2089d260314477c, -43⟩,
  ⟨3855539838689052, 14, 17414121940322576, 16, 1298280334344292, 15, 22, 0x13fe2854e208aeba3a167591de434b2c05772e993827, 37⟩,
  ⟨18177419530279572, 15, 17414121940322576, 16, 1298280334344292, 15, 11, 0x9d61fcd2847e84fca12291, 17⟩,
  ⟨-12813470871483728, 15, 17407135630382633, 16, 1298280334344292, 15, 11, 0x1ec98bd1e70ba92c72ac79, -16⟩,
  ⟨-7188939778115393, 14, 17407135630382633, 16, 1298280334344292, 15, 11, 0x0768744aaf6bc852c71661, -76⟩,
  ⟨160515458789823, 13, 17396224506182172, 16, 1298280334344292, 15, 11, 0x3e0767b846ad50f91ec23a, 14⟩,
  ⟨25707438286201903, 15, 17396224506182172, 16, 1298280334344292, 15, 44, 0x69b7c22a7a293184afe1c5389f3d6740f638317589c7ede72bd36b3a86d82ad3cbce418fb9a88ee30a650026, 25⟩,
  ⟨3783825911458173, 14, 17388233296933022, 16, 1298280334344292, 15, 11, 0xf723fcda7fcba6496ab7ac, 38⟩,
  ⟨-4012065510412102, 14, 17388233296933022, 16, 1298280334344292, 15, 22, 0x791f5a664647d464d2aede2d808210705630782eca1f, -43⟩,
  ⟨1612552903798862, 14, 17379215983035503, 16, 1298280334344292, 15, 11, 0xd8d4add29c63ee3d173d4e, 17⟩,
  ⟨-23313418196344394, 15, 17379215983035503, 16, 1298280334344292, 15, 11, 0x690c680ad97468d87ed99f, -22⟩,
  ⟨9585765141116674, 15, 1737027968186123, 15, 1298280334344292, 15, 55, 0xcf72b11af946667105d3f58a7b672e5e3b32a271b9a064a4aca75f7a77c8658eea1545f4975037d4327c4980c71a017a1c15da5ab6c107, 10⟩,
  ⟨-4507851522050834, 14, 1737027968186123, 15, 1298280334344292, 15, 33, 0x9ec5c291a363f815628a9052f6679b1bd76331629a5a56aaa83178dee595f7fe27, -47⟩,
  ⟨-442343610810086, 13, 17386512509293939, 16, 1298280334344292, 15, 22, 0x5a40cf216f69e7e535bcb16d1dd2e822be00b96feb91, -43⟩,
  ⟨17592309457575496, 15, 17386512509293939, 16, 1298280334344292, 15, 11, 0xa2da43c89ae311e9cb8638, 16⟩,
  ⟨28445578942198777, 16, 17380258227993621, 16, 1298280334344292, 15, 11, 0xb244ee5e40a8b72345e387, 3⟩,
  ⟨-28976569169393283, 15, 17380258227993621, 16, 1298280334344292, 15, 44, 0x62db4f2ed76db0d0c79ac31fd5d94769e3aa73b13cf69d605e4d6f3d4c707223af3df2e57a9f3d99600fa459, -31⟩,
  ⟨4723982552445402, 14, 17374302138499866, 16, 1298280334344292, 15, 11, 0xd84117af037bad0dba0974, 48⟩,
  ⟨3529872699704438, 14, 17374302138499866, 16, 1298280334344292, 15, 11, 0xa3d1e20387bf7b08503f52, 37⟩,
  ⟨-6910361303488055, 15, 17367460898143208, 16, 1298280334344292, 15, 22, 0xffa06f8b8c5057436efee88f7ba59a2a28347c05d52d, -5⟩,
  ⟨-37373346454422546, 15, 17367460898143208, 16, 1298280334344292, 15, 11, 0xe396a2b410d60d04c76a4f, -38⟩,
  ⟨8554694521841739, 16, 1735377770475818, 15, 1298280334344292, 15, 11, 0xcc2f6be047ebe637b93018, 0⟩,
  ⟨27083116731035833, 15, 1735377770475818, 15, 1298280334344292, 15, 22, 0x17dd86a4ea8a5f9d3269e29547b60ae9d5b8eb32993d, 29⟩,
  ⟨-4211733029226292, 14, 17345819977497428, 16, 1298280334344292, 15, 11, 0xb817db9b8413a225a3d418, -43⟩,
  ⟨-4025126431384017, 14, 17345819977497428, 16, 1298280334344292, 15, 22, 0x48634fe08689542d6bbdb6f02c836e6026e09aa6a689, -41⟩,
  ⟨977232254726742, 14, 17338041572559562, 16, 1298280334344292, 15, 11, 0xa9da950b345bad7d7a982f, 9⟩,
  ⟨-26016288503356883, 15, 17338041572559562, 16, 1298280334344292, 15, 22, 0xcce9c7829a556fdb0e33e228772d133c27187dd32b77, -24⟩,
  ⟨7771811116747041, 14, 17329197916222312, 16, 1298280334344292, 15, 11, 0x49d39efe06cf557cf53650, 75⟩,
  ⟨-2542436510781245, 14, 17329197916222312, 16, 1298280334344292, 15, 22, 0xafbbf4448069504ae63bff67c87a218341c1e4b4dd75, -24⟩,
  ⟨-28658321812199294, 15, 1729742502933966, 15, 1298280334344292, 15, 11, 0xfe67c6ba053c518334306f, -29⟩,
  ⟨1180218351611789, 14, 1729742502933966, 15, 1298280334344292, 15, 11, 0xa804e4cdaa9f610f75686d, 11⟩,
  ⟨9668815908542966, 15, 17294217149528555, 16, 12982803343442921, 16, 11, 0x9f40c1cce3790b6d682f3d, 11⟩,
  ⟨-267793804856966, 13, 17294217149528555, 16, 12982803343442921, 16, 33, 0x4fc647323b3db2652068c69c32e410beb13d30a81bd8b0e6e02aa6a8703b2fe835, -27⟩,
  ⟨28407911394788265, 15, 17283460020445391, 16, 1298280334344292, 15, 11, 0xe41373847ab9347dbf2572, 29⟩,
  ⟨4428676564971112, 14, 17283460020445391, 16, 1298280334344292, 15, 11, 0x5d451fd4e21b7b98254081, 43⟩,
  ⟨-2216812204517083, 14, 17279698695052808, 16, 1298280334344292, 15, 11, 0xacae77fc99464d4a02c018, -23⟩,
  ⟨-680003333954338, 13, 17279698695052808, 16, 1298280334344292, 15, 22, 0x7bdf83f15cfb67af6d6cdbc7a474525f61099e957472, -69⟩,
  ⟨44362289463399236, 15, 1726685580552162, 15, 12982803343442917, 16, 11, 0x46a1a501f09b99c775ac30, 42⟩,
  ⟨24447596926226463, 15, 1726685580552162, 15, 12982803343442917, 16, 22, 0xc85188a4c24f89c553dbcd5b2e1fb747f685dbd5bd3c, 26⟩,
  ⟨1935046929461493, 14, 17262582176396477, 16, 1298280334344292, 15, 11, 0x1c7f15ab7f1d712e847102, 23⟩,
  ⟨-1936164664390724, 14, 17262582176396477, 16, 1298280334344292, 15, 55, 0x90b555f4f08f23f159e5e1463e1371449479cf702dfc783b56c321a53e96c859dc7e17c1eba58bfdc5db83b489168a026377234598dc54, -21⟩,
  ⟨-4908397685601196, 14, 17249485196647873, 16, 12982803343442917, 16, 22, 0x34e8cee8e6aa0d6bd05ee4cc778240da2ed53ae0ad59, -49⟩,
  ⟨5159352951188956, 14, 17249485196647873, 16, 12982803343442917, 16, 11, 0xd5523735ad1351c08d4703, 52⟩,
  ⟨22054010404225068, 15, 17244407638277977, 16, 1298280334344292, 15, 33, 0xf702a1229541d1aeed39c38cabeebc091a87e05360d673cddcf01b21e758f0a862, 21⟩,
  ⟨-31048490922308737, 15, 17244407638277977, 16, 1298280334344292, 15, 11, 0x35fda8a9745a4d4441f800, -34⟩,
  ⟨469389024683297, 13, 17264105806451022, 16, 1298280334344292, 15, 22, 0xa191a70a644edb313c32c79b5f43aa275471e2f0f17c, 48⟩,
  ⟨-15425721356045887, 15, 17264105806451022, 16, 1298280334344292, 15, 44, 0x0173fdeb2358dddd63265fe07889a02c2b9ec9626de6465ece450420e2bb2a4898c4febdb9ad18f28f2f5ca4, -16⟩,
  ⟨-16884680043903444, 15, 17260561376524144, 16, 1298280334344292, 15, 33, 0x2e4c39eb92021c7577f5c59d085af115c2ba56fb08db2f2b05df704479d3a9803d, -19⟩,
  ⟨-24496883894185153, 15, 17260561376524144, 16, 1298280334344292, 15, 11, 0x5ffa6f5d61f167e4a02303, -23⟩,
  ⟨1433569177010418, 14, 17251180059397402, 16, 1298280334344292, 15, 11, 0x2eb4614b944ec0a4adab65, 17⟩,
  ⟨9086309166221582, 15, 17251180059397402, 16, 1298280334344292, 15, 11, 0x5f5db4952534535fe15753, 11⟩,
  ⟨12980178018770902, 15, 17247104267966338, 16, 1298280334344292, 15, 11, 0x1ef90ceb8e20508852797a, 16⟩,
  ⟨1839178110074628, 14, 17247104267966338, 16, 1298280334344292, 15, 11, 0xa9e88a34bdb83b8a50e684, 18⟩,
  ⟨7674524521253825, 14, 17231986884076351, 16, 1298280334344292, 15, 44, 0xba569b29515387e304b0f541cada8cf137dd0d57b3da13018dc2b4ca3931f905c25616caa4fad91f4649a760, 78⟩,
  ⟨-4766900963490053, 14, 17231986884076351, 16, 1298280334344292, 15, 11, 0xea6a8567481d66c3f1b114, -47⟩,
  ⟨15948933956092237, 15, 1722728854987434, 15, 1298280334344292, 15, 11, 0xba103bf95002562d263a38, 15⟩,
  ⟨-14879468536329039, 15, 1722728854987434, 15, 1298280334344292, 15, 33, 0x086814bf380c82917424df35959f21eb1c57f7b026f9ca527d5983f4fdd7999213, -15⟩,
  ⟨4661164341282364, 14, 1721569885146948, 15, 1298280334344292, 15, 11, 0xb2e876766dfa0a37fa9b4d, 47⟩,
  ⟨4774354301209446, 14, 1721569885146948, 15, 1298280334344292, 15, 11, 0xc2231a35cb15dadda34411, 47⟩,
  ⟨5520309035530006, 14, 17210218664021677, 16, 1298280334344292, 15, 33, 0x45e95623c56a54d96017e7758ac96d951aa9994207b43fcce1307f85ae7b4ad350, 58⟩,
  ⟨-8366733899550694, 14, 17210218664021677, 16, 1298280334344292, 15, 44, 0x1af0e418a817f0efc80b562088f2ff4b1170f426a0eef53a69f1ac17e2d3c27de7bf0aed521211e47a39f283, -84⟩]

/-- tests/test_samplerz.cpp:5891-6536. -/
def kats1024_1 : List Kat := [
  ⟨-10374917341039769, 17, 1736101145213478, 15, 1298280334344292, 15, 33, 0x1b6d9bd9f0004be0eeea5db3518f64d812e082c67ebb96afa446f2d5a133f8cbaa, 1⟩,
  ⟨26399739181258077, 15, 1736101145213478, 15, 1298280334344292, 15, 22, 0x12cdf1288546f029748a7e9604ccfcbaa28392671043, 25⟩,
  ⟨2615086419372408, 14, 1734485722794267, 15, 1298280334344292, 15, 11, 0x61d96683b796c3b695ab75, 28⟩,
  ⟨-3972993228556902, 14, 1734485722794267, 15, 1298280334344292, 15, 11, 0xf49dab04152fea74ba2f8e, -39⟩,
  ⟨4787290392337769, 14, 17347297251714193, 16, 12982803343442921, 16, 22, 0x33012c4d5c2e5b632d03d9b2c64a647422187918da78, 47⟩,
  ⟨-27306228355877895, 15, 17347297251714193, 16, 12982803343442921, 16, 22, 0x1f048d92a421614a9d67ce2e88573873fdea4a3c7e2d, -30⟩,
  ⟨19289505512427347, 15, 17330551114437946, 16, 1298280334344292, 15, 11, 0x3fb6b39632f3f01cd36b56, 22⟩,
  ⟨-5406915572597442, 14, 17330551114437946, 16, 1298280334344292, 15, 11, 0xecba77c1305eee57041a62, -55⟩,
  ⟨38422910712591474, 15, 1732923660641703, 15, 1298280334344292, 15, 22, 0x161103bfd83884344e1581495817f18ffdf330338749, 41⟩,
  ⟨-11614738464500403, 15, 1732923660641703, 15, 1298280334344292, 15, 33, 0x8b5bfd09c2fb6e2ff81dad9e9e3a9849cbe3e3b12ce1a8880202a1e454f0fc131d, -11⟩,
  ⟨22475612370589314, 15, 17311319399149252, 16, 12982803343442921, 16, 11, 0xd2f3ec6d309dfbc9b56529, 23⟩,
  ⟨-3163591081275598, 14, 17311319399149252, 16, 12982803343442921, 16, 11, 0x2ad193d0d2d2582829b638, -34⟩,
  ⟨-9069718561156854, 16, 1731298526690744, 15, 1298280334344292, 15, 11, 0x8b743699e8595146d8ac30, -2⟩,
  ⟨31945228900207308, 15, 1731298526690744, 15, 1298280334344292, 15, 33, 0xd8042152a2e2d6e05a2bd200dd8b21d0675a58c56c1bc498e9ac90dd81fdedd337, 32⟩,
  ⟨48669802989583246, 15, 1729417527141153, 15, 1298280334344292, 15, 22, 0xfdd37abd24d14e74bc77d82bb39de1e909746d400d14, 51⟩,
  ⟨-5631777368875821, 14, 1729417527141153, 15, 1298280334344292, 15, 11, 0x3745996332da5b4a32ad28, -54⟩,
  ⟨15585407567842378, 15, 17324908592373751, 16, 1298280334344292, 15, 22, 0x74f848aa543ee67cc304b91e247e40c397f109d61127, 19⟩,
  ⟨-4727788716700637, 15, 17324908592373751, 16, 1298280334344292, 15, 11, 0xafe657e3a5dc45e913e19f, -4⟩,
  ⟨-1879315552433708, 14, 1730811316085837, 15, 1298280334344292, 15, 11, 0xbb88f63a28002bafacd071, -19⟩,
  ⟨-16865562590456314, 15, 1730811316085837, 15, 1298280334344292, 15, 22, 0xa3da14378ca04b3c575fe49009e3a73112b80c432826, -18⟩,
  ⟨-8559099325122219, 16, 17311716740941132, 16, 1298280334344292, 15, 22, 0x05dbf7af54942c0cb0a69a2b8dd99ae4edda81f81c2d, -3⟩,
  ⟨4308718002311806, 15, 17311716740941132, 16, 1298280334344292, 15, 22, 0x42b11cf6f4935ca0f6e7b79791bff08b255216cd7e36, 3⟩,
  ⟨6856260848530215, 15, 17294456108551426, 16, 12982803343442921, 16, 11, 0xf6e6e9c382a32d538ccf75, 7⟩,
  ⟨-7068778358748794, 14, 17294456108551426, 16, 12982803343442921, 16, 11, 0x91a87119d74d5519633049, -72⟩,
  ⟨5104365271199316, 14, 17292318659711776, 16, 1298280334344292, 15, 11, 0x5718e7cb171a79f595445d, 50⟩,
  ⟨-1703292741032617, 14, 17292318659711776, 16, 1298280334344292, 15, 11, 0x96ec13f9a829dd1ae4823f, -19⟩,
  ⟨-18726679606358253, 15, 17273605874998457, 16, 1298280334344292, 15, 11, 0x498297fde9c0c5e3b7f471, -21⟩,
  ⟨-7833541061421764, 14, 17273605874998457, 16, 1298280334344292, 15, 55, 0x9e825cfe597ba3405a69afcacdc70be565f9330085c916fcbf4fb3f904969c8cc812ab3199b997c82f624b770bf4ca8b566c9c8e99dd09, -75⟩,
  ⟨11799373690163137, 15, 17276593986079036, 16, 1298280334344292, 15, 11, 0x2502d55305e48a13a8f844, 9⟩,
  ⟨26177814249278493, 16, 17276593986079036, 16, 1298280334344292, 15, 22, 0x123f14defe8bd5a6fd086ee13c871cceeb1aefc1640e, 2⟩,
  ⟨708433225226498, 13, 1725711127418898, 15, 1298280334344292, 15, 44, 0x867ecebdfc745ececde3b8dd38d95e0a6726dba284f6103bcf28ee72eb302cf5a0f0d7e7a1eb31f12c055ea5, 70⟩,
  ⟨-4111022208621313, 14, 1725711127418898, 15, 1298280334344292, 15, 11, 0x483a343738e00133446375, -39⟩,
  ⟨-6125017605583387, 14, 1724145760337789, 15, 1298280334344292, 15, 22, 0xb6ad65069745097972b0b2ea7a8acb67bdabd25ebfaa, -61⟩,
  ⟨-28070756056607586, 15, 1724145760337789, 15, 1298280334344292, 15, 33, 0x78f553e256151a367673d05fe1783559675ccd18b5f1f5d35853a6f07b87834a4c, -29⟩,
  ⟨-5628916144724708, 15, 17229201034426609, 16, 1298280334344292, 15, 11, 0xef2ea4f281877413a52621, -6⟩,
  ⟨9560044490414234, 14, 17229201034426609, 16, 1298280334344292, 15, 33, 0x3c53335ad08fd607c0659d3a42134f444e4f8bc1f38cad7770e814a6b686833e00, 95⟩,
  ⟨12828812420417055, 15, 17228813696148169, 16, 1298280334344292, 15, 11, 0x57cef5926502addf45dfa1, 14⟩,
  ⟨16997673047272595, 15, 17228813696148169, 16, 1298280334344292, 15, 22, 0x3668542777492bdf02fcaf676aff470e3b4b514bce28, 15⟩,
  ⟨-5279993784408532, 14, 1721581074383255, 15, 1298280334344292, 15, 11, 0x66e95386605fe8ea79ab7e, -51⟩,
  ⟨-5352972864509467, 14, 1721581074383255, 15, 1298280334344292, 15, 22, 0xa2ca3b127ad08fa144d9cc8a2f29289698f6c1b71892, -55⟩,
  ⟨2007315983551638, 14, 17215095518273082, 16, 1298280334344292, 15, 22, 0x1a7407f3aeef7adb7ab0bddbb125fe1eb1dcc795a61b, 20⟩,
  ⟨1810510745866901, 14, 17215095518273082, 16, 1298280334344292, 15, 33, 0x7eff77442f0cb552150ba77e9be76d82ea25b2e358ca792d5bc12237d44b4af067, 17⟩,
  ⟨23103452387612066, 15, 17201270637196904, 16, 1298280334344292, 15, 11, 0xcbedba23d8674036ecb16f, 24⟩,
  ⟨-12630762782618907, 15, 17201270637196904, 16, 1298280334344292, 15, 11, 0x43b5d134be0a75333ffe31, -15⟩,
  ⟨-20253626917190118, 15, 17199833789331296, 16, 1298280334344292, 15, 11, 0xbfba3cc348de6637ce0a06, -21⟩,
  ⟨23777785740537787, 15, 17199833789331296, 16, 1298280334344292, 15, 11, 0xe3fde89508dd24bd3efe7c, 23⟩,
  ⟨7091336230761478, 14, 17185002083443899, 16, 1298280334344292, 15, 11, 0x6270d078414bbc5957798b, 72⟩,
  ⟨-3353755825977755, 14, 17185002083443899, 16, 1298280334344292, 15, 11, 0x8c88b8553b4d286277dc89, -35⟩,
  ⟨4549482949805646, 14, 172058509689535, 14, 1298280334344292, 15, 11, 0x62af7c475c49dea3906492, 44⟩,
  ⟨-3674904117556994, 14, 172058509689535, 14, 1298280334344292, 15, 11, 0x4d572c683f3d7ee07a0a29, -39⟩,
  ⟨-6101442681414615, 15, 17193000821938014, 16, 12982803343442921, 16, 22, 0x1730d69682e7264d2393fd54df6fd9d2f2a32d996b79, -5⟩,
  ⟨15615204641012648, 15, 17193000821938014, 16, 12982803343442921, 16, 11, 0xfe52a62198ddd7f728bc52, 15⟩,
  ⟨40546371712706254, 15, 17193788647437775, 16, 1298280334344292, 15, 11, 0x29a862065e38bd7b5d5619, 38⟩,
  ⟨51004215963502865, 15, 17193788647437775, 16, 1298280334344292, 15, 11, 0x8e0c3144354dae73f3e361, 53⟩,
  ⟨39646514850949956, 15, 1718028942088968, 15, 1298280334344292, 15, 11, 0x61d1dfe09dbe0fd8c8422a, 38⟩,
  ⟨-289106689771439, 14, 1718028942088968, 15, 1298280334344292, 15, 11, 0x925e1efe4d1cfdde4aca39, -4⟩,
  ⟨44520430028748564, 15, 17178431687418603, 16, 1298280334344292, 15, 55, 0x08049db7d0205abb0eb174e66611509609e9f1c0c0fe9d568b7bcf7f6bdffa22b280d0d7773266a8142568a4ceb4b366728d588ca83820, 44⟩,
  ⟨-5587240240695692, 15, 17178431687418603, 16, 1298280334344292, 15, 22, 0x45e5a50dac07217e381bdf7c5969da0928d4abd5fe92, -7⟩,
  ⟨-8359117859403246, 16, 17163879204766606, 16, 1298280334344292, 15, 33, 0x66f2dd8edcc19a8cc8f38550c6310c696041b4ead2cd57acea75eef608b68fb295, -2⟩,
  ⟨-30752728109484252, 15, 17163879204766606, 16, 1298280334344292, 15, 11, 0xe2752cf1172cf7fe416056, -31⟩,
  ⟨-17672142528947703, 15, 17163718684602909, 16, 12982803343442917, 16, 11, 0x78db06e4c3ce8f873cdd64, -16⟩,
  ⟨12884913802565087, 15, 17163718684602909, 16, 12982803343442917, 16, 11, 0xe723d142a7b17527c9f988, 13⟩,
  ⟨7255411108377417, 14, 17148253790911925, 16, 1298280334344292, 15, 11, 0x8c1e76b1175e4819a55080, 71⟩,
  ⟨3934867843673336, 14, 17148253790911925, 16, 1298280334344292, 15, 11, 0x313c92c2b9eb36dc2f0f65, 42⟩,
  ⟨20468532606442422, 16, 1710719393253136, 15, 1298280334344292, 15, 11, 0xfcadae7d5fca0d4c5db554, 3⟩,
  ⟨9174657669660842, 15, 1710719393253136, 15, 1298280334344292, 15, 11, 0x8faf525249e6c22c6dd21a, 8⟩,
  ⟨5519494569315682, 15, 17099239223693383, 16, 1298280334344292, 15, 33, 0xe400a799729c62b6019acf825f01e9508bcea296b6cbc9a9b2930befd5ee512425, 5⟩,
  ⟨15820842463433383, 15, 17099239223693383, 16, 1298280334344292, 15, 11, 0xbac057487074847a227341, 16⟩,
  ⟨22739911612510483, 15, 17097153188108802, 16, 1298280334344292, 15, 11, 0xa04ceed490fac3c0a00200, 21⟩,
  ⟨-3423147667912156, 15, 17097153188108802, 16, 1298280334344292, 15, 11, 0x0b9096693653c6127b8e32, -7⟩,
  ⟨-10574250404580196, 15, 17088624119813547, 16, 1298280334344292, 15, 11, 0x433096cde04e9796f65e63, -13⟩,
  ⟨-17569361744845573, 15, 17088624119813547, 16, 1298280334344292, 15, 11, 0x2f04fb4e2e55763fc09d55, -15⟩,
  ⟨2120983713406124, 14, 17080961495533917, 16, 12982803343442921, 16, 11, 0xe976fb00ccac5a0d1f0b26, 22⟩,
  ⟨-33881602831907955, 15, 17080961495533917, 16, 12982803343442921, 16, 11, 0x818e940d0600b18352244d, -35⟩,
  ⟨1395441483988811, 14, 1707134574777189, 15, 1298280334344292, 15, 22, 0x207e9813ecae26cd1ea05eb0033870cee2ba8348ea2d, 13⟩,
  ⟨11481427651942345, 15, 1707134574777189, 15, 1298280334344292, 15, 11, 0xfe98359fafbd17e5747a06, 11⟩,
  ⟨-4612063787234365, 15, 1706818571896694, 15, 12982803343442917, 16, 11, 0x4221d8346f8ed344376263, -7⟩,
  ⟨-17439254308156514, 15, 1706818571896694, 15, 12982803343442917, 16, 11, 0x57bc33714c536eea250c75, -19⟩,
  ⟨7092049397594661, 14, 17057743377143104, 16, 1298280334344292, 15, 11, 0xa05c8c25da959db222b847, 69⟩,
  ⟨-15260030705309429, 15, 17057743377143104, 16, 1298280334344292, 15, 11, 0xfd68f59636dd6bd531313f, -15⟩,
  ⟨2411127690557941, 14, 17063710118507034, 16, 1298280334344292, 15, 22, 0x40d97ce2923d292bdac3de82c5cfce63c43a977fca92, 23⟩,
  ⟨2969204941099413, 14, 17063710118507034, 16, 1298280334344292, 15, 11, 0x413d2da732afa174b7b94b, 32⟩,
  ⟨30160846145880473, 15, 17055518551263065, 16, 12982803343442917, 16, 11, 0x1f1e777d9d5fbbbc222003, 27⟩,
  ⟨-2167647065516893, 14, 17055518551263065, 16, 12982803343442917, 16, 44, 0x83e57b7394acd261220fd30e7c2513c12536b76082cc755330a5b49615dd690bb1f2f5aecaa365923be1eab5, -22⟩,
  ⟨3352648710658298, 14, 17054982954792193, 16, 1298280334344292, 15, 22, 0x42857dcb0508b944ff8fe161e1669c48ca089dbeb27c, 32⟩,
  ⟨-8040656049789238, 15, 17054982954792193, 16, 1298280334344292, 15, 11, 0x81d8e2454024d5b767cfb3, -7⟩,
  ⟨-2224721223296589, 14, 17046281572465127, 16, 1298280334344292, 15, 11, 0x5e0ece5cf7a1d6fe41e1ab, -21⟩,
  ⟨11761100698015282, 15, 17046281572465127, 16, 1298280334344292, 15, 33, 0x0cbb2a441059c0336aa04766f1588e5e91b3cc0c909b705fd0db8a5a1629c71e2e, 10⟩,
  ⟨-34515020715241164, 15, 17036184910118475, 16, 1298280334344292, 15, 22, 0xf845bf96a4b90e7a21a5bced1795250ae841695fa33d, -34⟩,
  ⟨-11727639094908774, 15, 17036184910118475, 16, 1298280334344292, 15, 33, 0x91fc51dbf8102b94e99dbe1260f72dc882b3b861269fde0d24f80ef48bb2b0efa1, -11⟩,
  ⟨43785581443724176, 15, 17026220797509233, 16, 1298280334344292, 15, 11, 0x150a36547c69ec0e995e11, 40⟩,
  ⟨-35056045095871816, 15, 17026220797509233, 16, 1298280334344292, 15, 55, 0xd7a90f4e1bbe59cfc72ad0a33140791695ae486595c45d78a6d7204336dd0740da0ba057a40d162c7cfd6443ed0f280a89fd924618972d, -35⟩,
  ⟨47988794493518114, 15, 17024772315781354, 16, 1298280334344292, 15, 22, 0x4a1f15c7d042eff93371cb87926bb283955e86465671, 46⟩,
  ⟨13452422842623161, 15, 17024772315781354, 16, 1298280334344292, 15, 11, 0xaa9128759f0d8ca2b7525d, 13⟩,
  ⟨44885873968301375, 15, 17014051117222633, 16, 12982803343442921, 16, 11, 0x67e15d20640be46100d236, 43⟩,
  ⟨-15963925938165076, 15, 17014051117222633, 16, 12982803343442921, 16, 22, 0xb321aa88bade866561d8ffbea80841c8688ed302bc97, -16⟩,
  ⟨26146824744392234, 15, 16955074479242487, 16, 12982803343442921, 16, 11, 0x571f27aa318777559c1013, 25⟩,
  ⟨-17822786212561603, 15, 16955074479242487, 16, 12982803343442921, 16, 22, 0x7ac2f7fe1487bc728682b660ce029a870bacfb128379, -16⟩,
  ⟨14548352812993588, 15, 1695104905899636, 15, 1298280334344292, 15, 33, 0x3ac0cf92c97c2d5af689bc7fc24d60cf167a9e562bd6cf7f895a3e6b0f894d2316, 15⟩,
  ⟨-28749606186161007, 15, 1695104905899636, 15, 1298280334344292, 15, 33, 0x3bfd58de9d5745bc9b6df95a28bde4cadd38f7a0bba076912a4c1eb9bfc2e68c4f, -30⟩,
  ⟨480928431637116, 13, 16944721067743365, 16, 1298280334344292, 15, 11, 0xe042ab9aa5c440218d3862, 48⟩,
  ⟨-2915315100430329, 14, 16944721067743365, 16, 1298280334344292, 15, 11, 0x63db403e924b2dd74cff64, -28⟩,
  ⟨-3470598080628948, 14, 16940224209560837, 16, 1298280334344292, 15, 22, 0x22047dc1e18625f9b467d6955d3ef64714f9ccfc5034, -36⟩,
  ⟨-3958942950800569, 14, 16940224209560837, 16, 1298280334344292, 15, 11, 0x664e77873c831c98f2e18f, -38⟩,
  ⟨218677536257292, 13, 16928464601251354, 16, 12982803343442921, 16, 33, 0x025d5b9db58c44025d1af83042f091dbc447276c0c8c5ff962d8c3f1bc9c7fdd47, 23⟩,
  ⟨-33824896386149383, 17, 16928464601251354, 16, 12982803343442921, 16, 11, 0xf0d4588dee7b2251154a84, -1⟩,
  ⟨18361508146769655, 15, 16923436404775838, 16, 1298280334344292, 15, 44, 0x533518c8a74ef1046b22ff94dbb16deab28ceaa902b5540ab56e79a0f9651ab7d11189196b2053a506e10457, 15⟩,
  ⟨-3605188086473969, 14, 16923436404775838, 16, 1298280334344292, 15, 22, 0x67f8bf20383bddea28fff0b720a3aaa4448dce935128, -36⟩,
  ⟨29699931818045503, 15, 1691550433165584, 15, 12982803343442917, 16, 11, 0xc26705a5d3ca309e135db7, 30⟩,
  ⟨6418218754713951, 15, 1691550433165584, 15, 12982803343442917, 16, 11, 0xd74de2228d38513977bc67, 6⟩,
  ⟨54951782672604736, 15, 16909812802012922, 16, 12982803343442921, 16, 11, 0xc1b8e552ed280b96d53b76, 55⟩,
  ⟨2917846968359797, 14, 16909812802012922, 16, 12982803343442921, 16, 22, 0x89fc37d0ea23ae185b3cd0c4cdaa84affc4f52e85d87, 30⟩,
  ⟨11063465914561874, 16, 16920691859295385, 16, 1298280334344292, 15, 11, 0x7b688da830d35a24cc3e18, 0⟩,
  ⟨-3625848678264046, 14, 16920691859295385, 16, 1298280334344292, 15, 11, 0xfc6ea7c409021bf4526a21, -37⟩,
  ⟨-10997890472709088, 15, 16915975901662894, 16, 1298280334344292, 15, 33, 0xc718c6e8e4b6cb2adc92ceb6e55e05fb3e44b240f9a7ec816a7472330b6c77e40e, -11⟩,
  ⟨-24694040867570024, 15, 16915975901662894, 16, 1298280334344292, 15, 11, 0xb937a004bad061a1f8f29e, -25⟩,
  ⟨-4312426109601577, 15, 169116724422958, 14, 1298280334344292, 15, 22, 0x9f194b8e8d4c33376869b1bfd8f52b0afeac030cc36a, -4⟩,
  ⟨-16184192492618727, 15, 169116724422958, 14, 1298280334344292, 15, 11, 0x8b1a1629f12fed3fb45b1f, -15⟩,
  ⟨4798651176057227, 14, 16906512750929064, 16, 1298280334344292, 15, 22, 0x01bfa6405580de9a9b3b73f4325312bca6f5bd1bf026, 47⟩,
  ⟨-4007312711184155, 14, 16906512750929064, 16, 1298280334344292, 15, 11, 0x56b2693ad4c5926523f54e, -39⟩,
  ⟨10292347558120174, 15, 16892594199104394, 16, 1298280334344292, 15, 11, 0x957765a850d1f982e3f28b, 9⟩,
  ⟨-10714076486197264, 15, 16892594199104394, 16, 1298280334344292, 15, 11, 0x838d662c5abcab53033c89, -12⟩,
  ⟨22846239395049796, 15, 16886727213148185, 16, 1298280334344292, 15, 11, 0x51f28ecf912757606ecf4c, 25⟩,
  ⟨-3601439063817964, 14, 16886727213148185, 16, 1298280334344292, 15, 11, 0x39820fc192a786ab582f63, -34⟩,
  ⟨4349320245551449, 14, 16881029358900805, 16, 1298280334344292, 15, 11, 0x9f150af29afc5f6748c933, 45⟩,
  ⟨26977336598678193, 15, 16881029358900805, 16, 1298280334344292, 15, 11, 0x8d49f2042096f1354b5c37, 25⟩,
  ⟨40010433736130125, 15, 16874523700592177, 16, 1298280334344292, 15, 22, 0x0fd86de89dd6bb9dedc9dd73bba503636564c64bf124, 42⟩,
  ⟨-480754539753654, 13, 16874523700592177, 16, 1298280334344292, 15, 11, 0xfc04f586fda1e4a4e165ad, -48⟩]

/-- tests/test_samplerz.cpp:6537-7183. -/
def kats1024_2 : List Kat := [
  ⟨-467011239230227, 13, 16659375720005294, 16, 1298280334344292, 15, 22, 0x0185cd705719672c0c1c9adc66ca0e5315b8c0ce08c3, -47⟩,
  ⟨-3533992419955396, 16, 16659375720005294, 16, 1298280334344292, 15, 11, 0x9a9c1226fabecf3f16f91d, 1⟩,
  ⟨36775898616201054, 15, 16651672295027191, 16, 12982803343442917, 16, 11, 0xcecf607bcdfca3884bf557, 37⟩,
  ⟨2055662216597093, 14, 16651672295027191, 16, 12982803343442917, 16, 22, 0x00fa1fe1f5d5041e406d545cd0982f25dfead7147990, 22⟩,
  ⟨12892345667607206, 16, 16653588420868117, 16, 1298280334344292, 15, 22, 0x902085ba48aab79b3430b6bcddadf4234faf6d742447, 1⟩,
  ⟨-13687675019000988, 15, 16653588420868117, 16, 1298280334344292, 15, 11, 0xf3b4905fb08c0bb46b753a, -13⟩,
  ⟨2763886507724448, 14, 16645535474635471, 16, 1298280334344292, 15, 12, 0x273ba3072b1dbf38d027850d, 30⟩,
  ⟨22199754380426338, 15, 16645535474635471, 16, 1298280334344292, 15, 11, 0x74aa1fa97e1cccdd78a24a, 21⟩,
  ⟨13035598504794383, 15, 16622375893034178, 16, 1298280334344292, 15, 11, 0x5d53bc0d1a876386b1f06d, 12⟩,
  ⟨-29260669674951306, 15, 16622375893034178, 16, 1298280334344292, 15, 11, 0xe874e6d26bc16be8999478, -30⟩,
  ⟨1873423400468669, 14, 1661340213878679, 15, 12982803343442917, 16, 33, 0x1884eafb642d845b97dc4c82f70718d3cb8c48783efc1df19834afde8189ab6c14, 15⟩,
  ⟨28290126877575446, 15, 1661340213878679, 15, 12982803343442917, 16, 22, 0x13c36fdffcd2a3dc6839cc0d49faf52510713e848d0b, 32⟩,
  ⟨8825528889594855, 15, 16614344173454225, 16, 1298280334344292, 15, 33, 0x0d87816b5e5252c4628d8f18cf6829990061cbdec9e7ad27306ddf4b15a5850666, 8⟩,
  ⟨8178667922597214, 16, 16614344173454225, 16, 1298280334344292, 15, 11, 0xad096d704c8c16e7f1221e, 0⟩,
  ⟨19690959767307866, 15, 16604841906959429, 16, 1298280334344292, 15, 33, 0x7cc84df92bc2150c1ae0b5eaa4718b93950620dc5bf79a6d290c693bea75760342, 21⟩,
  ⟨-2495932004609087, 14, 16604841906959429, 16, 1298280334344292, 15, 11, 0x4a6c763f32319e9aa82e8b, -27⟩,
  ⟨2442191173559556, 14, 16617630100707568, 16, 1298280334344292, 15, 11, 0x6e5248b77f9cca5bf2a915, 26⟩,
  ⟨-22065062840472454, 15, 16617630100707568, 16, 1298280334344292, 15, 11, 0x972e358c02b3f3b18d5f91, -21⟩,
  ⟨-212690442262823, 13, 16609341860840368, 16, 1298280334344292, 15, 11, 0x56ccb17c832248f3e53f85, -20⟩,
  ⟨-1482684880137348, 14, 16609341860840368, 16, 1298280334344292, 15, 11, 0x4cbe3d76401d7fc2528010, -17⟩,
  ⟨8508625554678222, 16, 1661184993451283, 15, 1298280334344292, 15, 11, 0xef3bba47488a224797432d, 1⟩,
  ⟨1448208448157849, 14, 1661184993451283, 15, 1298280334344292, 15, 11, 0xfef0e457c42acfa4572eb1, 14⟩,
  ⟨16393499955990105, 15, 16603202914767174, 16, 1298280334344292, 15, 11, 0xf07281f211a1f836d0dda1, 17⟩,
  ⟨-5809222417807504, 14, 16603202914767174, 16, 1298280334344292, 15, 22, 0x2ec41baef887b7a1a30656239ebd4d09cd254e67e404, -61⟩,
  ⟨-19408473416285297, 16, 16577203637385776, 16, 1298280334344292, 15, 33, 0x5745148f1520c27664ffdb192c8e4bbaade6d1d623d2879bb8e3af70855334a0b9, -3⟩,
  ⟨2885201743854409, 14, 16577203637385776, 16, 1298280334344292, 15, 11, 0x4989833c26041a34907368, 31⟩,
  ⟨3452957451772056, 14, 16567426756372263, 16, 1298280334344292, 15, 11, 0x69751861eaed98f9b1b738, 36⟩,
  ⟨3167781051200695, 15, 16567426756372263, 16, 1298280334344292, 15, 33, 0xf81959a4905830c5d60af31103fb17157571c98b079f1a9fb423e4e02db52f1224, 0⟩,
  ⟨9257602584644932, 15, 16568885505531072, 16, 12982803343442921, 16, 33, 0x54361e31a9499d46ade098039b3b9009be77f211879991741bb61c953a1c938f68, 11⟩,
  ⟨-17210862834337277, 15, 16568885505531072, 16, 12982803343442921, 16, 77, 0x34afcb8739e1652ade566a1cd7bc69c6033b532a80d4470e02ae2b58c01b7b2482a2724ac8983640636d91e5a66e43d749f087b05360f90c8a78b07d1695687bc2a8cc60ae0a9254b003d546b0, -18⟩,
  ⟨27737894193506772, 15, 16558541386343244, 16, 1298280334344292, 15, 33, 0xd8d1e17ab2f37a56742fe0c22c8a3ef2d35695edcffd93b8e65e99e8523b554b1a, 29⟩,
  ⟨2498729744268627, 14, 16558541386343244, 16, 1298280334344292, 15, 22, 0x838f54d242762d857f42f8d469d98edea66d43ff4e1d, 24⟩,
  ⟨-3912051748019493, 14, 1657453771568594, 15, 12982803343442921, 16, 22, 0x7062afa4f00c47216f05bd2a4bfc1b3dd24d05fc5444, -42⟩,
  ⟨-1266964983718554, 14, 1657453771568594, 15, 12982803343442921, 16, 33, 0x2698bab94125eabca052d40a4636006eedb3dc641de1d9431d8bf0172302fa5101, -12⟩,
  ⟨32591722625606934, 15, 16567627996811036, 16, 1298280334344292, 15, 22, 0x123d6c41485b0e7697cc888539f31498d37d4fe20280, 31⟩,
  ⟨16625596474154555, 15, 16567627996811036, 16, 1298280334344292, 15, 11, 0x338003e8cd34d284b9d23f, 14⟩,
  ⟨25761576793948386, 15, 16567823918628661, 16, 1298280334344292, 15, 22, 0x90ede4c69359d47543a4b748d22929f18010b6209456, 23⟩,
  ⟨-33203589709160795, 15, 16567823918628661, 16, 1298280334344292, 15, 11, 0xc09d53689d9dc1371f1d35, -33⟩,
  ⟨-2539209896266583, 14, 16560543746401626, 16, 12982803343442921, 16, 11, 0x99edb43bb7646404259e1d, -27⟩,
  ⟨-6361727342735126, 14, 16560543746401626, 16, 12982803343442921, 16, 11, 0xfa429730be548ab793d755, -63⟩,
  ⟨4907780645281506, 14, 16540291179355184, 16, 1298280334344292, 15, 11, 0xcb7ebc2b92852eefc4f246, 49⟩,
  ⟨26561520325407173, 16, 16540291179355184, 16, 1298280334344292, 15, 11, 0x96c8adfcce3f79da0c9167, 4⟩,
  ⟨4941335667544602, 14, 1653225958450355, 15, 1298280334344292, 15, 44, 0xe6e587e88bbe181686f5d30eb2e3e120f48fc731b0bdc6e3e3b4b7bcf4913be8f586f72522e069c98daf9983, 51⟩,
  ⟨3278626057161951, 14, 1653225958450355, 15, 1298280334344292, 15, 11, 0x6e9d40598797a85c344749, 34⟩,
  ⟨50683489258382366, 15, 16531396200864714, 16, 1298280334344292, 15, 11, 0xda15b3d4b514bbfd4f1289, 50⟩,
  ⟨-11698327758742124, 15, 16531396200864714, 16, 1298280334344292, 15, 11, 0xc43dcd3bb5c9fd47012f6a, -11⟩,
  ⟨50549057107841115, 15, 1652282019865102, 15, 1298280334344292, 15, 11, 0x127e33228d136e67a8c131, 54⟩,
  ⟨-20244138414829113, 15, 1652282019865102, 15, 1298280334344292, 15, 11, 0x8c4ed6270753685eb5cb7d, -19⟩,
  ⟨4309706739102926, 14, 16525030308843747, 16, 1298280334344292, 15, 55, 0x0816f791d7523b4ca947b9ccdd23816f1ea2b38fbfb38330369bbd87702a5b9ced00bcab2c72c373e1295bc578ef16b3598699448d5651, 42⟩,
  ⟨6719233991065737, 14, 16525030308843747, 16, 1298280334344292, 15, 11, 0xe3d9d3cbc7f0bf135804b1, 67⟩,
  ⟨2759013606776873, 15, 1651765679430816, 15, 1298280334344292, 15, 11, 0x6b4c2f4fcf6debc8b8f825, 1⟩,
  ⟨-19641396593367908, 15, 1651765679430816, 15, 1298280334344292, 15, 11, 0xe164669ad9142bd85fb3b6, -19⟩,
  ⟨1412710145773975, 14, 1651836630812274, 15, 1298280334344292, 15, 22, 0xd3fad09e3fd756f1761fd27c130d9b4bb9544060bc32, 13⟩,
  ⟨-18619868808998024, 15, 1651836630812274, 15, 1298280334344292, 15, 11, 0x6f8d36fcd6370e85a15f34, -17⟩,
  ⟨3441419834635921, 14, 16510619996511162, 16, 1298280334344292, 15, 22, 0x3ac1a3a3aa4605d8c02ef65e8473e13c4346b4185f82, 36⟩,
  ⟨-2394922468027241, 14, 16510619996511162, 16, 1298280334344292, 15, 22, 0x51f314adfd616c6750bdc9b41981e14034ce57d4b769, -23⟩,
  ⟨6028370801547595, 14, 16487300231684707, 16, 1298280334344292, 15, 22, 0xcb1a9a9d0c5207d91089e4b769c1687bc2413a57861a, 60⟩,
  ⟨3704966078756884, 14, 16487300231684707, 16, 1298280334344292, 15, 22, 0xe287cf644e10d54fb868e03130d222f00ebb2d3acc90, 35⟩,
  ⟨3549968123410418, 14, 1647857240146756, 15, 1298280334344292, 15, 11, 0xec3326455f8d39468862b1, 35⟩,
  ⟨-9320995311893094, 14, 1647857240146756, 15, 1298280334344292, 15, 11, 0xb481ad814c586693470792, -93⟩,
  ⟨10203140006143157, 15, 16478137861255504, 16, 1298280334344292, 15, 22, 0x8c373a35772b5981770aebb23b62c3abd2d1655be305, 11⟩,
  ⟨4784369536225531, 15, 16478137861255504, 16, 1298280334344292, 15, 11, 0xf212a0895eb121ae309e53, 4⟩,
  ⟨3826118460077204, 14, 1646883142228622, 15, 1298280334344292, 15, 11, 0xc32f9bc5aafd1bf2be165b, 38⟩,
  ⟨-4135357072686856, 14, 1646883142228622, 15, 1298280334344292, 15, 22, 0x34feeb20ed28ee579ee5d0f6c4da41c0572db96f0277, -42⟩,
  ⟨12360131485002986, 15, 1638673241861799, 15, 1298280334344292, 15, 11, 0xb474d53bcd39deedece19f, 13⟩,
  ⟨-11805727126719669, 15, 1638673241861799, 15, 1298280334344292, 15, 22, 0xe84364a151eccd91ab9dbf25e315945780de980dfe47, -14⟩,
  ⟨7630362612952865, 15, 16385313690315406, 16, 1298280334344292, 15, 11, 0xc460ac2b1ac82b781f8266, 7⟩,
  ⟨-4408855415590524, 15, 16385313690315406, 16, 1298280334344292, 15, 11, 0xe9a3baf142f83ac963a544, -4⟩,
  ⟨3274982653356424, 14, 16379792549309364, 16, 1298280334344292, 15, 33, 0x0e5b75341d4260f8254fc325fc86de6a0900c648a5fd94f04ace359258777c5272, 31⟩,
  ⟨4044505033802435, 14, 16379792549309364, 16, 1298280334344292, 15, 11, 0xdd2cea783b3df404a30d81, 41⟩,
  ⟨15993129588074439, 15, 16378305805339508, 16, 1298280334344292, 15, 11, 0x6dc5d9d99c1ee37b9523b4, 17⟩,
  ⟨-4965514398989579, 14, 16378305805339508, 16, 1298280334344292, 15, 33, 0x0f99f7f5fd80bb161f2d66d1e7615810e82ca8480fd07d47df10091a58016cc31f, -48⟩,
  ⟨26534156746606968, 15, 16358231324679886, 16, 1298280334344292, 15, 33, 0x3fad8077cbb052a20c3276cb87e03475f862befae7f4e5c62a512dbb92a60d8660, 26⟩,
  ⟨1576479951152708, 14, 16358231324679886, 16, 1298280334344292, 15, 11, 0x614e95d0824e4f8f381d67, 17⟩,
  ⟨-18442187015827084, 15, 16356018984151308, 16, 1298280334344292, 15, 33, 0x89e6e085a75c5acd049bdfa1e2a062b0505f73c19df95f4074bf392e990013d269, -20⟩,
  ⟨-51038880226216484, 15, 16356018984151308, 16, 1298280334344292, 15, 11, 0x85cdc09b936455a15e4389, -50⟩,
  ⟨9215619231212017, 15, 16349484456819185, 16, 1298280334344292, 15, 33, 0x62f376479e40bb8405cdf86b269e56c022917fe737e6be1fec44bca7dc99d140ad, 9⟩,
  ⟨43190275426085954, 15, 16349484456819185, 16, 1298280334344292, 15, 11, 0xc483cfca80e1335b412672, 43⟩,
  ⟨2741603384837047, 14, 16347127102941725, 16, 1298280334344292, 15, 22, 0x7b964ae00b1f2f5d1799ce3a53cf802ca6d8a7442a63, 25⟩,
  ⟨-14380125877148236, 15, 16347127102941725, 16, 1298280334344292, 15, 11, 0xfe305f915642b27088e907, -14⟩,
  ⟨18370561677184853, 16, 16354450562857834, 16, 1298280334344292, 15, 22, 0x6c2da8b313b3f0d69dbeacffc1a073ec0caf70c61e1b, 1⟩,
  ⟨8490700166542437, 15, 16354450562857834, 16, 1298280334344292, 15, 11, 0xa5e64094b19d16873f6733, 9⟩,
  ⟨26491614115821033, 15, 16352538093833304, 16, 1298280334344292, 15, 66, 0xbc4ec5e0431dd34ab1d8d7f2c6658dde8f3b82a1cbd867e95b9ea15e7322fea2f3bf706a8be04f71075e01d435fc023dd2e857eff883ce95498acf53656c18f4dc8f, 25⟩,
  ⟨-2932319897158619, 15, 16352538093833304, 16, 1298280334344292, 15, 11, 0xe9036805a4cbb731437a44, -3⟩,
  ⟨22171061706694385, 15, 16347614653784288, 16, 1298280334344292, 15, 11, 0x1f4b55973fe86504e2fc59, 19⟩,
  ⟨19828845908421737, 15, 16347614653784288, 16, 1298280334344292, 15, 22, 0x2f4fdc11e98cb9395460d8eeb7f823196a4a3ed81606, 19⟩,
  ⟨3260970390079837, 14, 16345630088307823, 16, 1298280334344292, 15, 11, 0x5ec19dc2cfdf1bec1cc173, 34⟩,
  ⟨-11127867292011745, 15, 16345630088307823, 16, 1298280334344292, 15, 33, 0x67baa63e7c7df7da7471de1bff20ec0f8e7458cd16a47d2611b3e6c984582c2f99, -10⟩,
  ⟨18762715223155322, 15, 16323402332159225, 16, 1298280334344292, 15, 22, 0x7175712cfed324cdad8db8e62456469da3805e437432, 18⟩,
  ⟨-5661869469368271, 14, 16323402332159225, 16, 1298280334344292, 15, 44, 0x162c99222a0028b32fc58d06b2fa6cd8d5fa53dac56237646579af2ab89d572fb89817f3db046ded95b2b0a1, -58⟩,
  ⟨2281409458170215, 14, 16320499581241241, 16, 1298280334344292, 15, 11, 0xde0eefe08a661522782729, 23⟩,
  ⟨-4275854000884262, 14, 16320499581241241, 16, 1298280334344292, 15, 11, 0xf09be4face007b294e5b35, -42⟩,
  ⟨-28902486476289006, 15, 16314541593569714, 16, 1298280334344292, 15, 22, 0x3c1e241d860b3d7b2b1b7b70d0118ab6410af9db7494, -30⟩,
  ⟨5473769601987678, 15, 16314541593569714, 16, 1298280334344292, 15, 22, 0x329d00bad083aabc4e2175dcabba864b2cb89ff50090, 5⟩,
  ⟨408201134087055, 13, 1631147310669373, 15, 12982803343442921, 16, 11, 0x11d77f68dfbc6385748954, 44⟩,
  ⟨-11612249133726657, 15, 1631147310669373, 15, 12982803343442921, 16, 11, 0xcfa9e775ecbecc62a01029, -12⟩,
  ⟨-318887234981212, 13, 16286317600676499, 16, 1298280334344292, 15, 22, 0x12062a899e99f4887cb4bc6cda901d7481ec4ba88b0d, -30⟩,
  ⟨-6353208406901942, 15, 16286317600676499, 16, 1298280334344292, 15, 11, 0xee0f47c5bc52a24862ce77, -7⟩,
  ⟨27858157737441726, 15, 16285723811754327, 16, 1298280334344292, 15, 22, 0x3ecb3674cc38406a37ebf23bcb48ca4abec79e9e7e2b, 25⟩,
  ⟨9295983209633068, 15, 16285723811754327, 16, 1298280334344292, 15, 22, 0x8cc1725b53f59e12d6c4b88f110c13147ef0a6fd913b, 11⟩,
  ⟨5749382469543575, 14, 1627796618230551, 15, 1298280334344292, 15, 11, 0xbdd46a70efaaa154c4a2a3, 57⟩,
  ⟨3092158020820183, 14, 1627796618230551, 15, 1298280334344292, 15, 33, 0x03228a3a5c0016696e6c411ee3584bfc0228d79ef499b42146b451c17003f3256e, 31⟩,
  ⟨-3884898577046193, 14, 16277326898924616, 16, 1298280334344292, 15, 11, 0x6ddde9ebdf03543371eb59, -37⟩,
  ⟨-19356613457600343, 15, 16277326898924616, 16, 1298280334344292, 15, 11, 0x69a150d066a0b1894aea74, -21⟩,
  ⟨6574915728875028, 14, 16259772243940847, 16, 1298280334344292, 15, 11, 0x8b0348b43597b31186bc11, 64⟩,
  ⟨5157705092687138, 14, 16259772243940847, 16, 1298280334344292, 15, 11, 0xcd1920a6a1a33f9b8e7427, 51⟩,
  ⟨8003891308291225, 14, 16258652400413494, 16, 1298280334344292, 15, 11, 0x6ec50f81147d30a3ade0b5, 79⟩,
  ⟨-14027831878781116, 15, 16258652400413494, 16, 1298280334344292, 15, 22, 0x7f4b84f7b093cb0bfd74cba712fa394cb5a011e5c239, -15⟩,
  ⟨1125300482233181, 14, 16249619956842618, 16, 1298280334344292, 15, 11, 0xc2c88abc758b3647a4a612, 11⟩,
  ⟨2290050753927332, 14, 16249619956842618, 16, 1298280334344292, 15, 11, 0x6141ac7fbc2cbc386c9d68, 24⟩,
  ⟨6404607478147999, 14, 16248392561404446, 16, 1298280334344292, 15, 22, 0x103439e533aed12824e34dc20ccdcbeb882584060099, 64⟩,
  ⟨7420696060113166, 16, 16248392561404446, 16, 1298280334344292, 15, 11, 0xd1bb5329b855546231be41, 0⟩,
  ⟨-675526771056253, 13, 1624968084587209, 15, 1298280334344292, 15, 11, 0xa263397508107cd6966a83, -69⟩,
  ⟨-9223768863096282, 15, 1624968084587209, 15, 1298280334344292, 15, 11, 0xe36aa73cab23a4bc441f30, -9⟩,
  ⟨1701074432107802, 14, 16248724786549689, 16, 12982803343442917, 16, 11, 0xa0aecee78b8396712e2502, 19⟩,
  ⟨-2769039747863058, 14, 16248724786549689, 16, 12982803343442917, 16, 11, 0x9b2c358951702290225f51, -26⟩,
  ⟨3336065626457188, 15, 16241593889092805, 16, 1298280334344292, 15, 11, 0xa78785ba30191ffeb53399, 4⟩,
  ⟨-3330192531149683, 14, 16241593889092805, 16, 1298280334344292, 15, 11, 0xf106489689b36f1d26a8b4, -34⟩,
  ⟨62773426194298004, 15, 16240584886150105, 16, 1298280334344292, 15, 11, 0xd929a7ca516048e3328896, 62⟩,
  ⟨11857791450667015, 15, 16240584886150105, 16, 1298280334344292, 15, 11, 0x827e39e5624ac686bf0070, 10⟩,
  ⟨703887658516177, 13, 1622037530128314, 15, 1298280334344292, 15, 33, 0x8ad0905ff84e8e104621a37c71ffa7c0523b9785bca740ce310a61625f14896452, 68⟩,
  ⟨12435115995538716, 15, 1622037530128314, 15, 1298280334344292, 15, 11, 0xc4258e3d91d0ccaadab301, 13⟩,
  ⟨5422595963305979, 14, 16218702471728674, 16, 12982803343442921, 16, 11, 0xd109a9560459bef1b4e6b7, 54⟩,
  ⟨-7965984404622166, 14, 16218702471728674, 16, 12982803343442921, 16, 11, 0x4d0753ffcb54bc0d4c6639, -82⟩,
  ⟨-31422257562963196, 17, 1621024784315374, 15, 1298280334344292, 15, 11, 0x5cb2c413edd11ce1a1ba72, -2⟩,
  ⟨-17004044638656023, 15, 1621024784315374, 15, 1298280334344292, 15, 11, 0x059a66e7b03f0009fcb72c, -13⟩,
  ⟨57022527596089965, 15, 162084424766924, 14, 1298280334344292, 15, 11, 0x2a7f7f62c38c4baac6b04b, 55⟩,
  ⟨-11599844860362953, 15, 162084424766924, 14, 1298280334344292, 15, 44, 0xc31d0a34fd454a559860d4c60eed8dc7e0dfc71e1be309825c4ae81553af7367f73321d749c6a8ec83561335, -9⟩]

/-- tests/test_samplerz.cpp:7184-7830. -/
def kats1024_3 : List Kat := [
  ⟨-592545807821671, 14, 16283171807202965, 16, 1298280334344292, 15, 11, 0x6f3b95c9730bc9b30c1e55, -7⟩,
  ⟨-46861102219149984, 15, 16283171807202965, 16, 1298280334344292, 15, 11, 0x71808aa2c858676f2f9d37, -45⟩,
  ⟨108181151816761, 13, 16273302686832838, 16, 1298280334344292, 15, 22, 0xf4406a85121045a51043ed9d76262104bc90ecef3a47, 9⟩,
  ⟨-6403257600720985, 15, 16273302686832838, 16, 1298280334344292, 15, 11, 0xbd63a64c7d1fec9715400e, -7⟩,
  ⟨15701647792630116, 15, 16278568854416275, 16, 1298280334344292, 15, 22, 0x0bc19d1a83b0641be99debcfba15707ecfdd337a840a, 15⟩,
  ⟨-3572164143614488, 14, 16278568854416275, 16, 1298280334344292, 15, 11, 0x2c1e977a33113e20ef2c12, -38⟩,
  ⟨-25340653795362943, 15, 16268438600897432, 16, 1298280334344292, 15, 11, 0x3f68310665100e679dfa14, -28⟩,
  ⟨-16953503479288738, 15, 16268438600897432, 16, 1298280334344292, 15, 44, 0x24bc0730fa97842dad91490e4ca14651a77dea52432c7c60a9d20e448aaf0787ea743d80d5787297b3872d5d, -15⟩,
  ⟨1514494042441349, 14, 16249571633476454, 16, 1298280334344292, 15, 11, 0xa4f0f9b9ac1875688f8422, 15⟩,
  ⟨-10720031300837084, 15, 16249571633476454, 16, 1298280334344292, 15, 11, 0x96b7fee466483faf3e3543, -9⟩,
  ⟨615347817954561, 14, 16239315445339728, 16, 1298280334344292, 15, 22, 0xd1d930f206664420a814f02f854fe9fcb2e55a276849, 4⟩,
  ⟨11056484456731195, 16, 16239315445339728, 16, 1298280334344292, 15, 22, 0x2c4db43c1df8c2527dbf8edc183fe7beffe2fdc47e9a, 1⟩,
  ⟨256580772760076, 13, 16243360758811474, 16, 1298280334344292, 15, 22, 0x827ef69d9ab81c6accbc8f581b60351278ec05ad1329, 27⟩,
  ⟨2359318206008783, 14, 16243360758811474, 16, 1298280334344292, 15, 22, 0xa9e0e3428ba9dbedaf93d1f1f1de6a80b22510832fa0, 24⟩,
  ⟨7729150022297819, 15, 16232762472212245, 16, 1298280334344292, 15, 22, 0x8d9c50ce3a6b5f595fa4f9ffd6b3a167eb6b3ebf5f26, 8⟩,
  ⟨-42766476691015264, 15, 16232762472212245, 16, 1298280334344292, 15, 22, 0x8033054c73e3e3358773f9dff2ddaa55592853e7bc14, -43⟩,
  ⟨-20215139413899628, 15, 16235111196922332, 16, 1298280334344292, 15, 22, 0x429e0591675d5508cd46f6abff4b3e163b676d0ce023, -21⟩,
  ⟨-1631789491828468, 14, 16235111196922332, 16, 1298280334344292, 15, 11, 0x02045a68c10aab7d5b9524, -11⟩,
  ⟨-3101565480745832, 14, 16223821313914149, 16, 1298280334344292, 15, 11, 0xf2860c505e7d1820b7da38, -32⟩,
  ⟨-2296985865173638, 14, 16223821313914149, 16, 1298280334344292, 15, 22, 0xc4fa7bb64223a2866f5dfcafefade54e4dfa9f13a0be, -23⟩,
  ⟨497396699204981, 13, 16230895618850234, 16, 1298280334344292, 15, 22, 0x01d2855d33294e7d8a03a0f04c3e022e60052b3a7722, 50⟩,
  ⟨25887296119898124, 15, 16230895618850234, 16, 1298280334344292, 15, 33, 0x5b59ed4fbb59aefed7a8b43341d53b8d4e7508d2cee2b3261bf16272680b64987a, 25⟩,
  ⟨43408927393099034, 15, 16219353530831075, 16, 12982803343442917, 16, 11, 0xb27f04c25b2d4f8443f607, 43⟩,
  ⟨-58749364196408486, 15, 16219353530831075, 16, 12982803343442917, 16, 11, 0x65d31fb6f04a9ca2d78e1d, -60⟩,
  ⟨5880439253208202, 15, 16198641618437895, 16, 1298280334344292, 15, 22, 0xf1255dea68fa4e8a7d56eac9ea0dee40857358c0ae72, 5⟩,
  ⟨5314749282899228, 15, 16198641618437895, 16, 1298280334344292, 15, 11, 0x42d21a03487ed42a38e649, 3⟩,
  ⟨14314117792258887, 15, 16186736108215154, 16, 1298280334344292, 15, 22, 0x64a8700652eeb0882d5ceda9b5073959f1dcb4e96d57, 15⟩,
  ⟨-924135134138533, 13, 16186736108215154, 16, 1298280334344292, 15, 11, 0x6ef8e354c74bcd50972072, -94⟩,
  ⟨35074104330764904, 15, 16192659172596726, 16, 1298280334344292, 15, 22, 0x1c72009f41cd12d3a437dec675df0742fe8652300cab, 35⟩,
  ⟨-18459665113508663, 15, 16192659172596726, 16, 1298280334344292, 15, 22, 0x2994197c50acafd3c8f78da44fc9d783832d0d5ad347, -18⟩,
  ⟨3940207963827296, 14, 1618040215163912, 15, 1298280334344292, 15, 22, 0x52df4ad0393ed5f60818bd464e547fc2c02ce95ea139, 42⟩,
  ⟨-14394822149434082, 15, 1618040215163912, 15, 1298280334344292, 15, 11, 0xf5558cc745aba61610345e, -15⟩,
  ⟨-40120874569412685, 15, 16193893762411267, 16, 1298280334344292, 15, 11, 0xd79fecba1bb9accfdbff08, -40⟩,
  ⟨1460120325760858, 14, 16193893762411267, 16, 1298280334344292, 15, 22, 0xeffc56c1acae33b13206dced1fd4a8ea44d500703222, 14⟩,
  ⟨-4352056972344227, 14, 16185759459177396, 16, 1298280334344292, 15, 11, 0xeb33b04896f1e1923e365b, -44⟩,
  ⟨-4883997885742739, 14, 16185759459177396, 16, 1298280334344292, 15, 22, 0x96c1e0a0c9cd6ba5fd82ffb4452cbdd5fc31326c7c82, -49⟩,
  ⟨27663726080703146, 15, 16188132091571017, 16, 1298280334344292, 15, 33, 0xde2f9c40070e9c681268e2c632a586df6d8466cd59d26d64148bd9fe21187b9f26, 29⟩,
  ⟨25732938516170773, 15, 16188132091571017, 16, 1298280334344292, 15, 11, 0x40c9e5727b09da6c37be38, 23⟩,
  ⟨-2987301449929903, 15, 16179722656732023, 16, 1298280334344292, 15, 11, 0xe95a31e3a8713ed58c1d96, -2⟩,
  ⟨-39582297840860086, 15, 16179722656732023, 16, 1298280334344292, 15, 22, 0xfaa54fa611ea93d5f1bfd3cd27b075632939c2b8c40a, -40⟩,
  ⟨14706453747149421, 15, 16164944783907453, 16, 12982803343442921, 16, 44, 0x1a49f316ef9788d1f966fc8618f8ad1ee3cc25d068ea286ff9fdc210ed334a3a7f5805bdb4e834563c162910, 16⟩,
  ⟨37402866865407816, 15, 16164944783907453, 16, 12982803343442921, 16, 22, 0x585cf20512a5fc829bf99a7c9a966228b4ca2ebf976e, 39⟩,
  ⟨3250458904448282, 14, 16156458326529395, 16, 12982803343442921, 16, 11, 0x3311eb88286ea87eac7821, 30⟩,
  ⟨4267547862775114, 16, 16156458326529395, 16, 12982803343442921, 16, 11, 0xc2149b9e8ae6b5135b6711, 1⟩,
  ⟨-16879898188094025, 15, 16157721992384237, 16, 1298280334344292, 15, 22, 0xebcb50d6de11bd6f60c1e0e672cf3137a6c84a708cb2, -17⟩,
  ⟨-29371565110944378, 16, 16157721992384237, 16, 1298280334344292, 15, 11, 0x1ce3bf8c2c248ad3479600, -6⟩,
  ⟨54358299839087906, 15, 16148885377373272, 16, 1298280334344292, 15, 22, 0x20c2dd3ab391be15cc418b13fb12173d5aba20e2fe34, 51⟩,
  ⟨-2225743838121402, 14, 16148885377373272, 16, 1298280334344292, 15, 11, 0x3190290fe8ab1720548b52, -20⟩,
  ⟨42912658176895675, 15, 16137761626512552, 16, 1298280334344292, 15, 11, 0xfa4c15c52f01fe01a3d28d, 42⟩,
  ⟨26900158945647092, 15, 16137761626512552, 16, 1298280334344292, 15, 33, 0x72d149c58cf57031386cc08d7bc9b5599d3456c069f944aa182cb6044da1597b14, 29⟩,
  ⟨-4743465796490997, 14, 16128518935957603, 16, 1298280334344292, 15, 11, 0x8c02fdccbc5aaeadd22288, -49⟩,
  ⟨-4050008468940318, 14, 16128518935957603, 16, 1298280334344292, 15, 11, 0xb869f3e79dc34883390eaf, -41⟩,
  ⟨9556781429584289, 15, 16132393666734584, 16, 1298280334344292, 15, 22, 0x5f1940b9752e2602558ad2b305a657816f18623a5ac1, 9⟩,
  ⟨3638503380211565, 14, 16132393666734584, 16, 1298280334344292, 15, 11, 0x890df932487e151467c624, 35⟩,
  ⟨1440838591409536, 14, 16122893826838403, 16, 12982803343442917, 16, 11, 0xdeba760704d2b73b0e7e09, 14⟩,
  ⟨14518891008516336, 15, 16122893826838403, 16, 12982803343442917, 16, 11, 0x803707d10bc9977eb4592e, 16⟩,
  ⟨-96179134781318, 13, 16106395010779357, 16, 1298280334344292, 15, 11, 0x69c5c714a781e5cbe7ae86, -11⟩,
  ⟨-14511602778189099, 16, 16106395010779357, 16, 1298280334344292, 15, 11, 0xc152387830383284275271, -2⟩,
  ⟨-9531703566234297, 15, 16096561523890385, 16, 12982803343442921, 16, 33, 0x1513b1b265a216c2246e7c29944b4df82e4e1609b875f8ab4206a1f04f9e31572b, -9⟩,
  ⟨19681004628583818, 15, 16096561523890385, 16, 12982803343442921, 16, 11, 0x1739928acea17734cbdb15, 23⟩,
  ⟨4584874151796494, 14, 16099390820879818, 16, 1298280334344292, 15, 11, 0x56686acc83e800c288cc3e, 44⟩,
  ⟨18804640793932663, 15, 16099390820879818, 16, 1298280334344292, 15, 11, 0xee8370455ad1c672839b4e, 19⟩,
  ⟨6619649976012998, 14, 16089206939707483, 16, 12982803343442921, 16, 11, 0x7d6c2ad05de889460e730f, 68⟩,
  ⟨-23718471715880174, 15, 16089206939707483, 16, 12982803343442921, 16, 11, 0x26c5527d115ec10a048a32, -26⟩,
  ⟨2111574149101446, 14, 15991550718284535, 16, 1298280334344292, 15, 11, 0x399c38b8de38a52d4e2c59, 19⟩,
  ⟨8996515269603366, 15, 15991550718284535, 16, 1298280334344292, 15, 22, 0x93eeabee573c6ef96a9ff12355547645ecbbecc71720, 11⟩,
  ⟨-14247717866079595, 15, 15989608616031967, 16, 1298280334344292, 15, 11, 0x7ba9dcf494bb896e7cd077, -16⟩,
  ⟨17432821933658786, 15, 15989608616031967, 16, 1298280334344292, 15, 33, 0x41c9e243771f257982abae5be6a8d561b72fa9e16ab6ad69d42976ca0fd49cc354, 18⟩,
  ⟨6154169547245627, 14, 15984199025082073, 16, 1298280334344292, 15, 11, 0xcefeb4fceab3fd9754dc73, 61⟩,
  ⟨-17856293213255878, 15, 15984199025082073, 16, 1298280334344292, 15, 22, 0x1df5d3ebddd6fe4bf4fbdd423feb71d4e8e3ea09dc03, -20⟩,
  ⟨-1493384591821746, 14, 15982287306533796, 16, 1298280334344292, 15, 11, 0xa6aca8e2583f2ac072660f, -15⟩,
  ⟨-1489836261142049, 13, 15982287306533796, 16, 1298280334344292, 15, 11, 0xe7adea17da223775f27885, -149⟩,
  ⟨2677135945188775, 14, 1596710056826831, 15, 1298280334344292, 15, 11, 0x79ffbaeaa967561b7d971d, 28⟩,
  ⟨-10917963697109624, 15, 1596710056826831, 15, 1298280334344292, 15, 11, 0xc8db2f996a265079945f77, -10⟩,
  ⟨3588202688493976, 14, 15964697763450624, 16, 1298280334344292, 15, 22, 0xe20c0792ff27fc09b34fe160ec3b92dfd73986dee42f, 34⟩,
  ⟨-5513929128508016, 14, 15964697763450624, 16, 1298280334344292, 15, 22, 0xe76f783d4cdd66e21b11f911f0fd251a7949e3610a10, -59⟩,
  ⟨2315033741846483, 14, 15958402557051585, 16, 1298280334344292, 15, 11, 0x358d92ec90ec030ce75c5e, 21⟩,
  ⟨20985736490879972, 15, 15958402557051585, 16, 1298280334344292, 15, 11, 0xb6f4a6a1e63a2a8a9b9c22, 20⟩,
  ⟨-7467836828833824, 17, 15956011266143655, 16, 1298280334344292, 15, 11, 0xf1dbddc7c193911bd26373, 0⟩,
  ⟨6803389170363292, 15, 15956011266143655, 16, 1298280334344292, 15, 44, 0x1fcd76a184c97022520d8b483f678be0f691227b2db278f74a12c9ac43421acaa2ef7050912ec9e6b18e618d, 7⟩,
  ⟨38291836209231036, 16, 15954317909047837, 16, 12982803343442921, 16, 11, 0x3d26dc1296805b993c650c, 6⟩,
  ⟨-31268382917772783, 15, 15954317909047837, 16, 12982803343442921, 16, 11, 0x5f47207ac63c05068bc82d, -33⟩,
  ⟨3792494723815921, 14, 15951424911315737, 16, 1298280334344292, 15, 44, 0x4845fd2e4a392eeb9194e53f276aed4628f4674735ac0127097dd7e9d969896e62de6fe05ef83fa43ed0b720, 38⟩,
  ⟨-310052775206976, 14, 15951424911315737, 16, 1298280334344292, 15, 22, 0xbad7d674707cbb50d12fd7878fa6d14610cc5f092f2a, -2⟩,
  ⟨4449704615675185, 14, 15947393490999586, 16, 1298280334344292, 15, 11, 0x3d71255b62ddbd4e462715, 47⟩,
  ⟨47479735928535916, 15, 15947393490999586, 16, 1298280334344292, 15, 11, 0xfb5aa6fe26eb3204275a07, 47⟩,
  ⟨-41457871994560996, 15, 15944548174074133, 16, 1298280334344292, 15, 11, 0x999021db1650124777884c, -43⟩,
  ⟨-5475323364431402, 14, 15944548174074133, 16, 1298280334344292, 15, 11, 0x0e56ddf153efb306cf4b26, -51⟩,
  ⟨-31250893593151496, 15, 15927646879626507, 16, 12982803343442917, 16, 22, 0x05c9721577da1dcd5545e9cc49263ed9e7bb5a6bcd23, -31⟩,
  ⟨20034923626100127, 16, 15927646879626507, 16, 12982803343442917, 16, 11, 0xa6a4a8744434551b8ee520, 3⟩,
  ⟨-12877975417797117, 15, 1592411415734157, 15, 1298280334344292, 15, 11, 0x6db10890611408720148b4, -14⟩,
  ⟨-3194392208249545, 14, 1592411415734157, 15, 1298280334344292, 15, 11, 0x586ad82c4ebca72fd74f42, -30⟩,
  ⟨19984737929101456, 15, 15919266632970972, 16, 1298280334344292, 15, 22, 0x55fb7e99e12e1d4292fdf3cb68d3902db2c2a22fe9b2, 20⟩,
  ⟨7485804135970261, 15, 15919266632970972, 16, 1298280334344292, 15, 44, 0x9046ce2291bce16ed2bccf9cc6fba515edfac51440f500f36c0eab271c035c55e393ca7f42d5fe8b195c2c30, 6⟩,
  ⟨3533499972052292, 14, 15915755483083258, 16, 1298280334344292, 15, 22, 0x057014631fbf6787d04bca8ee66dfad32e66b7cd4f1a, 37⟩,
  ⟨5480195474908412, 15, 15915755483083258, 16, 1298280334344292, 15, 22, 0x42eca06091e522a0ac80c7b054ad89c54c7b9425dc11, 5⟩,
  ⟨-1920726599809119, 14, 15881907671602744, 16, 1298280334344292, 15, 11, 0x629b4a8db9ecca91bd1478, -21⟩,
  ⟨17518878491757523, 15, 15881907671602744, 16, 1298280334344292, 15, 22, 0x1bbe5adee5113dd3fad9c91ed7ab9457c3307fe08b47, 21⟩,
  ⟨37388890022536714, 16, 15881209150400986, 16, 1298280334344292, 15, 44, 0x4e393d1cdb98842a4ce59b39177bcb41937463aef5dfd33a33a54a84e431c6c5fae72b167488a7c982ca17ad, 4⟩,
  ⟨4544103950650826, 14, 15881209150400986, 16, 1298280334344292, 15, 33, 0xd6cc482ab4442a350363c594cc5f74b8e5798b27daa3fb4cb950d2c97d235d9f64, 46⟩,
  ⟨22893889354657624, 16, 15872465244277358, 16, 1298280334344292, 15, 11, 0xc511dce9402d6345b0b6a3, 2⟩,
  ⟨4601898366176809, 14, 15872465244277358, 16, 1298280334344292, 15, 11, 0xaeb324a78e2318cc4e0942, 47⟩,
  ⟨-7557906903766545, 15, 15871791169721865, 16, 1298280334344292, 15, 11, 0x9c34c2e3c7a1c6c8602945, -6⟩,
  ⟨-29842421519393504, 15, 15871791169721865, 16, 1298280334344292, 15, 11, 0xcfc21883388228b726ca74, -30⟩,
  ⟨-2906922286177077, 14, 1586231907927597, 15, 1298280334344292, 15, 11, 0xfcc388253ae10c011c15b0, -29⟩,
  ⟨6508824873012458, 15, 1586231907927597, 15, 1298280334344292, 15, 11, 0xb41e38e30178fd30b909ad, 7⟩,
  ⟨21811869464444804, 16, 15861316492198505, 16, 1298280334344292, 15, 44, 0x0b8c7921014ff148063dcce7a830df23172f23f1acf90be86ff17aa219408214e16f7fe32a1f1e592456f31d, 4⟩,
  ⟨-3608923725965102, 14, 15861316492198505, 16, 1298280334344292, 15, 11, 0x8f7995b6eb56bf8be1eb19, -35⟩,
  ⟨2385703608413068, 14, 15851745051615391, 16, 12982803343442917, 16, 11, 0xcab056083d14a52f8ca577, 24⟩,
  ⟨17034483140831878, 15, 15851745051615391, 16, 12982803343442917, 16, 22, 0x3d06d3f6ca403cc35ac15e903109e426458046a97232, 16⟩,
  ⟨6362686578808098, 14, 1585075480232235, 15, 1298280334344292, 15, 11, 0x2aa60622c3cb58d850e055, 61⟩,
  ⟨-26336935743833468, 15, 1585075480232235, 15, 1298280334344292, 15, 11, 0xc166a623fcaa92ba185101, -26⟩,
  ⟨5670108309307064, 14, 15840871819178375, 16, 1298280334344292, 15, 11, 0x244f41c369d26871f8d44d, 54⟩,
  ⟨-37898114712472655, 15, 15840871819178375, 16, 1298280334344292, 15, 11, 0x8d436a3bbb9fa397600f05, -36⟩,
  ⟨18503221161900825, 15, 15839536758366837, 16, 1298280334344292, 15, 11, 0x27d768dde429ab01f5ad53, 21⟩,
  ⟨-7684835098600097, 15, 15839536758366837, 16, 1298280334344292, 15, 11, 0x47cf5a62ed4f878a867656, -10⟩,
  ⟨-32293591801356314, 17, 15831942275473634, 16, 12982803343442921, 16, 11, 0x66bb6b4c87b5ce6c72e14f, 1⟩,
  ⟨6700490193396504, 14, 15831942275473634, 16, 12982803343442921, 16, 22, 0xe286b65dd6920559f511e943c5bd263267f6ea35b73a, 70⟩,
  ⟨1243547560423012, 14, 15830650962111932, 16, 1298280334344292, 15, 11, 0x2bccc46efca831bbd97d29, 15⟩,
  ⟨-3801013799968974, 14, 15830650962111932, 16, 1298280334344292, 15, 11, 0xeef89d8e9bb336d369f792, -38⟩,
  ⟨4947293959347004, 15, 15819110996203223, 16, 1298280334344292, 15, 11, 0xb3b4829468bac5b43db543, 5⟩,
  ⟨13429489561213877, 15, 15819110996203223, 16, 1298280334344292, 15, 22, 0x934940fe887ef433422fffd62a6ffb79a87b4748da57, 13⟩,
  ⟨946550642229037, 14, 15817304761728062, 16, 1298280334344292, 15, 11, 0x6cb40fa85076bc80c77d29, 11⟩,
  ⟨-31387045824168066, 15, 15817304761728062, 16, 1298280334344292, 15, 22, 0xd4580b477762f63f24ecdbdc079228af6844b7068427, -32⟩,
  ⟨3894921103254734, 14, 1580892631102188, 15, 1298280334344292, 15, 22, 0x2e89c8a15b82ee2cc435cb9a033c4dbade9682f32107, 40⟩,
  ⟨8331966813263799, 15, 1580892631102188, 15, 1298280334344292, 15, 11, 0x85d72226b697faad226a64, 7⟩,
  ⟨-11510403650789367, 15, 1580714478600016, 15, 12982803343442917, 16, 11, 0x8d9939ed02642408b35b0d, -10⟩,
  ⟨-4924323566195818, 14, 1580714478600016, 15, 12982803343442917, 16, 22, 0x4a7e3abf66b79f15786691bc11fe78fe2649ff5db19d, -49⟩]

/-- tests/test_samplerz.cpp:7831-8474. -/
def kats1024_4 : List Kat := [
  ⟨-5696728665774283, 14, 16091260575534752, 16, 1298280334344292, 15, 11, 0x1f6512dba709f1ab5fe441, -60⟩,
  ⟨-415517300123577, 14, 16091260575534752, 16, 1298280334344292, 15, 33, 0x51c92142452561fa53cec9c04cad820e6a940a270ce19d9e48c54f9a2df52ce7ae, -3⟩,
  ⟨-8483846736896178, 15, 16053727982385562, 16, 1298280334344292, 15, 23, 0x01d5fa2940cd5e5784a782a5f7ee90ff422476b975c5b1, -8⟩,
  ⟨-12309200102424693, 15, 16053727982385562, 16, 1298280334344292, 15, 22, 0x546ca3672bf9059c1e99d1e91b46c6384a7f74937e2c, -13⟩,
  ⟨-6258212162223614, 15, 1608038555386307, 15, 1298280334344292, 15, 11, 0xe192bac33c840f707dfa2a, -7⟩,
  ⟨-16165563958503693, 15, 1608038555386307, 15, 1298280334344292, 15, 22, 0xec870bc5adff506d3b3ef25b9cbe19b8a181302ff953, -15⟩,
  ⟨-11592575259730545, 15, 16042815840712512, 16, 1298280334344292, 15, 33, 0x5a71ac5c6d05c6645f4cb652e9ca82873f38776a60e608f01186533ac33bbb2f0f, -7⟩,
  ⟨-47144493878706854, 15, 16042815840712512, 16, 1298280334344292, 15, 11, 0xc335a4a4b800d3822f2f6c, -47⟩,
  ⟨-12651539097633016, 15, 16034009562587515, 16, 1298280334344292, 15, 22, 0x05d709f81a384a58e680d4822e6d85a2948047e82b37, -11⟩,
  ⟨-21457009535923834, 15, 16034009562587515, 16, 1298280334344292, 15, 11, 0xad643bf09883be41aff200, -22⟩,
  ⟨-6814866422891285, 14, 1599103215865758, 15, 1298280334344292, 15, 11, 0x33672ffd71343551e0d827, -71⟩,
  ⟨-11111504251592013, 15, 1599103215865758, 15, 1298280334344292, 15, 11, 0xbb8b71f170752db75d6e79, -12⟩,
  ⟨-13829922750191649, 15, 1601953601994357, 15, 1298280334344292, 15, 22, 0x2097c8643712cf49ff3bfe71c000bc2616fc9ef9fc3d, -15⟩,
  ⟨2616118164039692, 14, 1601953601994357, 15, 1298280334344292, 15, 11, 0xf98a878c512d40ff911558, 27⟩,
  ⟨4480531326957073, 14, 15975960511079448, 16, 1298280334344292, 15, 33, 0xc27ed7f3d59a3b13232be9625bbecc2379ee0a820acb8668b7b7efca77621d0e75, 43⟩,
  ⟨23139009204256652, 15, 15975960511079448, 16, 1298280334344292, 15, 33, 0x1efb8d82649aee6031415303a9ccf7cee9ca482a8e95df69ba767146bd59857b7f, 24⟩,
  ⟨53743313126725134, 15, 16030961552917085, 16, 1298280334344292, 15, 22, 0x98af315245fb92c71997fac55f113833b009f63c667c, 53⟩,
  ⟨18486372709836019, 16, 16030961552917085, 16, 1298280334344292, 15, 22, 0x8739417198458ba4c674b7db1ede45bf4e80896568a4, 1⟩,
  ⟨-14920922856232991, 15, 15997444421521014, 16, 1298280334344292, 15, 11, 0xe22cc3c0f320280293acb7, -15⟩,
  ⟨-5232435817327664, 15, 15997444421521014, 16, 1298280334344292, 15, 11, 0xac66a0fb863d36c0b03356, -5⟩,
  ⟨-3259969909240218, 15, 16019209913893004, 16, 12982803343442921, 16, 22, 0x9fdf457fd79044023a21fa929d8231de8c0a9a88ba32, -5⟩,
  ⟨-7744006371306695, 15, 16019209913893004, 16, 12982803343442921, 16, 11, 0x2b718272225c75c9fc5c68, -10⟩,
  ⟨2251621938727508, 14, 1598574532335943, 15, 1298280334344292, 15, 22, 0xe9390f47ac602c8056dbfe855b2e5c42b6081e12bd92, 24⟩,
  ⟨18449759691104155, 15, 1598574532335943, 15, 1298280334344292, 15, 11, 0x6daaf9733d5fe7bd969536, 20⟩,
  ⟨44760076333930705, 15, 15968200281264509, 16, 12982803343442917, 16, 11, 0x148f7173595240cb24052e, 48⟩,
  ⟨-5359669722670453, 14, 15968200281264509, 16, 12982803343442917, 16, 11, 0x62ba930ce972e26f274d79, -52⟩,
  ⟨11035890242579297, 15, 15929631653584253, 16, 1298280334344292, 15, 11, 0x0bd7d68cc8238d47ea6306, 15⟩,
  ⟨-2092784458201202, 14, 15929631653584253, 16, 1298280334344292, 15, 11, 0x9552ba3e136dbb451528a1, -22⟩,
  ⟨1131091273620904, 14, 15952528468463436, 16, 1298280334344292, 15, 22, 0x157016afcf91e6ea123338241f1673e5a669677dfb0d, 14⟩,
  ⟨14397448860670345, 15, 15952528468463436, 16, 1298280334344292, 15, 33, 0x17215a31fa71bec7f0a0b52848345d91694f4e45c587ec370a1b33668d0b565876, 14⟩,
  ⟨3498765614378903, 14, 15913458507196665, 16, 1298280334344292, 15, 11, 0xb96f29f0e2c02fae836dc4, 35⟩,
  ⟨2532885791521855, 14, 15913458507196665, 16, 1298280334344292, 15, 11, 0x8728b6fc994ead5080588d, 24⟩,
  ⟨-32538425525252883, 16, 15980801299054246, 16, 1298280334344292, 15, 22, 0x334f78b30e64253eb008e5f5c8c2775ed0c035a84506, -3⟩,
  ⟨-17076799886027278, 15, 15980801299054246, 16, 1298280334344292, 15, 11, 0x659988e6e313f2e4ce1039, -19⟩,
  ⟨-27230427954207483, 16, 15948707413741607, 16, 1298280334344292, 15, 22, 0x04a9b3228cedaa6fccb97d26877e036d5f10e7a08869, -5⟩,
  ⟨-11940146230856534, 15, 15948707413741607, 16, 1298280334344292, 15, 11, 0x4e571ae14c93139c56ae42, -14⟩,
  ⟨-9481606407039408, 15, 15971704169232335, 16, 12982803343442917, 16, 11, 0x35996d095c8f94988d2b3c, -7⟩,
  ⟨9511979635571688, 15, 15971704169232335, 16, 12982803343442917, 16, 11, 0x4cdb6f7d929833078c222d, 7⟩,
  ⟨-999787294857975, 14, 15939218558268147, 16, 1298280334344292, 15, 22, 0x02b869d6ff66fb0ea977fe3167afdf76f2be65e7df22, -7⟩,
  ⟨-56965157337584195, 15, 15939218558268147, 16, 1298280334344292, 15, 22, 0x668a20b22aa532817c27a4e63507f191e4413af43452, -57⟩,
  ⟨2204194527603068, 15, 15923886653769423, 16, 1298280334344292, 15, 11, 0xeafb356e0a4d2bb14dc299, 2⟩,
  ⟨10365988945904213, 15, 15923886653769423, 16, 1298280334344292, 15, 11, 0x4e661ea6efbec083890b0e, 13⟩,
  ⟨7971818915664548, 14, 15886179527667115, 16, 12982803343442917, 16, 11, 0x51f15f6011193a95fc6916, 82⟩,
  ⟨-3488288408653209, 14, 15886179527667115, 16, 12982803343442917, 16, 11, 0x0965b43f534b807db5c03f, -39⟩,
  ⟨9596725647354512, 15, 15910498463880367, 16, 1298280334344292, 15, 33, 0x19d94a40869f90dc2b6c46e664ee70fbecd6b454aed73c5bc8f5f67c802b669123, 12⟩,
  ⟨-1694743466419944, 14, 15910498463880367, 16, 1298280334344292, 15, 11, 0x9a7a742a9422a344ccc103, -15⟩,
  ⟨5320733244643807, 14, 1587179165965845, 15, 1298280334344292, 15, 11, 0x848c5bc64fc18065cd6887, 52⟩,
  ⟨-25245050235506143, 16, 1587179165965845, 15, 1298280334344292, 15, 11, 0x14dad427e8cb1c03d2d928, 1⟩,
  ⟨20150965429736612, 15, 15918011406555435, 16, 1298280334344292, 15, 11, 0x1bfa37873e3632f9d1f23d, 17⟩,
  ⟨625010906932617, 13, 15918011406555435, 16, 1298280334344292, 15, 11, 0xd6c26713cc29a26599a245, 62⟩,
  ⟨-3008728727900433, 14, 15889636556103819, 16, 1298280334344292, 15, 22, 0x20b5bb79c80f9a6aaa865b58d3471bb37958eacce855, -32⟩,
  ⟨-15928583818909436, 16, 15889636556103819, 16, 1298280334344292, 15, 11, 0xf3047ab1c13a3c252c25a4, -1⟩,
  ⟨8288014593161458, 14, 15907800598229815, 16, 1298280334344292, 15, 11, 0x87b7cc616cb820a193636a, 84⟩,
  ⟨-5435649821456799, 15, 15907800598229815, 16, 1298280334344292, 15, 33, 0x40143bb589b25d6db1f0fa214abf20a98bb08157cad038528ffc480ea8f6c18a15, -8⟩,
  ⟨842593610789587, 14, 1587912887326411, 15, 1298280334344292, 15, 11, 0x9699448cd2b87e67ffbd03, 10⟩,
  ⟨23889620963222615, 15, 1587912887326411, 15, 1298280334344292, 15, 22, 0x24e081a58bbd3f726bcc8f55da2321897b18f0ba850d, 25⟩,
  ⟨25710585990918823, 15, 15854536564950534, 16, 1298280334344292, 15, 33, 0x369f96bc362e407b0ebdcdb7b901324c5a0b4a574ee19f1617800147acc1c79052, 24⟩,
  ⟨-27103276895740635, 15, 15854536564950534, 16, 1298280334344292, 15, 11, 0xc8728d70e1641df1bb4e52, -28⟩,
  ⟨11085004105848649, 15, 15820986034645095, 16, 1298280334344292, 15, 22, 0x00fab7282d5d4bbe1e8676a4333e8b441823b38710a3, 11⟩,
  ⟨-4325351412555812, 14, 15820986034645095, 16, 1298280334344292, 15, 11, 0xe1028d7a41ea488a8d7912, -43⟩,
  ⟨-3564254497513014, 15, 1583954803632023, 15, 1298280334344292, 15, 22, 0x87589e5985a764a834a0cdba804daa9780ebbec86b0d, -3⟩,
  ⟨-1448579542507149, 15, 1583954803632023, 15, 1298280334344292, 15, 33, 0x34d33504b4aa905dbd07757ac17cd0802f4ac90e53d6b835a1471383ac253b6a8e, -2⟩,
  ⟨2124524768580347, 14, 15805097500074872, 16, 1298280334344292, 15, 11, 0x582cc8bf7ff89f51fb4152, 23⟩,
  ⟨-27361231455349383, 15, 15805097500074872, 16, 1298280334344292, 15, 22, 0x2aad0f7d45d26cfcc50287b23bade78ee3690cc43306, -27⟩,
  ⟨-22024529695413683, 15, 1578788250868285, 15, 1298280334344292, 15, 11, 0x04920e0988feb89496730d, -18⟩,
  ⟨-22924261497237687, 15, 1578788250868285, 15, 1298280334344292, 15, 11, 0x3bda4c9bd9ab0932017880, -25⟩,
  ⟨42673296280528454, 15, 15751845686793546, 16, 1298280334344292, 15, 22, 0x9a5e94f59f32d011c1caeba9721443464cdf1d63e660, 42⟩,
  ⟨-1072905724068165, 14, 15751845686793546, 16, 1298280334344292, 15, 11, 0xe097d5d62302140e965224, -11⟩,
  ⟨34103540934444965, 17, 15784445152928337, 16, 1298280334344292, 15, 11, 0x511b71744f25774f8b560e, -2⟩,
  ⟨-46531068292611344, 15, 15784445152928337, 16, 1298280334344292, 15, 11, 0x6812bbad25ed9e27d95b78, -45⟩,
  ⟨2154658717838843, 14, 15748510611804343, 16, 1298280334344292, 15, 22, 0x4f1944b186372b6c6151cc60ba65771bd2d0edb51792, 23⟩,
  ⟨-5727026489237074, 14, 15748510611804343, 16, 1298280334344292, 15, 22, 0xbfb60659f5c3835896a3decec89f6ef7cc05b74bcc95, -58⟩,
  ⟨4295285964177086, 14, 15733893035497175, 16, 12982803343442917, 16, 66, 0x51120aff356a2e317ffc45365f47890638d8effcf3bfee2c03942965525d59abf176e133f854b8fdd80a02fc090be6f428b8be698e49c1f003c0c0aee9e5091db191, 43⟩,
  ⟨9220769262332805, 15, 15733893035497175, 16, 12982803343442917, 16, 11, 0x9e10234fb9f3d690c292a7, 8⟩,
  ⟨-1108807726220725, 14, 15690629763880068, 16, 1298280334344292, 15, 22, 0x700c011c4e34153e9922bf644316e47a189e790a6664, -13⟩,
  ⟨-5725368389745015, 14, 15690629763880068, 16, 1298280334344292, 15, 11, 0xb872f17ff65307d889deb9, -58⟩,
  ⟨4036228364851466, 14, 15727757472147939, 16, 1298280334344292, 15, 11, 0x5ac0633e26aae482ea308a, 39⟩,
  ⟨-10855428639799207, 16, 15727757472147939, 16, 1298280334344292, 15, 11, 0xa5c5c788652e8b1aced7a0, -1⟩,
  ⟨44131995792764144, 15, 15684196372604022, 16, 1298280334344292, 15, 23, 0x4679c326ab1d4a291c2eb130016395452150710ee1488f, 47⟩,
  ⟨-1901011302511411, 14, 15684196372604022, 16, 1298280334344292, 15, 11, 0xf71fcee43132e2e3030115, -19⟩,
  ⟨60746450126644746, 15, 15722287091992042, 16, 1298280334344292, 15, 11, 0x589105e3c414a73bb79621, 59⟩,
  ⟨11686451461097686, 15, 15722287091992042, 16, 1298280334344292, 15, 11, 0x4d3ec28fc982705068df20, 14⟩,
  ⟨-18341951668170623, 15, 15691446144634866, 16, 1298280334344292, 15, 33, 0x4238929367e37daec739c89e74ededd1cffd89a171f1456f0cb87b42b19e412823, -21⟩,
  ⟨-30593690093288686, 15, 15691446144634866, 16, 1298280334344292, 15, 11, 0x4ce6b51beb1e18150fc05f, -33⟩,
  ⟨3879308435030481, 14, 1571892224319475, 15, 12982803343442921, 16, 11, 0x3118e68335fa5cb2c24009, 36⟩,
  ⟨10799257850470159, 15, 1571892224319475, 15, 12982803343442921, 16, 22, 0x9fd42927ead9aeb860b3e9571d69599c35b016b1ee7e, 9⟩,
  ⟨41174142007145605, 15, 15688164657685573, 16, 1298280334344292, 15, 11, 0xdb5e7f8a362f3fcf971ca3, 41⟩,
  ⟨-50518349175372585, 15, 15688164657685573, 16, 1298280334344292, 15, 11, 0x29da1d3244e9a28997223b, -53⟩,
  ⟨2533649042632588, 14, 1566479326169056, 15, 1298280334344292, 15, 55, 0x5bf9203b3b1c29385c61c9e2d1f33d80c98ca6c24be3c2f7b63616d72f9e3817c71837ef14150712a84fa5a0bbfcfe7d65ed3f1015338e, 26⟩,
  ⟨-3887993729624756, 14, 1566479326169056, 15, 1298280334344292, 15, 55, 0x0dfdc67f506f16ad20d93c1a910fe9cf1f0ef035f7e6052bdd68fcbebf29bf9d9304013c27217d338a914d362e6665de8e7ea218eba435, -41⟩,
  ⟨6824865887756078, 15, 15627166505482881, 16, 1298280334344292, 15, 11, 0xc857389a20df2c7e5a6c8a, 6⟩,
  ⟨-59447884708200384, 15, 15627166505482881, 16, 1298280334344292, 15, 22, 0x0866fec60c281ef30f3d61b05aef8f950867321c9f0f, -59⟩,
  ⟨8717815950790309, 15, 15658506947702695, 16, 12982803343442917, 16, 22, 0xc28166c11bf0a27c17f2cd5f6f330cfe1487be6a0fa1, 10⟩,
  ⟨-37664246772828864, 16, 15658506947702695, 16, 12982803343442917, 16, 33, 0x25a8f07d38a9b21515575e1be9013166c62d0c9efc863a36e1dccee6f54488c65a, -6⟩,
  ⟨46730307901809894, 15, 15620579708141706, 16, 1298280334344292, 15, 11, 0xa1a3839a3768e4eec07f1c, 48⟩,
  ⟨-15525211342555446, 15, 15620579708141706, 16, 1298280334344292, 15, 11, 0x84c80b11aa9560729f0579, -14⟩,
  ⟨14530304749536285, 15, 15653616699846837, 16, 1298280334344292, 15, 22, 0x59d64d29d4f9f93a465daf5b569ffd582037d5099e92, 13⟩,
  ⟨-20311994867856583, 15, 15653616699846837, 16, 1298280334344292, 15, 11, 0xfbd75249d8c530e0156b2f, -20⟩,
  ⟨-19556358797473724, 15, 1562439069032064, 15, 1298280334344292, 15, 11, 0xa81e9867ee8448191af644, -20⟩,
  ⟨23152942741451803, 15, 1562439069032064, 15, 1298280334344292, 15, 22, 0x17a4712a4bccf29319254be34a42d263b70c7b727457, 23⟩,
  ⟨2507590682611972, 14, 15651025098036038, 16, 12982803343442917, 16, 11, 0x8741a9db9ee80909379e70, 24⟩,
  ⟨3065836705255704, 14, 15651025098036038, 16, 12982803343442917, 16, 11, 0x89ec13fc249479cfaaee3f, 29⟩,
  ⟨-31143145938969194, 15, 15621707097293227, 16, 1298280334344292, 15, 11, 0xf014d2a029dfd8e9fe7d40, -31⟩,
  ⟨-4965752284266757, 14, 15621707097293227, 16, 1298280334344292, 15, 11, 0x738ef27e737abeec421087, -51⟩,
  ⟨-253360950534317, 13, 15597265170590415, 16, 1298280334344292, 15, 33, 0x050054a466bd935deabe3d1d0b644069183a3b192deaa3ceb0e32a3bbae64b1083, -27⟩,
  ⟨-2449831945248466, 15, 15597265170590415, 16, 1298280334344292, 15, 11, 0x54a69c3099a172f5a9c256, -5⟩,
  ⟨3442926578875818, 15, 15560827995056923, 16, 1298280334344292, 15, 11, 0xeb11a2d76ef31e59902515, 4⟩,
  ⟨-1965834143585867, 14, 15560827995056923, 16, 1298280334344292, 15, 11, 0xea61ddd635242873ff7aae, -20⟩,
  ⟨19718612343640956, 15, 1559143702959728, 15, 1298280334344292, 15, 44, 0x8203c2676a89d469a99dbaad5cd78d355c43d2d6d3ee5f56a6436a41de65a07a9ab5e08084adf340b5b61d25, 20⟩,
  ⟨23289209959314732, 15, 1559143702959728, 15, 1298280334344292, 15, 22, 0x64fe0c9a688444b7be80d151d824dcbbee4ee4f42b4a, 26⟩,
  ⟨8104094370892598, 14, 15554442242004214, 16, 1298280334344292, 15, 22, 0x3b22869ae4903e1e67c7f6a8768449b1709de2a32ecd, 81⟩,
  ⟨1683608825611286, 15, 15554442242004214, 16, 1298280334344292, 15, 22, 0x18d8a11d63062f9d5dd083e80cfe264d80f3ad92867c, 1⟩,
  ⟨43153721055047605, 15, 15591880245807617, 16, 1298280334344292, 15, 33, 0x5b087de4d0c4e62238d0ff01705a8fa3cc93aa8cb54d9e3ed8b94a39058bdd3918, 45⟩,
  ⟨-49169819956513685, 15, 15591880245807617, 16, 1298280334344292, 15, 11, 0xac1d1f17adedc663a30bc9, -49⟩,
  ⟨-45160856605224396, 15, 15566471744032888, 16, 1298280334344292, 15, 11, 0xf75b2d984d15e3f79ba7ce, -45⟩,
  ⟨-5002497920876226, 14, 15566471744032888, 16, 1298280334344292, 15, 11, 0x2c780f190b2dc2f0ef5a2e, -53⟩,
  ⟨4884348033413116, 14, 1558898764208624, 15, 12982803343442921, 16, 11, 0xfd833469b47dfc3ee34063, 48⟩,
  ⟨27143606696181166, 16, 1558898764208624, 15, 12982803343442921, 16, 11, 0xa39ba56eb90f9df2f1045f, 1⟩,
  ⟨41436477362204336, 15, 15563524952680179, 16, 1298280334344292, 15, 22, 0x08492bd2b84f3d5c0f6bc2c51709cdb3a2262e637eca, 41⟩,
  ⟨-16297765494438952, 15, 15563524952680179, 16, 1298280334344292, 15, 11, 0x6e0665be1d8bb9ee81e9a2, -15⟩,
  ⟨68067820371691745, 16, 15531387795478475, 16, 1298280334344292, 15, 11, 0x8ea7a97c0b1121c22e3f67, 8⟩,
  ⟨2420337869467869, 14, 15531387795478475, 16, 1298280334344292, 15, 22, 0x285a648506a761b69d4bbfe5a8ed41d28c3e78439a17, 24⟩,
  ⟨4106655094467593, 14, 1549919723037669, 15, 1298280334344292, 15, 11, 0x6a41fef1ac2a4c50680aa6, 40⟩,
  ⟨-31514999853635175, 15, 1549919723037669, 15, 1298280334344292, 15, 22, 0x88ae85bcf90744efa255f6ed4a4cdda2a409efd76b77, -31⟩,
  ⟨7066760398600138, 14, 15525015141107958, 16, 12982803343442917, 16, 11, 0xb4dc8ea06b504807654018, 70⟩,
  ⟨546699628385398, 14, 15525015141107958, 16, 12982803343442917, 16, 22, 0x2b288d4ea6d1c410bb87cde9ff0921366da2e04ed785, 6⟩,
  ⟨2949877915770474, 14, 15492323200146565, 16, 1298280334344292, 15, 22, 0x18b15f605f66077e5b52afc4b048be660cd85165706f, 29⟩,
  ⟨-59118712515075714, 15, 15492323200146565, 16, 1298280334344292, 15, 11, 0x6e20eea26a4a7925bcf53d, -58⟩]

/-- tests/test_samplerz.cpp:8475-9127. -/
def kats1024_5 : List Kat := [
  ⟨19945924936122204, 15, 1565309437501967, 15, 1298280334344292, 15, 22, 0x0e693f90d0ecea74e85881e513dd069a128ac0c1c97c, 20⟩,
  ⟨13160151290834484, 15, 1565309437501967, 15, 1298280334344292, 15, 11, 0xd11a5324f675e609e1e837, 13⟩,
  ⟨-2322357111140558, 14, 15606157374958731, 16, 1298280334344292, 15, 11, 0x222a0b27429b9ec422c543, -20⟩,
  ⟨13761646989539555, 15, 15606157374958731, 16, 1298280334344292, 15, 11, 0xb66d35206aaaebe8a18151, 14⟩,
  ⟨20823187315290586, 15, 1564439322369342, 15, 1298280334344292, 15, 44, 0xf8b74708f96e2d227e78cf6791e585a3955b65dfb3e92fee56955efa98bb64ffe590083474c97e4b15c12933, 22⟩,
  ⟨-234494112465818, 13, 1564439322369342, 15, 1298280334344292, 15, 11, 0xa9f8e754aadf85c2d080a4, -24⟩,
  ⟨19768815509265117, 15, 15597374325014786, 16, 12982803343442921, 16, 33, 0x16e285598cf8945089a67ade797039bd4844710f92cd0652d383041ec08706a33a, 24⟩,
  ⟨-4049064397988315, 14, 15597374325014786, 16, 12982803343442921, 16, 33, 0x148325b032eb9ddbafe5b8f444040cb386972923c6e1a8bdb14dffee1e78dcc776, -40⟩,
  ⟨3027916754423879, 14, 15602453455988239, 16, 1298280334344292, 15, 11, 0x9649320ba6ec6f92958778, 32⟩,
  ⟨-4097894581733509, 14, 15602453455988239, 16, 1298280334344292, 15, 11, 0x7f4960558868db5d7e5427, -42⟩,
  ⟨-2482536874201972, 14, 15549242783933446, 16, 1298280334344292, 15, 11, 0x32e1a1f6ebf66aa7572918, -22⟩,
  ⟨-165318675215113, 13, 15549242783933446, 16, 1298280334344292, 15, 22, 0x3dcb120b02f9f8bf0dee7a374e628159c9f15785ad02, -14⟩,
  ⟨39936177719098275, 15, 15591679618087797, 16, 1298280334344292, 15, 44, 0xc3ce62c98c06a01651c8f8a60808e14ebee99e62cddf4c026f76855dd47a184dc959a1241628ce0cea0dbb86, 41⟩,
  ⟨1166216375025711, 14, 15591679618087797, 16, 1298280334344292, 15, 22, 0x7939925450cbb9399c4eef7dfc8fd678371dcd547540, 13⟩,
  ⟨214999791190567, 13, 1553795825654713, 15, 1298280334344292, 15, 33, 0xa3dcbf691e030c39ad87ccc5f4d8ed58d8419092b8d3255620eb75917a84192e13, 19⟩,
  ⟨-3388155363434261, 14, 1553795825654713, 15, 1298280334344292, 15, 11, 0x8dc96b14d52b6501e6cc3c, -35⟩,
  ⟨-23734905264293438, 15, 15606850374676096, 16, 1298280334344292, 15, 11, 0xb4762982d77dcf54befd7c, -23⟩,
  ⟨-1655834804298398, 14, 15606850374676096, 16, 1298280334344292, 15, 66, 0x0fb09baeb13a557506434ff24ed992379aef1d5a7adf0c8af11492f0988d014ec6d9e65d54e5ecf6e5f4cdf19ea818d2e1d1357470a6cde289218722da70b356863a, -17⟩,
  ⟨17657103204694142, 15, 15564888790397298, 16, 1298280334344292, 15, 22, 0xe50734e88df83611ee72f6f480d8977e9a1bc7b566a9, 17⟩,
  ⟨-4216545069324199, 14, 15564888790397298, 16, 1298280334344292, 15, 22, 0x369d306d68e5b905d8eea5b86bcf531391b0c6af6c2f, -43⟩,
  ⟨1558915091963313, 14, 15597041084495933, 16, 1298280334344292, 15, 11, 0xa1567e86a8367d2f66fa2b, 14⟩,
  ⟨54147032385446494, 15, 15597041084495933, 16, 1298280334344292, 15, 11, 0xfe12972f716138e226995c, 55⟩,
  ⟨-4425546220040656, 15, 15555114211202952, 16, 12982803343442917, 16, 11, 0x69c7e7967f94afd6138111, -3⟩,
  ⟨-3245500281949228, 14, 15555114211202952, 16, 12982803343442917, 16, 11, 0xbea092a1951743ba7fc65a, -33⟩,
  ⟨-2351140326452938, 14, 15552765767162484, 16, 1298280334344292, 15, 11, 0x57f0a065035fca67468253, -25⟩,
  ⟨41070468675612645, 15, 15552765767162484, 16, 1298280334344292, 15, 33, 0x1a0566ca0735c9e660fa9b2f26475bc5faed43bad4b9a8f9db9693d3df5874f45a, 41⟩,
  ⟨28528127720400885, 15, 1550524403227359, 15, 1298280334344292, 15, 88, 0x18747e2b97dd8c431b53e642f78d20f9eca885f1ada55a278431164a374e7a1ed7aa8471ac7eff0f0993c3fe46b565157066e6ad4639dc37589d1ef3066af0745ce50e0d5cfc10d04c0821f19371699895cc99d62222d201, 27⟩,
  ⟨-8018802219039496, 14, 1550524403227359, 15, 1298280334344292, 15, 11, 0x747eb80b6aa9b6fd1edc22, -82⟩,
  ⟨-8008664833294018, 15, 1554074962484273, 15, 1298280334344292, 15, 11, 0x763d02359dfaf295dea31f, -7⟩,
  ⟨-195058806850584, 13, 1554074962484273, 15, 1298280334344292, 15, 22, 0x43179ca18011152622d5a4f3166c66ba9ddb0b750295, -20⟩,
  ⟨14453427848500128, 15, 15492851252614435, 16, 1298280334344292, 15, 33, 0x84c1ff4db60df4c61205c55499358d5d75621457e3e23828444db342cba7b7404a, 12⟩,
  ⟨-39320243336999965, 15, 15492851252614435, 16, 1298280334344292, 15, 44, 0x6dcaacb2a46b9eee4c5eb616a3cb7081ca7f306f435c5315f18a029a4f46538c60524a7b283ac0b7cf38302e, -42⟩,
  ⟨-5502857879271903, 14, 15502601013820945, 16, 1298280334344292, 15, 11, 0xc14f1b4ddfae8ee1477c01, -56⟩,
  ⟨9016566537367257, 15, 15502601013820945, 16, 1298280334344292, 15, 11, 0xe24bba939242868f15f784, 10⟩,
  ⟨-18475361817761062, 15, 1546428625672179, 15, 1298280334344292, 15, 22, 0xfd3bb4851b3c774572f2f51cff3042898546a95e7a39, -22⟩,
  ⟨-30908983180441822, 15, 1546428625672179, 15, 1298280334344292, 15, 44, 0xb52f4c978fd4b63eea17d6ec098f6c51d567b4368de809131375eb04418e6f878fb634779a7aaf3fa94ecdb3, -30⟩,
  ⟨24090654849730118, 15, 15496241068005725, 16, 1298280334344292, 15, 11, 0x05dbe3a214a69357919839, 20⟩,
  ⟨-60824385635243885, 15, 15496241068005725, 16, 1298280334344292, 15, 33, 0x0867ed3c837323c808b7f42179c07605a26dfdb56668b83495a94b82c34d44bd9e, -60⟩,
  ⟨-33981435297275866, 15, 15457508214527627, 16, 1298280334344292, 15, 11, 0x9a95de32d33bd04cb13049, -35⟩,
  ⟨-6012542975940864, 14, 15457508214527627, 16, 1298280334344292, 15, 11, 0xfb4d183a6738e65a4e1ba7, -60⟩,
  ⟨7430164070795396, 14, 15450499747380941, 16, 1298280334344292, 15, 11, 0x74cac1d1116f1023c0842d, 73⟩,
  ⟨1016713753038109, 14, 15450499747380941, 16, 1298280334344292, 15, 33, 0x473d01e941af169a3b1c9b96c13eac3f8e8f2249b2cdd8f5acbad381fdb11663a2, 11⟩,
  ⟨-3451717801290412, 14, 15405213017593178, 16, 1298280334344292, 15, 44, 0x4eb335471bea72126fe46d470d0e3e93e26b6ba83fbb7484c94f4c0c28eabc35f19cce2a371366642e15269a, -36⟩,
  ⟨-6564807271232085, 14, 15405213017593178, 16, 1298280334344292, 15, 11, 0x2326be07efd8f0daf81c68, -68⟩,
  ⟨-3422145679068905, 14, 1544116071250131, 15, 1298280334344292, 15, 22, 0x43aeb9dba84be74d6b37cefc269af24a1a34eb9fa1d4, -34⟩,
  ⟨-11070429587430828, 15, 1544116071250131, 15, 1298280334344292, 15, 22, 0x9edd37bee444f8223f3af6ab4fbdd8ad49bac3e64f21, -11⟩,
  ⟨6134434484305244, 14, 15394953651398036, 16, 12982803343442917, 16, 22, 0xe23226621ef8f32eaae5cececb95ed775531ba13768e, 61⟩,
  ⟨-4940169377385649, 15, 15394953651398036, 16, 12982803343442917, 16, 11, 0x104b84563afc30c9ad8411, -8⟩,
  ⟨7677527731122436, 15, 15450603904195965, 16, 1298280334344292, 15, 22, 0xaa67d5d3297637b412c6edbc7b047066f79e4d8ae33d, 8⟩,
  ⟨-10811211216269433, 15, 15450603904195965, 16, 1298280334344292, 15, 33, 0x76695720fe8b50c5a8c7b709d47abd563ca092c6ebdcf08b5b664d6fd823378732, -10⟩,
  ⟨62353664836361006, 15, 1541749224886688, 15, 1298280334344292, 15, 11, 0xcc6f060a9f3b494afbf687, 62⟩,
  ⟨-13249411577568875, 15, 1541749224886688, 15, 1298280334344292, 15, 55, 0x8878afd7f222fed0ba7ad0832d973cd47936f2155edd4de83aa9b46ff8a65f9bfc24a66c640d80ceb0243391fc47b07cab38162ffd2cae, -14⟩,
  ⟨10927893370043472, 15, 15443235961422743, 16, 1298280334344292, 15, 11, 0xdd93f0a9d7294c4dc6f591, 11⟩,
  ⟨994614075915834, 16, 15443235961422743, 16, 1298280334344292, 15, 11, 0x9d352885cf555b1688c505, 2⟩,
  ⟨699526535586893, 13, 15409809162828692, 16, 1298280334344292, 15, 11, 0x3c6e2ee4e138f453b00b04, 72⟩,
  ⟨-10819531347020048, 15, 15409809162828692, 16, 1298280334344292, 15, 11, 0x45433837a0133b9c775423, -13⟩,
  ⟨14626594585545188, 15, 15394607076353906, 16, 1298280334344292, 15, 33, 0x3db43d6ea984edf0df3b7b05467feef62e84e3740f834d7f215944f838c9a22641, 12⟩,
  ⟨-9054971135976047, 15, 15394607076353906, 16, 1298280334344292, 15, 11, 0x55b9e65378986219381e08, -11⟩,
  ⟨10094623951887748, 15, 15355348967546267, 16, 1298280334344292, 15, 11, 0xdb83dde1282d14ce4d8807, 10⟩,
  ⟨-9238951224316999, 15, 15355348967546267, 16, 1298280334344292, 15, 11, 0xc197507b9608cc275c73c5, -9⟩,
  ⟨4785534593333317, 14, 15383998302217101, 16, 1298280334344292, 15, 22, 0x18b1dc228c31b013da5fc1ddef8812fc736492db57c5, 48⟩,
  ⟨2796394614139902, 14, 15383998302217101, 16, 1298280334344292, 15, 44, 0x03375a14042ea02dc975f662091ae10397d6a7fff88947bfda54abe5687ee118e4104ef2d4382f0a62225148, 31⟩,
  ⟨8225824936946992, 14, 15343958403731408, 16, 1298280334344292, 15, 11, 0x9a0b02dd5511b8b614e535, 84⟩,
  ⟨-19692814155685987, 15, 15343958403731408, 16, 1298280334344292, 15, 22, 0x47f216b0b1535924840d93ed576a73ad3c508be16399, -19⟩,
  ⟨2375812672849447, 15, 1531675625158422, 15, 1298280334344292, 15, 11, 0xf06bf63c46de9fbc959386, 3⟩,
  ⟨2921859670977068, 14, 1531675625158422, 15, 1298280334344292, 15, 11, 0x623ab58d85c3886e3d1870, 28⟩,
  ⟨19960247109319013, 15, 15261451518675448, 16, 1298280334344292, 15, 22, 0x8dd967f433c8027647cec575859a8ae203d82e927321, 21⟩,
  ⟨345905486354154, 13, 15261451518675448, 16, 1298280334344292, 15, 11, 0xcee217bc64f1ffb96eacc6, 34⟩,
  ⟨7657286895924573, 15, 1531519873190854, 15, 1298280334344292, 15, 22, 0x376ce7f612124d72b74be7fbdc5ff39cbb9151e1935a, 8⟩,
  ⟨8095796722383549, 15, 1531519873190854, 15, 1298280334344292, 15, 11, 0xb1208e438f5bb31df91202, 8⟩,
  ⟨-45546050934938734, 15, 15259972061282212, 16, 1298280334344292, 15, 11, 0xe547c9e6d1e7b75f6f2b25, -45⟩,
  ⟨-4916028353890351, 14, 15259972061282212, 16, 1298280334344292, 15, 11, 0x9efba109e123ccfd2ece24, -51⟩,
  ⟨-5215709864096976, 16, 1526925442116917, 15, 1298280334344292, 15, 33, 0xd7ec91d73c969867f067de0929d272aa3a6b56314087b658fbe3a7c6933811f965, 0⟩,
  ⟨-2795569330653111, 14, 1526925442116917, 15, 1298280334344292, 15, 11, 0x7e34af518fb8f8400ece3c, -29⟩,
  ⟨26120457688372788, 15, 1520560338037545, 15, 1298280334344292, 15, 22, 0x6f1eea6b9c8378b1c2bafb645381e6f1328e90793a82, 25⟩,
  ⟨-3280182243699045, 14, 1520560338037545, 15, 1298280334344292, 15, 22, 0x49cc325d2f5c6d4beb1d55d17a37e0abc87d31bd7045, -33⟩,
  ⟨-32159348439898295, 15, 15266226622054135, 16, 12982803343442921, 16, 22, 0x1126729de20b414d3f9c2df846e0a314718dfbc87c2c, -33⟩,
  ⟨7391796027033866, 15, 15266226622054135, 16, 12982803343442921, 16, 11, 0xd2500d73ed010b8e145a2b, 7⟩,
  ⟨-16702190114009197, 16, 1520237030534893, 15, 1298280334344292, 15, 11, 0x9422fad17591fa8f521974, 0⟩,
  ⟨1691485262321424, 14, 1520237030534893, 15, 1298280334344292, 15, 22, 0x3c64f7eed353b5aff0767f57d3325f194ff5de952f17, 18⟩,
  ⟨20665765862653014, 15, 15264022839871731, 16, 1298280334344292, 15, 22, 0xfd278eeee24321e01744d61561cf3b824b3e86ec541b, 17⟩,
  ⟨-21438425677777953, 15, 15264022839871731, 16, 1298280334344292, 15, 11, 0xf5c74514cd11e872fe9522, -21⟩,
  ⟨-45238005590209276, 15, 1521575124181338, 15, 12982803343442917, 16, 33, 0x8bfd7623c5f0981e6703c3555acff7304801284b81f8ad7ef73f9e015aaa476a80, -46⟩,
  ⟨-1966992876310712, 14, 1521575124181338, 15, 12982803343442917, 16, 22, 0x018f15d4bcaabf489a5cc7706e2b44e26d2b744f5171, -18⟩,
  ⟨28429988456267814, 15, 15262252459670342, 16, 12982803343442921, 16, 11, 0xa74e9d4ff61b5811f1508f, 28⟩,
  ⟨4387064277027337, 14, 15262252459670342, 16, 12982803343442921, 16, 11, 0x87b6dd887021d38086c949, 45⟩,
  ⟨-12714390437241536, 16, 15214080242533, 13, 1298280334344292, 15, 11, 0xea4df6c2af0d24668a8914, -1⟩,
  ⟨-6450571520538612, 14, 15214080242533, 13, 1298280334344292, 15, 22, 0x648ff8143eff300195fdbadd9a2e165810219fe3a588, -64⟩,
  ⟨-1791911509270898, 14, 15214964692794086, 16, 1298280334344292, 15, 11, 0x8baafc88aef5a6bf99d83e, -19⟩,
  ⟨-23853388220541955, 15, 15214964692794086, 16, 1298280334344292, 15, 22, 0xa66b322c447da2fa041bedc86dd04555566b27ba800e, -24⟩,
  ⟨1080175897316149, 14, 1515911151855763, 15, 1298280334344292, 15, 11, 0xa07ad708efdf6a7c40599b, 12⟩,
  ⟨-5018640950588752, 14, 1515911151855763, 15, 1298280334344292, 15, 33, 0x4c523a536edc8cd9fde6916f3b8109f73ac0e006b69dbfea2a89ccff4ca19463a6, -50⟩,
  ⟨1580948642887545, 14, 15211657560755318, 16, 1298280334344292, 15, 22, 0x0ef3d59150175e56a32a8fdaf2fd96281fc2fe2f9e12, 15⟩,
  ⟨37618402670068374, 16, 15211657560755318, 16, 1298280334344292, 15, 11, 0x357d74099802855db07915, 6⟩,
  ⟨17654829265975103, 15, 1515564484772342, 15, 1298280334344292, 15, 22, 0x27c8dc6c6c2221e04f40bcd95f6b0fb00be82cb10a94, 17⟩,
  ⟨-4994203564713873, 14, 1515564484772342, 15, 1298280334344292, 15, 22, 0x5046cacbfe045454bae78ca01efdba34c0a2908db84b, -51⟩,
  ⟨1412225217783498, 14, 151364465870611, 14, 1298280334344292, 15, 11, 0x6f60e4be26160c7945143a, 13⟩,
  ⟨8538900393457915, 15, 151364465870611, 14, 1298280334344292, 15, 33, 0xea89652a75c6ec2678b3d40f3c39e6646313f45fb4547553c8f65b308532795989, 10⟩,
  ⟨23058069693872692, 15, 15090605390825669, 16, 12982803343442921, 16, 22, 0xf68158f552856d626553ebc7b90857d72eaf356f6d2a, 24⟩,
  ⟨665628999494207, 13, 15090605390825669, 16, 12982803343442921, 16, 55, 0xa4033b0fbcf4613a1b21da1d57e228ca1dd92ce2db53ba739b5aa7b520b4d31ddb9c9278d6246b257901eec277b300fb3bdbae1662e702, 68⟩,
  ⟨5740056548112793, 14, 15135752682922823, 16, 1298280334344292, 15, 11, 0xe542b4328051bdd253acb4, 57⟩,
  ⟨-30258945618307294, 15, 15135752682922823, 16, 1298280334344292, 15, 22, 0x6f9e3e977a8b3b231670cf3670f582eb893a8c34b014, -33⟩,
  ⟨-42393027622950314, 15, 15089845898190157, 16, 1298280334344292, 15, 11, 0xa9449b1b2f798bf3886d15, -42⟩,
  ⟨-23974292035371228, 15, 15089845898190157, 16, 1298280334344292, 15, 44, 0xd6c3acea22c1e1cd0dedfaa38ae988c1836cddd2739b1fd5e511dd12a329867d3c1ea52a1589fbc3b945b23a, -27⟩,
  ⟨27674754215590273, 15, 15080058175302686, 16, 1298280334344292, 15, 11, 0xd248aa8a8c119694469b51, 28⟩,
  ⟨11629597508219707, 15, 15080058175302686, 16, 1298280334344292, 15, 11, 0xee6cc5fa633bdf37a0f621, 11⟩,
  ⟨-34272059199176894, 15, 1502471195442178, 15, 1298280334344292, 15, 11, 0xde5ef981268c93b7110e9b, -35⟩,
  ⟨-2068395845553716, 14, 1502471195442178, 15, 1298280334344292, 15, 33, 0x1f812b96199f3f2622e38c14fe3f136197e6db10c05cb498315fe1d658bf3eef6f, -20⟩,
  ⟨2125871007242199, 14, 150773422859318, 14, 1298280334344292, 15, 11, 0xcbde76b51223082b95bccb, 21⟩,
  ⟨18596034149592185, 15, 150773422859318, 14, 1298280334344292, 15, 11, 0xb54ea3147fa42cefdde75c, 19⟩,
  ⟨23088484097220148, 16, 15021555422265818, 16, 1298280334344292, 15, 22, 0x4ba8ca159d21fc398294bf32b94ec2f7971b3c371524, 5⟩,
  ⟨4742774358933314, 14, 15021555422265818, 16, 1298280334344292, 15, 22, 0x1d4d0ab86ed173397bf75ffe7445adf464058a9532b8, 47⟩,
  ⟨29989127024264587, 15, 15084938784257385, 16, 1298280334344292, 15, 11, 0xd80939e8de3c026a884866, 29⟩,
  ⟨7313768522799894, 15, 15084938784257385, 16, 1298280334344292, 15, 22, 0x33748b9032e8f9eab8437afb23050e148198734bb2b0, 7⟩,
  ⟨27816483509052524, 15, 1504494805633959, 15, 1298280334344292, 15, 11, 0xe83a1ebffd88363e328109, 28⟩,
  ⟨-16180506959921058, 15, 1504494805633959, 15, 1298280334344292, 15, 11, 0xbebfd2d1e89b74a91c4000, -17⟩,
  ⟨-28805873598235925, 16, 15083959530333677, 16, 1298280334344292, 15, 11, 0xdde928a1cf419e78a57d6a, -2⟩,
  ⟨-12756335293430343, 15, 15083959530333677, 16, 1298280334344292, 15, 66, 0xe530ccc3460feed90ffbc8aea6d1ed45b4a6a1e818de485d1da9261d28bee62e98204e72df0be29e182b209a40add9581812304b42fddac505ea70f388c64d65c544, -12⟩,
  ⟨-6191415729785413, 15, 1504395503236849, 15, 12982803343442917, 16, 22, 0xfbaab93b946a9d35fd73dca64170010058c59d45283c, -7⟩,
  ⟨-11583117948511019, 15, 1504395503236849, 15, 12982803343442917, 16, 22, 0x9f06a5f30801921f686ac5b09c0ddc3a50cb4f45d534, -11⟩,
  ⟨1125354923011903, 14, 15026901392066383, 16, 1298280334344292, 15, 33, 0x1828780e63c07b3702b9f649d84243c616eeeb1a356de6c247a458fe992f8cf117, 12⟩,
  ⟨41031695612658226, 17, 15026901392066383, 16, 1298280334344292, 15, 33, 0x72d837ea4ac701bc2ef9f63801b1ee1197d9ff216887b764a919a2329f62256008, 0⟩,
  ⟨-1365749314354242, 14, 14978286499030815, 16, 1298280334344292, 15, 11, 0x85fc3a1807143597fefc55, -15⟩,
  ⟨-2477156029111469, 14, 14978286499030815, 16, 1298280334344292, 15, 22, 0x00d3c8e448bc5398a22de6971b570c10e3d458e44f42, -23⟩,
  ⟨640808902826418, 13, 15023890678183351, 16, 1298280334344292, 15, 22, 0x02c48e0a5cb79e1d9f5686773f20623e0bb05305c292, 63⟩,
  ⟨14864640695628392, 15, 15023890678183351, 16, 1298280334344292, 15, 11, 0x1a8b139cf8bb60574f641d, 11⟩,
  ⟨1619358723281822, 14, 1497493080129283, 15, 1298280334344292, 15, 22, 0x0e1a7f307be57068ca89ced7ca91ad77833906834b8a, 17⟩,
  ⟨2512044080090967, 14, 1497493080129283, 15, 1298280334344292, 15, 22, 0xc0aed9bf468f95d3d81fecf335a72502a9606585a649, 25⟩]

/-- tests/test_samplerz.cpp:9128-9778. -/
def kats1024_6 : List Kat := [
  ⟨-2174642739218556, 14, 1494975479742846, 15, 1298280334344292, 15, 44, 0xbd3c586e1ccb319b88ceefbf7929a34745221ffd20e85ee875c09fe3a5123da6e06d0aeb3ed947423de3a65e, -23⟩,
  ⟨6921322603275041, 15, 1494975479742846, 15, 1298280334344292, 15, 22, 0x7c51bec5446760f1f6a275a26915576a1f3085a5dd0f, 8⟩,
  ⟨19189055777035758, 15, 14913491705190682, 16, 1298280334344292, 15, 22, 0x0c8ab55da0a56199c402cd9c3cb05f9714b4cae1957a, 21⟩,
  ⟨-3735897889048348, 14, 14913491705190682, 16, 1298280334344292, 15, 66, 0x0117ebb92a181dd5c2ea500e687bae8148b8f0af35d60676afa89c8f71a8a725e6c704d0f72d351244f137fa2f911cacac019820d155c6c3852c184a9a40e2a49750, -37⟩,
  ⟨5402005488458997, 14, 1494932588697318, 15, 12982803343442917, 16, 33, 0x21fcda9f65d65fe48946ba0aa4f8589bac4e7293df2f91651bcde69901f04e1602, 53⟩,
  ⟨-2426041802657208, 14, 1494932588697318, 15, 12982803343442917, 16, 22, 0x8ae9b54e3d643b90d29ecae12f311fe922c032d56319, -24⟩,
  ⟨10968333164114448, 15, 14913118517936592, 16, 12982803343442917, 16, 11, 0xce90952ce47ac666a6aa26, 10⟩,
  ⟨-4109211845103187, 14, 14913118517936592, 16, 12982803343442917, 16, 11, 0xa6453cf223e7ce4aedbe9c, -42⟩,
  ⟨4651120922749636, 14, 14893233562513293, 16, 12982803343442917, 16, 11, 0xf75b3862cf87ac97ad408e, 46⟩,
  ⟨11320841248412982, 15, 14893233562513293, 16, 12982803343442917, 16, 11, 0xf9fdbba30e362196d568b4, 11⟩,
  ⟨6118538286289961, 14, 14850850375086675, 16, 1298280334344292, 15, 11, 0x8b532db832ec7857b25e31, 60⟩,
  ⟨-6172970980196539, 14, 14850850375086675, 16, 1298280334344292, 15, 33, 0x270af83234d01d3744f0b38096a29e79aa008dda79f9d8d3dd90a2cb705e183958, -61⟩,
  ⟨3399734459008241, 14, 1489214556497356, 15, 1298280334344292, 15, 22, 0x0f23a28a968b893fd8eaadef2e1c9cf4191a602a9c77, 33⟩,
  ⟨157149027291079, 13, 1489214556497356, 15, 1298280334344292, 15, 11, 0x87234faa3bb839b589c05c, 14⟩,
  ⟨704324549006781, 13, 14849693610107124, 16, 12982803343442921, 16, 44, 0x01db94647ccf8271c15fff5a05912c91321cae5acdac402d6e54eb1d8a401bc79af43f52488832d8a61e756a, 71⟩,
  ⟨11836223578561672, 15, 14849693610107124, 16, 12982803343442921, 16, 22, 0x3b778b3e85a1294ca4e7b3d3ca4b0d5e7e2f63fd7dc8, 12⟩,
  ⟨6476034409226172, 15, 1487138410597032, 15, 1298280334344292, 15, 11, 0xf46581b74b5fd3a5c59a57, 6⟩,
  ⟨1618581779290804, 14, 1487138410597032, 15, 1298280334344292, 15, 55, 0x06269769d89881a96128a80505b0a073b4851fd6b8b9a2987249b513400dd67af607881e439dfb0fa7c58f79ff0e498a0e03a7fd692d0a, 17⟩,
  ⟨2510182216105985, 14, 148368722578431, 14, 1298280334344292, 15, 22, 0x2edfc8fef6bbb99b5833e6abc09ee4e2e343a901d268, 25⟩,
  ⟨-374414598051706, 13, 148368722578431, 14, 1298280334344292, 15, 11, 0xa81cb72ce117cad168f681, -38⟩,
  ⟨23207972787188076, 15, 14870912812945247, 16, 1298280334344292, 15, 11, 0x8d66d4e7404bee49b5a696, 22⟩,
  ⟨4633384727934793, 16, 14870912812945247, 16, 1298280334344292, 15, 22, 0x41fd6e369a10d08b7c6192e8a4b3d211336ab8b24c6c, 0⟩,
  ⟨14480281614235187, 15, 14836461923075657, 16, 1298280334344292, 15, 11, 0x351ac457cc0e62c51d2d2a, 17⟩,
  ⟨-7571253092295554, 14, 14836461923075657, 16, 1298280334344292, 15, 11, 0x56bf5ba666c0a26085e71d, -74⟩,
  ⟨5549510285173555, 14, 14804902571113958, 16, 1298280334344292, 15, 11, 0x725ddeb0c672b844fdc90f, 57⟩,
  ⟨-409633276317231, 14, 14804902571113958, 16, 1298280334344292, 15, 11, 0x8d0997efc99280fafad237, -6⟩,
  ⟨27967585327550523, 15, 14764204735460547, 16, 1298280334344292, 15, 33, 0x894823830f84673f8914854cce1b4dfbba5830c4be90d6c0ab678d62515340d03f, 27⟩,
  ⟨-28959389299654266, 15, 14764204735460547, 16, 1298280334344292, 15, 44, 0xe0c83a94d64ecb3e4349c0454e47129a382ba9d597452f06355fba3904a880bec2a96b11a6f7ca442ab5c555, -28⟩,
  ⟨-1788159708832093, 14, 14803801924690263, 16, 12982803343442921, 16, 11, 0x719ff1cb18c44d6b4438b9, -19⟩,
  ⟨-10093704177671786, 15, 14803801924690263, 16, 12982803343442921, 16, 33, 0x159ad3bf3c704eae5427b802ffefb73219c2f38aa6e4c35add807210d13f732573, -10⟩,
  ⟨6907008538524303, 14, 14763038966579212, 16, 1298280334344292, 15, 11, 0x7c79908eb7caf296346336, 71⟩,
  ⟨-16026728047873952, 15, 14763038966579212, 16, 1298280334344292, 15, 44, 0x7619cb7609750b9fe0f47070e1cd4710bfc1ee8bc8a7700df678aef542bb5205dbc06f44f0c207bd374e4702, -16⟩,
  ⟨-6970489039372982, 15, 14830495005450364, 16, 12982803343442921, 16, 11, 0x6c35b2fc511e40caa87226, -8⟩,
  ⟨47111875043980564, 16, 14830495005450364, 16, 12982803343442921, 16, 22, 0x375e78a26bbf5adebba4d0444103a130d46eca567939, 7⟩,
  ⟨-26246327027463813, 15, 14795749582064435, 16, 1298280334344292, 15, 11, 0x8df01f90e8a222f6f66645, -28⟩,
  ⟨2337573527765172, 14, 14795749582064435, 16, 1298280334344292, 15, 22, 0xd32c0e550f15c64f4296dcd71f929e78c3fbd48a6e7a, 23⟩,
  ⟨3448088502529278, 14, 14830458381338, 13, 12982803343442917, 16, 11, 0xaa6c4506391220eb5115ae, 35⟩,
  ⟨-6844052903796536, 15, 14830458381338, 13, 12982803343442917, 16, 22, 0x2a57f299b50b194ca6934e5b1234090e87cc4124028d, -8⟩,
  ⟨7247484381177539, 15, 14795715895587556, 16, 1298280334344292, 15, 33, 0x53a8a3af544eb221f332f7a1342ed7bd38e4f62e77a0e8913cf6f3d3061891e92d, 8⟩,
  ⟨-1829806885259402, 14, 14795715895587556, 16, 1298280334344292, 15, 11, 0x71a7e67f48021f0eb0583c, -20⟩,
  ⟨26767053039877627, 15, 14774901791519466, 16, 1298280334344292, 15, 11, 0xbea9b47d1520b5434f7092, 26⟩,
  ⟨2607971049201741, 14, 14774901791519466, 16, 1298280334344292, 15, 22, 0x7fc5d149b99e9dba52bfb5ecf26520b4ad948e0b50dd, 26⟩,
  ⟨-6801437209235684, 15, 14733269265229103, 16, 1298280334344292, 15, 11, 0x728c55fea444ec0aa5332f, -5⟩,
  ⟨-4107148413505351, 14, 14733269265229103, 16, 1298280334344292, 15, 11, 0xf3dd071cca0f3c2d78a242, -42⟩,
  ⟨1433861598955679, 14, 14774044108884612, 16, 1298280334344292, 15, 33, 0x863e11d01175b7f924d7914464a7673795b0500919eaf5b74910e09b72969cb055, 14⟩,
  ⟨6768617398480412, 15, 14774044108884612, 16, 1298280334344292, 15, 11, 0x94502dadb856f755464e34, 5⟩,
  ⟨3965500185697755, 14, 14732284212499382, 16, 1298280334344292, 15, 33, 0x5cc7cc0fd5eb40a0eb53e296d737981c5338857b50d7ba645a51dd1e62180d158f, 40⟩,
  ⟨26506522139540866, 15, 14732284212499382, 16, 1298280334344292, 15, 11, 0xda029305f44f518b6bf02d, 26⟩,
  ⟨-1462342108127995, 14, 14741086798531082, 16, 1298280334344292, 15, 11, 0x247a835626730ec6d04246, -17⟩,
  ⟨657338006823862, 13, 14741086798531082, 16, 1298280334344292, 15, 11, 0xb333a3835f7c0325855f57, 66⟩,
  ⟨14102002414451885, 15, 14707035026650987, 16, 1298280334344292, 15, 11, 0xf956ae3a8d381fa4b02510, 15⟩,
  ⟨-2051068635159629, 14, 14707035026650987, 16, 1298280334344292, 15, 22, 0x0057b3a6c16dc419da3f7ccd15eae56ac8183e1f2174, -20⟩,
  ⟨17940522443962024, 15, 1474103527380032, 15, 1298280334344292, 15, 22, 0xf7ade69424fe2a5d02aab82f439231b807093eabad3d, 20⟩,
  ⟨-19695835475354357, 15, 1474103527380032, 15, 1298280334344292, 15, 11, 0x0ff8c9730081eb2e3ea63a, -23⟩,
  ⟨4213214823065715, 14, 14706989802456216, 16, 1298280334344292, 15, 22, 0x53815ea0301a3d17bf1bfeb5e3c6412bfee6599379bc, 43⟩,
  ⟨3345520544381572, 14, 14706989802456216, 16, 1298280334344292, 15, 11, 0xc366a363d46b8e5ebfa057, 33⟩,
  ⟨2094330031821393, 14, 14673916262413582, 16, 1298280334344292, 15, 22, 0x8b7e14f030bbc139e4bffdf5645b05db76f0e15dad26, 21⟩,
  ⟨9405033940126852, 15, 14673916262413582, 16, 1298280334344292, 15, 22, 0x92078bff15527fb365e2fbe0fd48f2c7073d40e9c5b6, 10⟩,
  ⟨5110795248892703, 14, 1463233734014646, 15, 1298280334344292, 15, 33, 0xca4485d7023ba973c53fe0550d7afb8c6a8b3d3304d887f3ef2a8c37e79545d602, 50⟩,
  ⟨-22630073429721048, 15, 1463233734014646, 15, 1298280334344292, 15, 22, 0x583942f6d567d9aa86eeeeee9eb4ab7d1fcbaadd3997, -22⟩,
  ⟨26517630953406904, 15, 14673088295255277, 16, 1298280334344292, 15, 33, 0x782848ba0cbd4fbb71a7a016d77cad8ebfc87797c7f8ec2ca4e99469c9a9a2d844, 26⟩,
  ⟨-24467012525107865, 15, 14673088295255277, 16, 1298280334344292, 15, 22, 0xd3cda623ef32a3626129fa6b16cefcc5931a2a204820, -26⟩,
  ⟨-24262294126074345, 15, 14631392043326954, 16, 1298280334344292, 15, 22, 0x29d43a75b40fe24e61c7aaa248dabc6e357e7d367541, -23⟩,
  ⟨9333329418352728, 15, 14631392043326954, 16, 1298280334344292, 15, 11, 0x98e6d9fa2ec24b08f77a57, 8⟩,
  ⟨-5631340220735828, 15, 14566895613081419, 16, 1298280334344292, 15, 11, 0x972e03fa9bcdb70c428970, -4⟩,
  ⟨23802256316246954, 15, 14566895613081419, 16, 1298280334344292, 15, 11, 0x8aa5d226a2b60aa9cea440, 22⟩,
  ⟨4380615251349897, 14, 14538758361076956, 16, 1298280334344292, 15, 22, 0x917068c4118bb8847d54c3930569243bf99c2a88d953, 45⟩,
  ⟨-804791641188743, 14, 14538758361076956, 16, 1298280334344292, 15, 11, 0xb4f28b645361112a42c702, -8⟩,
  ⟨36565190343192654, 15, 14565112229666872, 16, 1298280334344292, 15, 22, 0xd4f8813f9c59b16dcc19e6d92766a3d40f2aabcaa426, 36⟩,
  ⟨6985365938065078, 14, 14565112229666872, 16, 1298280334344292, 15, 11, 0x1e60e8fccbc25321082510, 73⟩,
  ⟨-2932464025020419, 14, 1453674319120979, 15, 1298280334344292, 15, 11, 0xcf34536f6004ff94e11b12, -29⟩,
  ⟨-4267252599674353, 15, 1453674319120979, 15, 1298280334344292, 15, 11, 0xc49a11f1abdb4a4c415370, -4⟩,
  ⟨4386889339861929, 14, 14506863414815367, 16, 1298280334344292, 15, 11, 0xce063f3a99738753ffdfc4, 44⟩,
  ⟨7937242214552768, 15, 14506863414815367, 16, 1298280334344292, 15, 11, 0xdaf4e5775f86680219111a, 8⟩,
  ⟨23789608238896832, 15, 14471585062166115, 16, 1298280334344292, 15, 11, 0x0dea177bf367c8738b3e18, 20⟩,
  ⟨-8510796495193683, 15, 14471585062166115, 16, 1298280334344292, 15, 22, 0x172395b84e7ff64c796038721ae440cb17b9ef8ecd1a, -7⟩,
  ⟨8339524959999128, 15, 1450666815868823, 15, 1298280334344292, 15, 11, 0xe66cd8a0b0c15c99492495, 8⟩,
  ⟨15177748592406314, 15, 1450666815868823, 15, 1298280334344292, 15, 99, 0x28505b86ccacf80302d5b7091e1a9c3830bdbc9b20390424c95147788841489342aa9676c78d7af02707d7e9e6b87d9f469b782b7ca2f8c359396f55f7a640de93df69255dd3aef54e0aac05f28affea6351b41efb1ad18bdc78e972b193a41f9d6626, 15⟩,
  ⟨-12027411201909565, 15, 1447136109757803, 15, 1298280334344292, 15, 11, 0xbef569f850a10408978e36, -13⟩,
  ⟨2916160219405713, 14, 1447136109757803, 15, 1298280334344292, 15, 11, 0x6ed1e746fd5c1018b11f25, 31⟩,
  ⟨19585015700127887, 15, 14494164149104198, 16, 1298280334344292, 15, 11, 0xa288fdbb1bb8b0c6e0b850, 18⟩,
  ⟨-5171428030471046, 14, 14494164149104198, 16, 1298280334344292, 15, 22, 0x89f9abdcde956c4452ede5ab0c87e5def462e474c095, -52⟩,
  ⟨364380488201599, 13, 14468276159429212, 16, 12982803343442917, 16, 22, 0x114e76e1a9e4fefb6fa4e61ff031097328a31aa41426, 33⟩,
  ⟨-3717762616789353, 14, 14468276159429212, 16, 12982803343442917, 16, 11, 0xdb427929fc2b43ebd02e98, -38⟩,
  ⟨4274151318838015, 18, 14492056299391585, 16, 1298280334344292, 15, 11, 0xb7456aa997f24e7dbe8588, 1⟩,
  ⟨13556511966341827, 15, 14492056299391585, 16, 1298280334344292, 15, 33, 0x696ba5a5008ee2b2acd3edb686a835548b62c6c5e9e0baa1eb846394ea277c2d18, 14⟩,
  ⟨-354569076979181, 13, 14465909710451423, 16, 1298280334344292, 15, 22, 0x9deaa87d31a76cc9c3cfd661c933a93da7e9578ba506, -34⟩,
  ⟨-27316118261393875, 15, 14465909710451423, 16, 1298280334344292, 15, 11, 0x80f21e4be32684ac1ee623, -29⟩,
  ⟨3384974253232206, 14, 14429479630713584, 16, 12982803343442917, 16, 11, 0x9e4e4a8cae5c32d2669d2d, 35⟩,
  ⟨-23866274317949372, 15, 14429479630713584, 16, 12982803343442917, 16, 44, 0x0b9b76dc10405de9d8ece5913ecbf8ba6e667eeb70e5fdbadcf189e6b01998c9e5d057ebfa641a483467ed66, -23⟩,
  ⟨5502015792855751, 14, 1439662567076917, 15, 1298280334344292, 15, 22, 0xc6ae9c1a736977a32149cd5d114fb5d1db1c6366223b, 54⟩,
  ⟨-4657024818577672, 14, 1439662567076917, 15, 1298280334344292, 15, 55, 0x8ca7f4ea70f5e1d53d68dfe78f547600bb869a412bf6433fd359b80215d62401697b4114645b5ed268c80ecc9bbdfd9f046a6a0326b121, -45⟩,
  ⟨1715149839547308, 14, 14429245598843936, 16, 1298280334344292, 15, 22, 0x9ebfe15608458ebefb57b3e7d2a04ad7bd47f26c051d, 18⟩,
  ⟨-3508650627352755, 14, 14429245598843936, 16, 1298280334344292, 15, 11, 0xb0f1b04ddd9ee7814c39c2, -35⟩,
  ⟨2318589601900858, 14, 14396359263549106, 16, 1298280334344292, 15, 11, 0xa9eb86e944b181426ed215, 23⟩,
  ⟨-1533448142992294, 14, 14396359263549106, 16, 1298280334344292, 15, 11, 0xd6bb565a428bd074046e8e, -16⟩,
  ⟨-7952501071238467, 15, 14433012655014212, 16, 1298280334344292, 15, 11, 0x824d593c261837b12ac287, -9⟩,
  ⟨12042600038159046, 15, 14433012655014212, 16, 1298280334344292, 15, 11, 0xa7f7621d5c556ffc348ed1, 12⟩,
  ⟨3146769687696351, 14, 14407091924628979, 16, 1298280334344292, 15, 11, 0x5ae8667e253424fbffc334, 33⟩,
  ⟨14267783572775032, 16, 14407091924628979, 16, 1298280334344292, 15, 11, 0x97b09a895700901639309f, 0⟩,
  ⟨6825103613751491, 15, 14431307007123348, 16, 1298280334344292, 15, 11, 0x8d34905aa827694cb8c772, 8⟩,
  ⟨-3228299244123143, 14, 14431307007123348, 16, 1298280334344292, 15, 11, 0xfec5d16c56db3daff665c3, -32⟩,
  ⟨-43270011733221275, 17, 14405172478929424, 16, 12982803343442921, 16, 11, 0x413e0e00db6776d404bc4a, -3⟩,
  ⟨3017193467211576, 14, 14405172478929424, 16, 12982803343442921, 16, 22, 0xe77c26fc054da0d70993d2e6b3e0020c1c3422eff1b4, 31⟩,
  ⟨3387912225539952, 14, 14373181252615221, 16, 12982803343442917, 16, 11, 0x94831d96ca48ee55c465b5, 35⟩,
  ⟨29355189368969253, 15, 14373181252615221, 16, 12982803343442917, 16, 33, 0x703561cee4ce0cda460bc52de87bb7b21ce697b2f79cf641bfac2b815b933fc349, 30⟩,
  ⟨3105945027145099, 14, 14339728349612082, 16, 1298280334344292, 15, 44, 0x7267c4a54cb5bfbb8698d40e225e7071a317ca5865ab4381cd35a6b41c4b0e9b4d653176b607c228d12bf405, 30⟩,
  ⟨-4396179377410152, 14, 14339728349612082, 16, 1298280334344292, 15, 22, 0xc74cce6134bf5fa16023d5ec93b394353a12a932b831, -44⟩,
  ⟨10960670832703427, 15, 14373067983398606, 16, 1298280334344292, 15, 11, 0x172a39893d3451b33cc122, 14⟩,
  ⟨-785750174062378, 14, 14373067983398606, 16, 1298280334344292, 15, 11, 0x4ed984813594bdf77d7f0d, -5⟩,
  ⟨59104759026508106, 15, 14339598992199052, 16, 1298280334344292, 15, 22, 0x57e5f93839a92478497fe02fa255aacd57d0e78fd10d, 62⟩,
  ⟨5677403022881988, 14, 14339598992199052, 16, 1298280334344292, 15, 11, 0x9c09a7e0d8332efaf5af62, 58⟩,
  ⟨4247095097887906, 14, 1435229728780083, 15, 1298280334344292, 15, 22, 0x7d7f247c02d901cbdac4dfdddc429ef6c44e987b91b4, 43⟩,
  ⟨220532511697159, 14, 1435229728780083, 15, 1298280334344292, 15, 11, 0xc76b8a222169eb226b0ac7, 2⟩,
  ⟨-18511797914495343, 15, 14327412771132344, 16, 1298280334344292, 15, 22, 0x1bea991d9ffa7683e5c577bdc32a851ed62551d11644, -19⟩,
  ⟨-2790800661552064, 14, 14327412771132344, 16, 1298280334344292, 15, 22, 0x6e2dd7db89d172cd1fdf88dbd3a2a2c06b785545326e, -28⟩,
  ⟨-22214159076397134, 15, 14349963734624833, 16, 1298280334344292, 15, 11, 0x62dff24c7482d6d36f7520, -21⟩,
  ⟨29260069980516903, 16, 14349963734624833, 16, 1298280334344292, 15, 11, 0x375318d1266f553702653f, 5⟩,
  ⟨10184715178738342, 14, 14324799862854696, 16, 1298280334344292, 15, 22, 0x4055bc1f16cec9a7d1d6507c03f96a2cb6c9d8f4bc5e, 100⟩,
  ⟨6520414755907568, 15, 14324799862854696, 16, 1298280334344292, 15, 11, 0xe553ab5cb77539ab98a92b, 7⟩,
  ⟨4484562094233314, 14, 14287361947885795, 16, 12982803343442917, 16, 11, 0x7796dcb24119cdc59c2411, 43⟩,
  ⟨-8998421474463179, 16, 14287361947885795, 16, 12982803343442917, 16, 11, 0xc8179f447866fc3bb20f74, 0⟩,
  ⟨1005389284969031, 14, 14254630956879635, 16, 1298280334344292, 15, 22, 0xa3e29d6c63024be43a8dabdffdd0995511bbc3260e17, 10⟩,
  ⟨-17371404680617346, 15, 14254630956879635, 16, 1298280334344292, 15, 11, 0xc413634601f0f72d9319a8, -17⟩,
  ⟨-1474283201470941, 15, 14287130433544024, 16, 1298280334344292, 15, 11, 0xe7ec1e5cc0aca2d1bb058c, -1⟩,
  ⟨-2322168775415507, 14, 14287130433544024, 16, 1298280334344292, 15, 11, 0xda1180eef425fc11d2112a, -23⟩,
  ⟨29130586074792518, 15, 14254372106938886, 16, 1298280334344292, 15, 22, 0x9c3b18bc69607af31e61fbbe59f1efeb19f5c40ac895, 29⟩,
  ⟨29090269806015985, 16, 14254372106938886, 16, 1298280334344292, 15, 11, 0x87fff1e8d8a2b2e9072b99, 4⟩]

/-- tests/test_samplerz.cpp:9779-10431. -/
def kats1024_7 : List Kat := [
  ⟨-10032832350022574, 15, 14410734436032162, 16, 12982803343442921, 16, 11, 0x3ac7b11e5bbd7f822c1d68, -8⟩,
  ⟨-26290692590031682, 15, 14410734436032162, 16, 12982803343442921, 16, 11, 0x2f531a29d78dd88a4c1f42, -24⟩,
  ⟨1035948155920483, 14, 14362368715379057, 16, 1298280334344292, 15, 66, 0x5d27eb0a6f4f7ea7f2d6fe232fb4dfa267b6918845c40ea3fbe0a7c7890131bd553ec6a3b446eea8104438ac6a6170f79025890cad6bd3af0d4dc28f9f576e1d7b65, 11⟩,
  ⟨28122508270600715, 15, 14362368715379057, 16, 1298280334344292, 15, 11, 0x8a75293a5fa279f58cdd2d, 30⟩,
  ⟨2990580605528391, 14, 1440965408310193, 15, 1298280334344292, 15, 11, 0x69b6543635e5dfd4387b9e, 31⟩,
  ⟨-2561047289915639, 14, 1440965408310193, 15, 1298280334344292, 15, 11, 0x464cdd0c3d5f64b4741b0b, -23⟩,
  ⟨3610844062448266, 14, 1436110822887923, 15, 1298280334344292, 15, 11, 0x76811d2be4c213196a9688, 35⟩,
  ⟨-4796576520592525, 14, 1436110822887923, 15, 1298280334344292, 15, 11, 0x51994ba65b857af7852217, -50⟩,
  ⟨10713556816578034, 15, 14347611004103487, 16, 1298280334344292, 15, 11, 0xa5a2e73cec8bef45656b5c, 11⟩,
  ⟨-19435222469886625, 15, 14347611004103487, 16, 1298280334344292, 15, 44, 0x19a02bf8ae4d7538bf725c526906a32910798a169fb5216be7db6fe976bf514f37c53227f4fa368973f7ca29, -20⟩,
  ⟨25530080210283884, 15, 14294283709177311, 16, 1298280334344292, 15, 11, 0xc885b12100a474bf2df853, 25⟩,
  ⟨7689207767341648, 15, 14294283709177311, 16, 1298280334344292, 15, 11, 0x74a88a40ee609dc1e76f3f, 9⟩,
  ⟨25501294553300163, 15, 14347218436564844, 16, 12982803343442917, 16, 22, 0x65be0e6916963b4feb5ea34fa066fef169acf8cbb71f, 28⟩,
  ⟨11391190226363735, 15, 14347218436564844, 16, 12982803343442917, 16, 11, 0xe2c8d63b623a2fdfd5329b, 11⟩,
  ⟨6272876963361421, 14, 14293887078665897, 16, 1298280334344292, 15, 11, 0x8f8d81e1c0d23132643c50, 61⟩,
  ⟨10404736273485431, 15, 14293887078665897, 16, 1298280334344292, 15, 11, 0x8daea169667ad610920122, 12⟩,
  ⟨-2399839190005265, 14, 14349376914868655, 16, 1298280334344292, 15, 11, 0xac00951b0b757f75040c86, -24⟩,
  ⟨25910543830902615, 15, 14349376914868655, 16, 1298280334344292, 15, 11, 0x2c99834b2b19e3ed805d4a, 28⟩,
  ⟨-6817898057099442, 15, 14305416542467284, 16, 1298280334344292, 15, 11, 0xf51f9a898f49c6fb8aac4e, -7⟩,
  ⟨-4749854393220222, 15, 14305416542467284, 16, 1298280334344292, 15, 22, 0x0ca31008e649c73e9ee53997fe7773d05136a843d34d, -3⟩,
  ⟨23458693261003376, 15, 1434821744667215, 15, 1298280334344292, 15, 11, 0x79ee2648da05c363cdd678, 22⟩,
  ⟨28175240138236468, 15, 1434821744667215, 15, 1298280334344292, 15, 11, 0xa2b82798e49786af2e5508, 30⟩,
  ⟨1655519957915725, 14, 14304072957953933, 16, 1298280334344292, 15, 33, 0x4ef45173e6a98b5b127faa20e040c2d7c3e9c14bc2c541c1d8bc12d2c62902f625, 14⟩,
  ⟨-346035685005711, 14, 14304072957953933, 16, 1298280334344292, 15, 11, 0xf3d67596462260cc814946, -3⟩,
  ⟨3125088287772353, 16, 14277059618258676, 16, 12982803343442917, 16, 22, 0x152bb71d6df42c491d9cb8897f86f6156ed6fbb94d6c, 2⟩,
  ⟨3468228760965265, 15, 14277059618258676, 16, 12982803343442917, 16, 22, 0x15b15c9e7c8d954432f556d493c9bfff703f76820d80, 4⟩,
  ⟨-48446501937306266, 15, 14228808477536488, 16, 12982803343442917, 16, 11, 0x3e786e7d4cb4ad71fd5051, -51⟩,
  ⟨-4539620392040863, 14, 14228808477536488, 16, 12982803343442917, 16, 33, 0x8ec15c5ccfc85852dbb2aa24f75e1d5acf810fbe51d6f62255b15e78ec5cca5d2d, -45⟩,
  ⟨36468418620007323, 16, 14276588448364527, 16, 1298280334344292, 15, 88, 0x19785cfc14b86cc602c5c55e9e7f10959d8759f0ddbb53d9c39faf4c71157bc1b2745775040536aac81751ca305db34ff2182d55d511bf1979dbf9ccdf24c622099776e93f4d82986ca81244b86c7502d0afe02770a63406, 2⟩,
  ⟨-1535253461465817, 14, 14276588448364527, 16, 1298280334344292, 15, 11, 0x9d727f1eebce87f5996180, -14⟩,
  ⟨1363089733671492, 15, 1422834299362579, 15, 1298280334344292, 15, 33, 0x5c2f850b144fb35026a8d14b68debcf1ff662a0400a2c5a5250dce51dc3120ed67, 2⟩,
  ⟨-14560312927917538, 15, 1422834299362579, 15, 1298280334344292, 15, 22, 0x9b54b4d5b32c105f3570b858c9f4e78d09e620ba5282, -16⟩,
  ⟨-28240792302513388, 15, 14248249587745685, 16, 12982803343442917, 16, 22, 0x17803fe7345fc4fd193763df7634643eb7139f749349, -28⟩,
  ⟨-2517111644166115, 14, 14248249587745685, 16, 12982803343442917, 16, 33, 0x1c14c5b958378fb26f20db68f3adb27fa2892058f5ce54f93e4e7023e85240f801, -27⟩,
  ⟨-23736963495502884, 15, 14199559286169683, 16, 1298280334344292, 15, 11, 0xbb590e770c604dacc90a57, -24⟩,
  ⟨-882282608585853, 14, 14199559286169683, 16, 1298280334344292, 15, 11, 0x5c33661b028b2d046a6b5d, -7⟩,
  ⟨3806168241400161, 14, 14245771781136314, 16, 12982803343442921, 16, 11, 0x6f4492f93bc19d35874825, 37⟩,
  ⟨-3366666520989372, 14, 14245771781136314, 16, 12982803343442921, 16, 11, 0xf81ee120acad96ac5d806f, -34⟩,
  ⟨-11446433174950933, 15, 14196759112015387, 16, 1298280334344292, 15, 33, 0x73003a1384989f6a39ace945f808a0b9da1827c641d9faf95dbff540cfbdd8b8c7, -12⟩,
  ⟨-9768971988591262, 14, 14196759112015387, 16, 1298280334344292, 15, 11, 0xc7d64d0600083d60bde566, -97⟩,
  ⟨-6968251835510259, 15, 14185098407669803, 16, 1298280334344292, 15, 22, 0x51e6ddf7a2b11aeb776fe9a1e1e23e65dcf096f6d0bf, -8⟩,
  ⟨227835195141811, 13, 14185098407669803, 16, 1298280334344292, 15, 11, 0xf0d2133e41aa7f5f15966c, 22⟩,
  ⟨-27469446349883327, 15, 14128628427557073, 16, 1298280334344292, 15, 33, 0x40525d6e148af74650cefd1f2da237b867200b287783b950957b90469b4460675d, -27⟩,
  ⟨-39562626690904146, 15, 14128628427557073, 16, 1298280334344292, 15, 11, 0x75525dbf44b7228b635234, -41⟩,
  ⟨-6006683273893315, 14, 1418377700985096, 15, 1298280334344292, 15, 11, 0xc245003ccd37d67767e76c, -60⟩,
  ⟨-13111505695112974, 15, 1418377700985096, 15, 1298280334344292, 15, 22, 0xc451edac3df7f8a0f9a0d55a84a5240ab741e6c9891e, -12⟩,
  ⟨-21811789174430018, 15, 14127247489001447, 16, 1298280334344292, 15, 22, 0xb851074817fc974177f1d2c85c01470a60c4f8dfc940, -21⟩,
  ⟨-51249490828839575, 16, 14127247489001447, 16, 1298280334344292, 15, 11, 0x70b09250ea1244fc912b52, -4⟩,
  ⟨-2065235532507815, 14, 14175269030626214, 16, 12982803343442917, 16, 77, 0x2e302b4bad3e30b85100b4463a24f5ef03f8d031b6b386878c5ecc16e8c5cb6cf9c678965102bc15130360fd7508ee41eea88739fb7dfc295dda6bad6d2fcbe43abe65a104e57ffccb390e968a, -22⟩,
  ⟨21130555096196492, 15, 14175269030626214, 16, 12982803343442917, 16, 22, 0x6c0bcc00975fbcdac849815e26cbe10f2c7111add12c, 23⟩,
  ⟨-2884378798339873, 15, 14130264650153677, 16, 12982803343442917, 16, 22, 0x4adfaceeeb6154b41f1749ff4b094201243ce4fb214f, -2⟩,
  ⟨-23826579152524577, 15, 14130264650153677, 16, 12982803343442917, 16, 11, 0xd77f21e100e0f6bfccf643, -24⟩,
  ⟨-45008894687883725, 16, 14172447629239582, 16, 1298280334344292, 15, 33, 0x371d10b73df56e0deb585d4fb10c7ed2c042488b076891b444d833510073a98672, -6⟩,
  ⟨1784043031781441, 14, 14172447629239582, 16, 1298280334344292, 15, 22, 0xe624a3a76760b1f6e87ee1648843466d356406bcf18c, 19⟩,
  ⟨-15871682137173519, 15, 14127074945946385, 16, 1298280334344292, 15, 33, 0x34fe20bbbbe34c8bcc0356151de5ae99fd00dbc13fbec412de96e2218b0e6df5ac, -15⟩,
  ⟨-13912286417231659, 15, 14127074945946385, 16, 1298280334344292, 15, 44, 0x4e22fcd5578ce418c1015712d024127dcd9fc1dd725e3c606ce0c373742f0cbff1d139cfe66e3a6f7eac58ba, -14⟩,
  ⟨45878823083959446, 15, 1410158913165262, 15, 1298280334344292, 15, 11, 0x69b3f88be84321fa2fac57, 44⟩,
  ⟨-11858339920553316, 15, 1410158913165262, 15, 1298280334344292, 15, 11, 0x6c3b3f61cebd285a9c7278, -13⟩,
  ⟨13890950564757574, 15, 14048995013345855, 16, 1298280334344292, 15, 11, 0x8fe3be537476a538bcedac, 15⟩,
  ⟨-2322403409026266, 14, 14048995013345855, 16, 1298280334344292, 15, 11, 0x41f60ba6281e5494df4029, -26⟩,
  ⟨206926512894129, 13, 14100027023746897, 16, 1298280334344292, 15, 22, 0xbf3bfed388eabb8796bcf7f1ae1aeaff45fe2a39c03e, 20⟩,
  ⟨-1146577120304476, 14, 14100027023746897, 16, 1298280334344292, 15, 11, 0xc6e5f4dd84ba5c6435b7ab, -11⟩,
  ⟨19331711118872384, 15, 14047351457901642, 16, 1298280334344292, 15, 11, 0xe21ef7b423eacd0542af8d, 20⟩,
  ⟨-7592283320086152, 14, 14047351457901642, 16, 1298280334344292, 15, 11, 0x766e461e2f22c7bfdd463b, -77⟩,
  ⟨40510597733688314, 15, 13944268910669912, 16, 1298280334344292, 15, 11, 0x3a03ab9871165668509024, 38⟩,
  ⟨-30780420980914158, 18, 13944268910669912, 16, 1298280334344292, 15, 11, 0x8b950b4dd533fdf4c07120, 1⟩,
  ⟨-2846339717062358, 15, 13894277063754517, 16, 1298280334344292, 15, 11, 0x2be915008e4d3f6e30345c, -5⟩,
  ⟨21620374183846216, 15, 13894277063754517, 16, 1298280334344292, 15, 11, 0x7748d80ecd2b574559493e, 23⟩,
  ⟨3056353337469843, 14, 1393187937308931, 15, 1298280334344292, 15, 11, 0xccf29872eae9d7a5b0a692, 30⟩,
  ⟨15060561045266505, 15, 1393187937308931, 15, 1298280334344292, 15, 11, 0x0cca0ca7cbe56ea9aa0c2b, 12⟩,
  ⟨-60815184790544706, 15, 1388037644313889, 15, 1298280334344292, 15, 11, 0xd882c1dbfd5224228e00a0, -61⟩,
  ⟨-9485377511058484, 15, 1388037644313889, 15, 1298280334344292, 15, 11, 0x2ed652839c860ae40ff000, -12⟩,
  ⟨4061749864946025, 14, 13870854316895769, 16, 1298280334344292, 15, 11, 0xd728c16598445e7798b225, 40⟩,
  ⟨-26337675395872633, 15, 13870854316895769, 16, 1298280334344292, 15, 11, 0xc9b0b4df94e70ac4b39b78, -26⟩,
  ⟨25734426143922608, 15, 13815594040806998, 16, 1298280334344292, 15, 11, 0xa7fba7dda3092bf1ddd1df, 26⟩,
  ⟨-31064216728337094, 15, 13815594040806998, 16, 1298280334344292, 15, 11, 0xb7c3de2398b9b7169bcde3, -31⟩,
  ⟨-34922217859159286, 16, 13861713008228347, 16, 1298280334344292, 15, 44, 0x39285c9351e2b5ef55cbe75b154fd9e86b75bc8babf82c23c3d36413d2334ca59bbc7fd665a7851639920f25, -3⟩,
  ⟨-24388513102934162, 15, 13861713008228347, 16, 1298280334344292, 15, 11, 0xdd0c408c86c593b96e6603, -25⟩,
  ⟨-79313029647638, 13, 13805957634186197, 16, 1298280334344292, 15, 11, 0xf7c80eae74c176fa5052af, -8⟩,
  ⟨-20970131249285412, 15, 13805957634186197, 16, 1298280334344292, 15, 11, 0xf20f5200353b2d3ebef376, -20⟩,
  ⟨2058445783612908, 14, 1388487590353476, 15, 1298280334344292, 15, 11, 0xba0aee5bfa2089ffa4c162, 21⟩,
  ⟨-492657463508404, 13, 1388487590353476, 15, 1298280334344292, 15, 55, 0x169b459e5fc99c781944fc5cd847b67ab898159adcda41f3157bf4252524f7a24ce48d30c2ccb51defc762f6df457207037d0c99da50c9, -50⟩,
  ⟨-3622462586219788, 14, 1384275615545551, 15, 1298280334344292, 15, 33, 0x161b65e34a9e809ad73c2b157dade2f1484783d23afae0962467f3ad3243e8095b, -36⟩,
  ⟨-4219993368343258, 14, 1384275615545551, 15, 1298280334344292, 15, 11, 0xc12a990a580d0b234295d5, -42⟩,
  ⟨-4745007691181636, 15, 13872617431412744, 16, 1298280334344292, 15, 22, 0x4672ddde099a9413ee7fedf827cbce4b4ac11fb6f316, -4⟩,
  ⟨24514752986957852, 15, 13872617431412744, 16, 1298280334344292, 15, 22, 0x7417abeaa8720e5ba3a5dee55e31be56351f920addb3, 25⟩,
  ⟨1984509401794248, 15, 13829110774709878, 16, 12982803343442921, 16, 22, 0x86d6447a3f18c65221d6f1f782d3d3e27f173a1ce223, 1⟩,
  ⟨-5681031297870809, 15, 13829110774709878, 16, 12982803343442921, 16, 11, 0xd397bc6570359627e45604, -6⟩,
  ⟨4669189603286751, 14, 13804335607303884, 16, 12982803343442921, 16, 22, 0x2609da75b5b885c72a3a54f389700603521dd6201a8e, 46⟩,
  ⟨-1600791750872726, 14, 13804335607303884, 16, 12982803343442921, 16, 22, 0x940e22bcb4aa5cd78b65ddb672028f05947f4326c668, -17⟩,
  ⟨2976604914410688, 15, 13758218023416517, 16, 1298280334344292, 15, 22, 0x339204cdd0322c39bcd7e174ea13fa729c8d09cef336, 4⟩,
  ⟨-5427399377481207, 14, 13758218023416517, 16, 1298280334344292, 15, 22, 0xff3cc61d5c8154becbd9f137e1d7bec6604100fae415, -57⟩,
  ⟨-29580442033165646, 15, 13794992114113998, 16, 12982803343442917, 16, 11, 0x884bb35ae805d5ca30b810, -31⟩,
  ⟨22006840551772143, 15, 13794992114113998, 16, 12982803343442917, 16, 22, 0x0b51c608332f3f6ff4e088d686917df3cd6b43fb306e, 22⟩,
  ⟨692857020265065, 13, 13748491707243546, 16, 12982803343442917, 16, 11, 0x94925c06664e5da99c6270, 68⟩,
  ⟨22191642264863006, 15, 13748491707243546, 16, 12982803343442917, 16, 11, 0x0ed34f0862a8678197ab10, 26⟩,
  ⟨3010998837472636, 14, 1374601135413216, 15, 1298280334344292, 15, 11, 0xc31e1157399835a1175c59, 30⟩,
  ⟨-26932226818322246, 15, 1374601135413216, 15, 1298280334344292, 15, 44, 0x00555851adc764eabbed5e97d0181ccb2ce1fbbbc9b97a3e12ff861e7107cd42d033668dcfed3e9b27f9066c, -29⟩,
  ⟨4515612018610058, 15, 1369226622461795, 15, 1298280334344292, 15, 11, 0x3a0c32198e4aab9d55104d, 2⟩,
  ⟨2253433962064954, 14, 1369226622461795, 15, 1298280334344292, 15, 11, 0x9712eb32c043796d089388, 24⟩,
  ⟨15428876543243497, 16, 13728088870827826, 16, 1298280334344292, 15, 22, 0x612f27f85095cbba93b1eaac71bc097ab34734a5ed9a, 2⟩,
  ⟨4102635472228084, 14, 13728088870827826, 16, 1298280334344292, 15, 33, 0x6d7303e38b78d5b4e79cf1ed6c4a4a736dd314ad95fafa668b8162d16f81a134e9, 41⟩,
  ⟨-16645319638702894, 15, 13671808087807813, 16, 1298280334344292, 15, 11, 0x37f86e764e9b42c888ef2a, -14⟩,
  ⟨-46863941539364454, 15, 13671808087807813, 16, 1298280334344292, 15, 44, 0x51461d448c439ecdcdf0f53b031d876eaf8bb26d0976529c3f65948290b4233692b43f2db0cef9ac4a3b75aa, -46⟩,
  ⟨3551525479588026, 14, 13666740056198952, 16, 1298280334344292, 15, 22, 0x49bc95f78314db559e54f4cd1bcb95df076dc30c1917, 36⟩,
  ⟨3748235103823293, 14, 13666740056198952, 16, 1298280334344292, 15, 22, 0x04d2082b46f5413ac764faf16d600b9ebe5e9e3edd03, 38⟩,
  ⟨44741864490679134, 15, 13603105750703997, 16, 1298280334344292, 15, 11, 0xfabf11b65debe51b9a2313, 45⟩,
  ⟨-6651833173493507, 14, 13603105750703997, 16, 1298280334344292, 15, 22, 0x739102cd79a0c3234ca2f34fbb3fa841832d77b41c37, -69⟩,
  ⟨10981537226331131, 15, 13653989567134461, 16, 1298280334344292, 15, 11, 0xcf8865550c276636a5b74b, 11⟩,
  ⟨6925379414697836, 15, 13653989567134461, 16, 1298280334344292, 15, 22, 0xf0437a58d42d3fbaa120dbe2c112330966164f1f9aba, 6⟩,
  ⟨884273179362246, 13, 13589007112280242, 16, 1298280334344292, 15, 11, 0x43fed89d05a43299ba6e00, 86⟩,
  ⟨-5497737303581692, 15, 13589007112280242, 16, 1298280334344292, 15, 33, 0x0d3720f563c6d48330c56000bf6957580f2b6c12a49de4894d395056d97e585385, -5⟩,
  ⟨13547764832252541, 15, 1368462753691079, 15, 12982803343442921, 16, 11, 0xb042468391f68b8cd3556a, 14⟩,
  ⟨-30520625560464843, 15, 1368462753691079, 15, 12982803343442921, 16, 22, 0xbd8877b4155ea5e9ede0e6e63b1a5d2a8c9091b66f45, -30⟩,
  ⟨2190054588833068, 14, 13639348332657535, 16, 1298280334344292, 15, 33, 0xce1d70b9eecccc29c366f71841e5316ea09c21dbdeece618c6a0bedb8787d6b1ed, 22⟩,
  ⟨-32246863575256555, 15, 13639348332657535, 16, 1298280334344292, 15, 22, 0x15486b89fe42dc3c672ed5d916dab1990b290d862169, -32⟩,
  ⟨114098735187471, 13, 13666997214785082, 16, 1298280334344292, 15, 11, 0x9bbcd5fa5e4c36df2d1449, 10⟩,
  ⟨-19259710778616068, 15, 13666997214785082, 16, 1298280334344292, 15, 44, 0x14527dc288fe8d1e1b75fd43f9c7720f6fb1e8ccaa795563c649d930f4d3b27eac98479e3c276a7f2edca05a, -21⟩,
  ⟨14419627713121722, 15, 1361935075020025, 15, 1298280334344292, 15, 11, 0xf56d64d2015ad50cbbe3a9, 15⟩,
  ⟨16172697113767892, 17, 1361935075020025, 15, 1298280334344292, 15, 11, 0xb50a7c6c02708bab8b2102, 1⟩,
  ⟨11246253130433386, 15, 13599092196384293, 16, 1298280334344292, 15, 44, 0x1ca18ca484fe567bbac9924c69c472c468f1e84562a36f108fb60bc9a55580c3fa2aa865cc05ceaa5c979711, 14⟩,
  ⟨5486429728786391, 16, 13599092196384293, 16, 1298280334344292, 15, 33, 0x5b6dfcc9b0b9032c00e5f818fb29420ba9e21d99c726b04422a62e03a8972fe3df, 1⟩,
  ⟨5255679756614583, 14, 13545410687380486, 16, 1298280334344292, 15, 11, 0x2b10a379f1c84498c8c902, 55⟩,
  ⟨-49337766038665926, 15, 13545410687380486, 16, 1298280334344292, 15, 11, 0xc4278812c457034ff47298, -50⟩,
  ⟨50393567706082074, 15, 13586416703985873, 16, 1298280334344292, 15, 11, 0xb56f1fdc7af0f658f3df79, 51⟩,
  ⟨-29226913622238655, 16, 13586416703985873, 16, 1298280334344292, 15, 22, 0x1967bec61b3bea10375754b0b93b3a25c23135aeacbb, -3⟩,
  ⟨30057560683838854, 15, 13531517382051286, 16, 1298280334344292, 15, 22, 0x199c7635eae694580764aadfc7bcd5746fefd6600c6e, 30⟩,
  ⟨-17789039773781315, 15, 13531517382051286, 16, 1298280334344292, 15, 11, 0x6336d3b67b23b4c9b17a90, -19⟩]

/-- tests/test_samplerz.cpp:10432-11078. -/
def kats1024_8 : List Kat := [
  ⟨6611598758226181, 14, 17051483970438834, 16, 1298280334344292, 15, 11, 0xf61497a21155222d67f73e, 67⟩,
  ⟨-2125566844207562, 13, 17051483970438834, 16, 1298280334344292, 15, 22, 0x02fbe5bd681b1aaf18d2a0601f6222073ab20902bb55, -211⟩,
  ⟨-8638602374624605, 14, 16982583175744308, 16, 12982803343442921, 16, 33, 0x6506cb4c3f8a3fb99622c94ac450886bc72218c801ca68293e9bfb2f3edc4b6d07, -85⟩,
  ⟨-6112167070844038, 14, 16982583175744308, 16, 12982803343442921, 16, 55, 0xff5ebe8627aa4b3997b2fff20386dae693c26d898bcb3b51cb58c70091b6bf83a5f9b71997b6a31d40e6f0f45e319ba688f69e0acdbb76, -60⟩,
  ⟨7519454905898093, 14, 17033994543312194, 16, 1298280334344292, 15, 11, 0x876aec08f887c2d910a954, 77⟩,
  ⟨11959110495659772, 14, 17033994543312194, 16, 1298280334344292, 15, 11, 0xf77f8466b2fa2f80f0207f, 119⟩,
  ⟨-5617481485197131, 14, 16966753986498357, 16, 1298280334344292, 15, 22, 0xce1572bfb5f4add34677c7a8ed1e3f74247f8c27f996, -56⟩,
  ⟨-26301272898283155, 15, 16966753986498357, 16, 1298280334344292, 15, 11, 0xe3956c50a65e070f39c27b, -27⟩,
  ⟨39282358271345487, 14, 16941516227002917, 16, 1298280334344292, 15, 23, 0x41eb36cdc9f381aabb9ed58ddedb3cdbe48a1584d27f01, 391⟩,
  ⟨-5571212876749896, 13, 16941516227002917, 16, 1298280334344292, 15, 55, 0x4b00cdc8c748e19a0e7fa5e7c44dc771583a088daffb956a6f8cb1bab2f49b55e909d69d79143807da6c86de67b88d5c098509e6b26dac, -556⟩,
  ⟨-8903170875669849, 14, 16882453995538496, 16, 1298280334344292, 15, 22, 0x00dc7faed75b5a0d735b9a7c705320d08791e824323e, -91⟩,
  ⟨-415841577167194, 12, 16882453995538496, 16, 1298280334344292, 15, 11, 0xed22e0b761eb99a047b819, -416⟩,
  ⟨1470629469776639, 13, 16916677110100995, 16, 1298280334344292, 15, 11, 0xd565dccbfea7f674ac4506, 148⟩,
  ⟨-6441356331879144, 13, 16916677110100995, 16, 1298280334344292, 15, 11, 0xf86e61e53d09bd28f7c1a4, -644⟩,
  ⟨21263338916825285, 14, 16860703816265368, 16, 1298280334344292, 15, 11, 0x198141f61001a4c65bfc49, 209⟩,
  ⟨-200131596675323, 12, 16860703816265368, 16, 1298280334344292, 15, 11, 0xc2c8a48ded90bf43b9a701, -200⟩,
  ⟨50645888279979374, 14, 16979345866060473, 16, 1298280334344292, 15, 22, 0x8623a819520b25fc3346f6e6f8332db5393363019563, 507⟩,
  ⟨13933182763735346, 15, 16979345866060473, 16, 1298280334344292, 15, 11, 0xf8c5e0d19055ad0483279d, 14⟩,
  ⟨6524620799467833, 14, 168985372810846, 14, 1298280334344292, 15, 22, 0x41119fc8c8bcb98a9e2ee78e10a6739292c91b264d81, 67⟩,
  ⟨22053430964611195, 14, 168985372810846, 14, 1298280334344292, 15, 11, 0x0877669b0bae98d9db320c, 216⟩,
  ⟨37631121149982346, 14, 16961747998159968, 16, 1298280334344292, 15, 22, 0x7efad369b777dae429c7d19bd08fc0ab7a5afd055342, 378⟩,
  ⟨9450973061971584, 14, 16961747998159968, 16, 1298280334344292, 15, 11, 0xcef98cd127633adcc87d7b, 95⟩,
  ⟨5192195256508917, 13, 1688277166222287, 15, 1298280334344292, 15, 22, 0xa0bf994767eafba41ed3acb3e83b30fe738fccf4a006, 519⟩,
  ⟨17922734943838404, 14, 1688277166222287, 15, 1298280334344292, 15, 11, 0xd64654010e2c906eed4309, 180⟩,
  ⟨-20498511321381386, 14, 16876513351699511, 16, 1298280334344292, 15, 33, 0x39426bd63e58d7d805b34d71a72e9ffe83ffb21dd8ed8e5a9bc31c4e4543748e88, -206⟩,
  ⟨20746282155687157, 14, 16876513351699511, 16, 1298280334344292, 15, 44, 0xd75c19fe5b2888c93d7de4623b06f76466f5f0cb68bb1d0c8b73bfb4118cda61b7b4fb0e81ed496fd551de9e, 207⟩,
  ⟨21486355295873398, 14, 16807325033134664, 16, 1298280334344292, 15, 22, 0x70953377b5c5046e04e0fe88a4c55c537d849276bfac, 216⟩,
  ⟨-3319572130432009, 13, 16807325033134664, 16, 1298280334344292, 15, 44, 0x50ad8b66313b7ea34e92bf3bf8b6f61883c939ff1190048a263426724bf829a284fda0e15c61f708129f7116, -331⟩,
  ⟨-3672822897773481, 14, 16851297509897778, 16, 1298280334344292, 15, 11, 0xa125b12b3f28e15cc0c129, -35⟩,
  ⟨14516212945095702, 14, 16851297509897778, 16, 1298280334344292, 15, 11, 0x84101e09842adf49a7532f, 147⟩,
  ⟨2621598617617021, 13, 1678541111246805, 15, 1298280334344292, 15, 11, 0xaaffe24ed1dca119a2998f, 263⟩,
  ⟨-31886034241190634, 14, 1678541111246805, 15, 1298280334344292, 15, 11, 0xffafdefcdc8c60b248fa7b, -319⟩,
  ⟨36127502311207036, 14, 16782382871438761, 16, 1298280334344292, 15, 11, 0xb6f01f12df52e314a2ef83, 362⟩,
  ⟨33163646509164806, 15, 16782382871438761, 16, 1298280334344292, 15, 11, 0x89715f8daade2032c40751, 35⟩,
  ⟨-4450465146347108, 13, 16725812514216214, 16, 1298280334344292, 15, 33, 0x7c7b965d03c29975fdf4a6bc1ab09485088bdc7e14d92088038690de801f3d6320, -442⟩,
  ⟨-3734728190994816, 13, 16725812514216214, 16, 1298280334344292, 15, 33, 0xf8eab5a891c4fb2a949ff2a98777d2b4822e4d16e2dd9e5d4e39c45892f235ce30, -375⟩,
  ⟨-7646901351461085, 14, 16770518634248626, 16, 1298280334344292, 15, 11, 0xa38ef9be705efa44b5572b, -75⟩,
  ⟨29678292258035276, 14, 16770518634248626, 16, 1298280334344292, 15, 11, 0xd999b283fbebcf63b11b00, 297⟩,
  ⟨3929040987531088, 13, 1671449161332192, 15, 1298280334344292, 15, 11, 0xfb0f25b07a7de1d764ae2b, 392⟩,
  ⟨-9282733714171367, 14, 1671449161332192, 15, 1298280334344292, 15, 11, 0x148d14f9b3364d2ce7f21d, -96⟩,
  ⟨-2658897120698615, 13, 16684547220325703, 16, 1298280334344292, 15, 33, 0x20a7a7bbd90fdb98ec6770a380ba62ec9d17b6e10aec4cc7cf9c90bcf331a3a632, -268⟩,
  ⟨-5047751025976412, 13, 16684547220325703, 16, 1298280334344292, 15, 33, 0x13fe158b896f8f6430b0a73ba25a990e56a7606b6edb928e8f8c32e0cb1693dd6b, -503⟩,
  ⟨48493791469942676, 14, 16632221920378067, 16, 1298280334344292, 15, 22, 0x16b4032b0249825aa36873f2952d6ebc03348ce5f75d, 485⟩,
  ⟨-8310339145147673, 13, 16632221920378067, 16, 1298280334344292, 15, 66, 0xe4dedb4e9b08585df590bdf54b2962a430359e76d4d5933ac9f9427034968995d712569139233ce354a13477917c896c6b04579cfca6f7e3adb7a77cfcfcce342da5, -831⟩,
  ⟨-6150567963618354, 13, 1666810056787925, 15, 1298280334344292, 15, 11, 0x5bb9316da28646bc4bfe4e, -617⟩,
  ⟨-6085248082195911, 13, 1666810056787925, 15, 1298280334344292, 15, 44, 0x13feee6d8e4d35e5ce258e2815c87a8c6ffc99bc2784e64a36aef4d53080c00fdcdf4e38dcd0512d0fafc94e, -608⟩,
  ⟨2255492784592364, 13, 16617537912385878, 16, 1298280334344292, 15, 11, 0xabab879272eb2a39e2cab7, 225⟩,
  ⟨-4360387359218179, 14, 16617537912385878, 16, 1298280334344292, 15, 11, 0x631700c0f8de4bb4b8035c, -42⟩,
  ⟨11399178149169654, 14, 16712527870172817, 16, 1298280334344292, 15, 11, 0x77dbc703a6584f9f0fc409, 112⟩,
  ⟨-1844187163718446, 13, 16712527870172817, 16, 1298280334344292, 15, 22, 0x18192fdd117ec43458bea0f447e8699f980163989903, -184⟩,
  ⟨-219013470734005, 12, 166453057857134, 14, 1298280334344292, 15, 22, 0xd8dab008a511c722f478e7a661f11122b435d42f4f72, -219⟩,
  ⟨4409886582747671, 14, 166453057857134, 14, 1298280334344292, 15, 11, 0x1377cac4090c32e875a06f, 41⟩,
  ⟨-27626734796024306, 14, 16700870845962148, 16, 1298280334344292, 15, 11, 0x7fe2f2c6d13dc1b5bc996f, -275⟩,
  ⟨-7759754631023152, 14, 16700870845962148, 16, 1298280334344292, 15, 22, 0x4d7bdd8a54bbecf2b9199ad0649499e169768fff068f, -78⟩,
  ⟨34633529833872535, 14, 16634336030385095, 16, 1298280334344292, 15, 11, 0x82930ca476849c9139e510, 348⟩,
  ⟨1230755225246784, 13, 16634336030385095, 16, 1298280334344292, 15, 11, 0x3e4198888b06d1801bbd4b, 126⟩,
  ⟨-2668346642745082, 13, 16622924650564044, 16, 1298280334344292, 15, 22, 0x4548a61e1b0f7037b6b2e9c411dfbe58805ecc6d3707, -266⟩,
  ⟨-33869249113632605, 15, 16622924650564044, 16, 1298280334344292, 15, 11, 0xcc9f7c877c37b6fc3f8c47, -34⟩,
  ⟨-49978857093499704, 14, 16561473549752563, 16, 1298280334344292, 15, 33, 0x2c3a74bc9a437be9dfaad584c37e4b30fabb2ab40ba03b5c070d6578a4b6108934, -497⟩,
  ⟨9216628493162602, 14, 16561473549752563, 16, 1298280334344292, 15, 11, 0x0ba73a12e5808d7554541a, 89⟩,
  ⟨-11504421550843091, 14, 16606294136574051, 16, 1298280334344292, 15, 11, 0x42b17bdf1d065fb06dd132, -113⟩,
  ⟨4153957248426584, 14, 16606294136574051, 16, 1298280334344292, 15, 11, 0xff8e348d8e5cad16c5c1ba, 42⟩,
  ⟨69268911339288, 12, 1654675861559221, 15, 12982803343442921, 16, 11, 0x081f9d023122dead84d44f, 65⟩,
  ⟨-19022133505791433, 14, 1654675861559221, 15, 12982803343442921, 16, 22, 0x3c5fa2f982cd6fb7e51ed5f8bd51bc3461bf06120c1e, -191⟩,
  ⟨-2468551879883229, 14, 16425334870223864, 16, 1298280334344292, 15, 11, 0x66eb1b61f84a8f2a04a174, -23⟩,
  ⟨-23124318028397522, 14, 16425334870223864, 16, 1298280334344292, 15, 11, 0x251a096fa1074753c22e09, -234⟩,
  ⟨-26405158130997097, 14, 1636397230637702, 15, 1298280334344292, 15, 22, 0xa582d13426932af2be83e6e8cd9cbb3f02834f5c1653, -265⟩,
  ⟨-5195842132235264, 14, 1636397230637702, 15, 1298280334344292, 15, 22, 0x7a1793cbdbf07e457295cba55781308a230a23c449a4, -51⟩,
  ⟨-33007794875723897, 14, 16423413312950665, 16, 1298280334344292, 15, 11, 0xa1fd775eaa4decceeab82e, -332⟩,
  ⟨23964645759263573, 14, 16423413312950665, 16, 1298280334344292, 15, 11, 0x7d0bd93db8c49be23f240e, 238⟩,
  ⟨3116602128530188, 13, 1636215958227407, 15, 1298280334344292, 15, 11, 0x64714a9da67d5e89672e13, 310⟩,
  ⟨-9620595943251453, 14, 1636215958227407, 15, 1298280334344292, 15, 11, 0xf648f248f46d3ad5f5204b, -97⟩,
  ⟨-6102590623735193, 14, 163326415849424, 14, 1298280334344292, 15, 11, 0xcf5bce3996d8de64395b2b, -61⟩,
  ⟨-21279340113275077, 14, 163326415849424, 14, 1298280334344292, 15, 11, 0x8ee99d64b7e7ec06017e4f, -214⟩,
  ⟨53272205286303354, 15, 16280353102856497, 16, 1298280334344292, 15, 11, 0x8d7c00575c9cffe81d396c, 55⟩,
  ⟨-22648714846446987, 14, 16280353102856497, 16, 1298280334344292, 15, 11, 0x0ceefe2e15fcf0375b410b, -223⟩,
  ⟨13292370801178672, 14, 16328954725787987, 16, 12982803343442917, 16, 33, 0x581f3f66bc17ebcfb284a41ab8baeedbbbbd19421434e3af7f084ff415c9cd4119, 133⟩,
  ⟨-4088844690760886, 14, 16328954725787987, 16, 12982803343442917, 16, 11, 0x1f0942ac465442a0665e74, -44⟩,
  ⟨6136744226538128, 13, 16277112712094246, 16, 1298280334344292, 15, 11, 0x512e68c45c54138b2af409, 611⟩,
  ⟨-2660742552282757, 13, 16277112712094246, 16, 1298280334344292, 15, 11, 0xe27f3ab621dd2998fcd77a, -266⟩,
  ⟨12201508114538574, 14, 16332442106319374, 16, 1298280334344292, 15, 11, 0x53d8150a1bf15bf3260c0a, 120⟩,
  ⟨-1951778939975543, 13, 16332442106319374, 16, 1298280334344292, 15, 33, 0x314ed4e21e72e43d9335a1204633f74a333fe034ae6be6c01097c3eb54a18abda0, -195⟩,
  ⟨11940446774623852, 14, 16267349068975971, 16, 1298280334344292, 15, 11, 0xc785463f77410ce6e68f93, 120⟩,
  ⟨-11287135591369261, 14, 16267349068975971, 16, 1298280334344292, 15, 11, 0xfd1e968a7ca25f997bcf14, -112⟩,
  ⟨-15256332753481547, 14, 16330845766014452, 16, 1298280334344292, 15, 11, 0xcccfcb4431d96ef2620f2c, -152⟩,
  ⟨17325691035620764, 14, 16330845766014452, 16, 1298280334344292, 15, 22, 0x01905c89941cdc2f6506c431a2b59265c05c2cd31473, 171⟩,
  ⟨40119860280411086, 14, 16265833701302068, 16, 1298280334344292, 15, 22, 0x5902dbf5ec45c7eb8fcb9b0c5e45e66f7209baccb90b, 405⟩,
  ⟨-57348893401497506, 15, 16265833701302068, 16, 1298280334344292, 15, 11, 0xc013c69fd4bc745ba58c5c, -58⟩,
  ⟨6589336847860366, 14, 16252473533940721, 16, 12982803343442921, 16, 11, 0xb42afb41f8f948248ebeae, 65⟩,
  ⟨23621907004194284, 14, 16252473533940721, 16, 12982803343442921, 16, 11, 0xf69fd45246f670a65e2b45, 237⟩,
  ⟨26551098539379075, 14, 16196556794577361, 16, 1298280334344292, 15, 11, 0x933b106e6177ac3ad6b507, 267⟩,
  ⟨-12121074549674678, 14, 16196556794577361, 16, 1298280334344292, 15, 11, 0xf4a9ff7b61ec9936cd727f, -122⟩,
  ⟨-4541086848591789, 13, 16249268522051552, 16, 1298280334344292, 15, 11, 0x92101e9ae3aefa13431332, -453⟩,
  ⟨-591966545788906, 12, 16249268522051552, 16, 1298280334344292, 15, 11, 0xe8f0b0ee6b80fe39dea844, -592⟩,
  ⟨-21542334018240757, 14, 1619374017242125, 15, 1298280334344292, 15, 22, 0xc732ddcf5b955ac7b92dcac43c2a3e2615a76d36a58e, -215⟩,
  ⟨20311918716372764, 14, 1619374017242125, 15, 1298280334344292, 15, 11, 0xf82caa04c9b482e6e20b8b, 204⟩,
  ⟨31161388436091516, 14, 16216396514979192, 16, 1298280334344292, 15, 22, 0x42cdd393b14eb53f2318efce35afc0905eee48505a51, 311⟩,
  ⟨-5714726694081214, 13, 16216396514979192, 16, 1298280334344292, 15, 11, 0xc77c0162c61c3e89c3a801, -572⟩,
  ⟨16143883863410207, 14, 1616159578811657, 15, 1298280334344292, 15, 11, 0x3f5bc504112f58ded57d54, 164⟩,
  ⟨15805355291388133, 14, 1616159578811657, 15, 1298280334344292, 15, 11, 0xfef34ecf948c08adf85ea2, 158⟩,
  ⟨-2751716058707269, 13, 1621586600874045, 15, 1298280334344292, 15, 11, 0xc7eb9631666d52faa3b26b, -276⟩,
  ⟨4284300933202331, 15, 1621586600874045, 15, 1298280334344292, 15, 22, 0x99677a11c274e94cfd0abc89ad822e45a3e45e2b2e5e, 3⟩,
  ⟨10115388266126084, 14, 16161062424974553, 16, 12982803343442917, 16, 11, 0x8c9ae8c60b5691d2fc4f1e, 103⟩,
  ⟨15065277845477166, 14, 16161062424974553, 16, 12982803343442917, 16, 11, 0xebe5fbcaaeff7339320ca3, 150⟩,
  ⟨-1971005712489597, 13, 1613054214795938, 15, 1298280334344292, 15, 11, 0x7fa7784cf6f2fbbf81b547, -196⟩,
  ⟨-5929736257462203, 13, 1613054214795938, 15, 1298280334344292, 15, 11, 0xd6dc2a9fd240fc1a0634a8, -593⟩,
  ⟨-5924063460261533, 14, 1608091406429561, 15, 1298280334344292, 15, 11, 0x3d75978f43a3d78acd774f, -57⟩,
  ⟨40061984506780726, 14, 1608091406429561, 15, 1298280334344292, 15, 22, 0xaaf68e3af1b4d42f16e8e7cbfc9a240fbbc1bb42422e, 400⟩,
  ⟨-21870004393978178, 14, 16129027145124077, 16, 1298280334344292, 15, 11, 0x09012f0ddf55cce40a961e, -223⟩,
  ⟨1599557298098614, 13, 16129027145124077, 16, 1298280334344292, 15, 22, 0x3b73ceb26651301a5f39d4d8221d61da7dce67b53986, 160⟩,
  ⟨25792579055216436, 14, 16079614683246597, 16, 1298280334344292, 15, 33, 0x7b09da76bb8496ce7d089b55f0e92c37c7074133b4e87f4bf37503a71a77605c30, 256⟩,
  ⟨-5798734029294902, 15, 16079614683246597, 16, 1298280334344292, 15, 11, 0xfe8bc88f81b334dcd64d10, -5⟩,
  ⟨23270856671079065, 14, 16142036834762588, 16, 1298280334344292, 15, 11, 0x8e147dca4840100167152b, 234⟩,
  ⟨828736088470468, 13, 16142036834762588, 16, 1298280334344292, 15, 11, 0xf2d5a676d4d0c7f27f4c39, 82⟩,
  ⟨3126100962911508, 13, 16082033793235126, 16, 1298280334344292, 15, 11, 0xb4f9474d8455373342114a, 313⟩,
  ⟨-2775648676141343, 13, 16082033793235126, 16, 1298280334344292, 15, 22, 0x18f9f4537a5108e66fb7ad9206d8bb4f2db7d38d3c64, -279⟩,
  ⟨-2814175941702334, 13, 1614158893373758, 15, 1298280334344292, 15, 11, 0x2d19c549e3206f9e376b18, -279⟩,
  ⟨-1306354693378728, 14, 1614158893373758, 15, 1298280334344292, 15, 33, 0x494e4186954ff22d95de8ad4b7ad24d03cda60a749d676faf66ca81e7fbc143baf, -12⟩,
  ⟨6023570829189991, 13, 16081593769845812, 16, 12982803343442921, 16, 11, 0x748ddb8022324f62bd1e39, 601⟩,
  ⟨-3742555617712754, 13, 16081593769845812, 16, 12982803343442921, 16, 11, 0x37df4cc2be4c691de79e20, -377⟩,
  ⟨-25864405399349124, 14, 1606647955425712, 15, 1298280334344292, 15, 11, 0xef9dd6d1846f2ced816e4e, -259⟩,
  ⟨4063392618942773, 13, 1606647955425712, 15, 1298280334344292, 15, 22, 0x85f1ab3bc7a7c6491937db9bb9d64337b34aeb924018, 405⟩,
  ⟨19919082596934075, 14, 1601235188611083, 15, 1298280334344292, 15, 11, 0xbd5a225c8f5cd163b89752, 200⟩,
  ⟨15618549412692394, 14, 1601235188611083, 15, 1298280334344292, 15, 22, 0x60391eb1d5da976b46ecfa1bc9b6963dc49b3d786520, 160⟩,
  ⟨-4671549174528908, 13, 16065069509648242, 16, 1298280334344292, 15, 66, 0xc8564cfb007058cff624f158c0e5d91b081a99ce4c93c53ddd257624b296c1bab50855e91d4c6ca4ce961e697e4fc3084952b0fdf25289da92230bdd39496d6c8e99, -468⟩,
  ⟨-5420348896119228, 13, 16065069509648242, 16, 1298280334344292, 15, 11, 0x34cc64bba1d96b82881405, -545⟩,
  ⟨-8972455228063666, 14, 16011151462124333, 16, 1298280334344292, 15, 33, 0x2978ab58cee420ef382bdb188eee4a8710ed734898d2d0fb0833eeb92dd1d7339b, -89⟩,
  ⟨-9517861794495528, 14, 16011151462124333, 16, 1298280334344292, 15, 11, 0xf114b4e66fa05ebd75b3ab, -95⟩]

/-- tests/test_samplerz.cpp:11079-11731. -/
def kats1024_9 : List Kat := [
  ⟨473019558038916, 12, 161867846584027, 14, 1298280334344292, 15, 11, 0x299a876003633a987a9069, 471⟩,
  ⟨-3342852456402725, 13, 161867846584027, 14, 1298280334344292, 15, 22, 0x18628e04d16788e6ce6297b2bdc1c7b4cd213c9c8f63, -334⟩,
  ⟨-17368575999851524, 14, 1614967069902552, 15, 1298280334344292, 15, 11, 0x5a36310dd483738a20ab22, -172⟩,
  ⟨-36327296032840724, 14, 1614967069902552, 15, 1298280334344292, 15, 44, 0x0da54ecca192fbb2f43a560847b99bba8f5fc642144f3872f98f6a5360069083d4bec157f6e780c7d8c30245, -364⟩,
  ⟨-1585379692603537, 13, 16186490722469709, 16, 12982803343442921, 16, 11, 0x2c8e5005985a0be74a9c27, -161⟩,
  ⟨-32345905243274774, 14, 16186490722469709, 16, 12982803343442921, 16, 22, 0xcaff6af91390273d9d85c678c1846f3e9a5880a1cd79, -322⟩,
  ⟨-25574883333316382, 14, 16149409007581337, 16, 1298280334344292, 15, 22, 0x6e78536fd9ac0c4c1ddee8b0c025ef604b5bfb473973, -255⟩,
  ⟨-3883743167226462, 13, 16149409007581337, 16, 1298280334344292, 15, 33, 0x10e9b0b16abbc28fd5e27e53074f31460ac5b73b1fdd0ccf038d27c83e33e39a3d, -392⟩,
  ⟨2947721645282606, 13, 16107202470176822, 16, 1298280334344292, 15, 11, 0x37ae712618547f00494d80, 297⟩,
  ⟨-5005198053090099, 13, 16107202470176822, 16, 1298280334344292, 15, 33, 0x5207e3b1628eecd7d30587eed05b982647da937f91c47267c9a4ac9921eec2e37d, -499⟩,
  ⟨12621722945496217, 14, 16078957132067904, 16, 12982803343442917, 16, 11, 0xd7aa30c971e18ff6ca5551, 127⟩,
  ⟨-3755993313784193, 13, 16078957132067904, 16, 12982803343442917, 16, 11, 0x2a7e0bd54b60e42ce0374e, -373⟩,
  ⟨-27310981536314364, 14, 16104264979414433, 16, 1298280334344292, 15, 11, 0xd0877178469066f8aae30f, -273⟩,
  ⟨-8958665417062505, 14, 16104264979414433, 16, 1298280334344292, 15, 11, 0x87add2e283207dc6752a33, -91⟩,
  ⟨9680265090034457, 13, 16076342839684612, 16, 1298280334344292, 15, 22, 0x88a3eb74aad939504371be8fcc81acb023da74adec9d, 967⟩,
  ⟨-19567112548563324, 14, 16076342839684612, 16, 1298280334344292, 15, 11, 0xc5defc3f370115580b2ca7, -196⟩,
  ⟨4629086958476764, 13, 16090579092294253, 16, 1298280334344292, 15, 11, 0xfa13f67e4211ad239f7b40, 463⟩,
  ⟨-33365044637593826, 15, 16090579092294253, 16, 1298280334344292, 15, 22, 0x5743ae286575618aa96ed3d4918bc384c564a53b201b, -34⟩,
  ⟨5656175241550783, 13, 16053110720847192, 16, 1298280334344292, 15, 11, 0x879a842b85ce1eb089695e, 567⟩,
  ⟨-8877778638271812, 13, 16053110720847192, 16, 1298280334344292, 15, 11, 0xb128ef42c14d153906ec47, -888⟩,
  ⟨-478603164495206, 12, 1609043394061252, 15, 1298280334344292, 15, 11, 0x792b0c5a299a280cc7013c, -477⟩,
  ⟨-8342608497424203, 14, 1609043394061252, 15, 1298280334344292, 15, 11, 0xc8ff19241f772f61a5c136, -83⟩,
  ⟨16124972783423146, 14, 16052984212787245, 16, 1298280334344292, 15, 11, 0x2800592a7fb7c9015c8863, 159⟩,
  ⟨-10884777247525024, 14, 16052984212787245, 16, 1298280334344292, 15, 11, 0xf5c9eab59264db74b7c531, -108⟩,
  ⟨6320024363795348, 14, 16017333501091797, 16, 12982803343442921, 16, 11, 0x2c77981a44f0f704c5ca1d, 61⟩,
  ⟨-8472483388118336, 14, 16017333501091797, 16, 12982803343442921, 16, 22, 0x88872e9342ae914146b1afec05423f838c16ab22d28f, -85⟩,
  ⟨-5146000693993784, 14, 1598832674142899, 15, 1298280334344292, 15, 11, 0x5c8f8041686dc05df20d13, -50⟩,
  ⟨-5587026660919843, 14, 1598832674142899, 15, 1298280334344292, 15, 11, 0xc4f2dc93f7695672109ab8, -56⟩,
  ⟨-27292375872795517, 15, 1601519952415406, 15, 1298280334344292, 15, 22, 0x216d568f6d9b05d3b200f27d9945758dcc2b07fb0403, -29⟩,
  ⟨-27404090236054003, 14, 1601519952415406, 15, 1298280334344292, 15, 22, 0xceba73710668c9d0989ecd161a2d49f1ef4e2b393113, -271⟩,
  ⟨11533316465139426, 14, 15986437291427336, 16, 12982803343442921, 16, 11, 0x796b5c3c3a100ee3e8350c, 117⟩,
  ⟨-7730979750488816, 13, 15986437291427336, 16, 12982803343442921, 16, 11, 0x3ba08d8e0b97d6a814cf32, -771⟩,
  ⟨46705436749731325, 14, 16027139050354577, 16, 1298280334344292, 15, 22, 0x36b87bf66c24fd704b18ad20bf440205ce741e90e829, 464⟩,
  ⟨-5648814261041907, 13, 16027139050354577, 16, 1298280334344292, 15, 22, 0x2d213826ac33ac8c577950881a54449dca7e7b586a50, -566⟩,
  ⟨-3199124625747882, 13, 15990610885038083, 16, 1298280334344292, 15, 33, 0x26fcd714dcbdf46299bad7d33e4ba91a088beb5afed96c5ad427e0216265645f15, -318⟩,
  ⟨-2639877582507582, 13, 15990610885038083, 16, 1298280334344292, 15, 11, 0xf839d15a07b752860f82c0, -264⟩,
  ⟨-3057846167008403, 13, 16026842470749216, 16, 1298280334344292, 15, 11, 0x472356b50d4d97f853e711, -303⟩,
  ⟨-27969713517461514, 14, 16026842470749216, 16, 1298280334344292, 15, 11, 0x7ecfcb201351de347a7b4c, -278⟩,
  ⟨-5863572421101745, 15, 15990351533165528, 16, 1298280334344292, 15, 22, 0x45981a25ab65613646eb73e9464b2cff097e64b5837b, -5⟩,
  ⟨-24358185378320024, 14, 15990351533165528, 16, 1298280334344292, 15, 11, 0xb30f334ad76ef61a253c03, -244⟩,
  ⟨5751738005723445, 14, 15950082390536473, 16, 1298280334344292, 15, 11, 0xd64360f3ea37b185274b4c, 58⟩,
  ⟨-42921055309861094, 14, 15950082390536473, 16, 1298280334344292, 15, 11, 0x043b2c74224edb3e894d0f, -425⟩,
  ⟨-17340573758939104, 14, 15921305228813423, 16, 1298280334344292, 15, 22, 0xd88805dd7e1d6f94bd20e647ae14ec89576826498e3c, -176⟩,
  ⟨-4269407901258791, 13, 15921305228813423, 16, 1298280334344292, 15, 11, 0xc99df433dbc47c5d6e0e92, -427⟩,
  ⟨4581792917748459, 14, 1594747357551574, 15, 1298280334344292, 15, 77, 0xc90896029d176fb535f2ff438f4553e26a558611e27c53bcadde3691d0db4cf9fe0b6bd7a29e81504ca2343187096cedad0675f16002c50c593112a3e8c5437c54e55c3fe32386f1ca16a1066e, 44⟩,
  ⟨-6528410934199987, 13, 1594747357551574, 15, 1298280334344292, 15, 11, 0xce0b437217ca9575937e13, -653⟩,
  ⟨4938687059214404, 13, 15918989833575328, 16, 1298280334344292, 15, 11, 0x39a7c3401511df0369231c, 496⟩,
  ⟨-9463593909701524, 14, 15918989833575328, 16, 1298280334344292, 15, 11, 0xdabdec5c85126fdb35c6ab, -95⟩,
  ⟨-23592507607763338, 14, 15944073966503256, 16, 1298280334344292, 15, 11, 0x18656a2f45be28e0ae1721, -232⟩,
  ⟨-5827918025983237, 15, 15944073966503256, 16, 1298280334344292, 15, 22, 0x0c0fbb47fb02bb49eaebf4c14bd7f763b6ff02797cc6, -6⟩,
  ⟨4378617976469786, 13, 15905268474592713, 16, 1298280334344292, 15, 22, 0x7506bee256b37622b768a39c0f566d46fc43fb368ba1, 439⟩,
  ⟨-1258199655131105, 13, 15905268474592713, 16, 1298280334344292, 15, 11, 0x870fe36dea2650994a861c, -127⟩,
  ⟨-2982472104399236, 13, 15943827213439026, 16, 12982803343442917, 16, 22, 0x338de5e4cadf9e3713025cda0a719966dbbb32f73364, -298⟩,
  ⟨-10052501879055714, 14, 15943827213439026, 16, 12982803343442917, 16, 11, 0x57c9236b327030bb43ac54, -102⟩,
  ⟨5751140748412242, 13, 15905054396536369, 16, 1298280334344292, 15, 11, 0x601dc451b63b710611468c, 574⟩,
  ⟨44559352195330496, 14, 15905054396536369, 16, 1298280334344292, 15, 33, 0x68428de8b89ca5493ac5b04bac92f61c4eaba059d698650229dc02a1ba52199953, 447⟩,
  ⟨-27413043154218815, 14, 1587236210345129, 15, 1298280334344292, 15, 22, 0xda42a7d27225ec700acab86089cffe0872ee13fc39b8, -273⟩,
  ⟨-5323526126629246, 13, 1587236210345129, 15, 1298280334344292, 15, 44, 0x50be0a4a8da78a20aee2dd5cf453b1b2a19e1090b7f17ef03479b6fe62fabfcae6aa84c9422736913e72325f, -533⟩,
  ⟨-3006823511215773, 13, 15841446883313104, 16, 1298280334344292, 15, 33, 0x8352f3ddc8483790b433b0ff8909e69ebb2d2af172efdc616da6bb9c8bf1a04128, -300⟩,
  ⟨15555345241353356, 14, 15841446883313104, 16, 1298280334344292, 15, 22, 0x9792ca1584b5352744b6c8e7365c266cd06ae100ec14, 155⟩,
  ⟨27609482569778555, 14, 1587016208711996, 15, 1298280334344292, 15, 11, 0xfc2cadf8fc0360ef247b54, 277⟩,
  ⟨20979351767319685, 14, 1587016208711996, 15, 1298280334344292, 15, 44, 0x7b322f487f2fedd64da9fef7aac0a60c539a1e73bbf8166e967347486787e39f9198fa9f30bf07b7e3047616, 208⟩,
  ⟨1789384059951344, 13, 15839507460227733, 16, 1298280334344292, 15, 44, 0x65059c4f4121cfa9f0c4aa3c83eeccf1b12f7be228c914bfbb9eeb37e1d2f095b96cae44a998afbcce66e393, 180⟩,
  ⟨39005210818046976, 14, 15839507460227733, 16, 1298280334344292, 15, 11, 0xc1d066f40f14d348231e35, 390⟩,
  ⟨-22115951259162813, 14, 15769685553671808, 16, 1298280334344292, 15, 11, 0xbf87abc85e08351bee31b2, -221⟩,
  ⟨11708602877937157, 14, 15769685553671808, 16, 1298280334344292, 15, 11, 0xa82a0fc6fcd8a4b5a1365f, 117⟩,
  ⟨-2832239096310557, 13, 1572487312097562, 15, 1298280334344292, 15, 11, 0x422a37b1eefaa71b5d4824, -286⟩,
  ⟨-50685617876140765, 14, 1572487312097562, 15, 1298280334344292, 15, 22, 0x5730aaf944d68cba52bdc290f622527a5bdb1da83d26, -505⟩,
  ⟨-3559396133661729, 13, 15768666780440168, 16, 1298280334344292, 15, 33, 0xdfcfdbb5553b7287d350fafe9e1b9e748477c039d4dddbd7e5048a8a001ad1cc45, -356⟩,
  ⟨28715918789893323, 15, 15768666780440168, 16, 1298280334344292, 15, 11, 0x46cc2e1f2c99d84aa78382, 31⟩,
  ⟨24996878618012062, 14, 15723985854190128, 16, 1298280334344292, 15, 11, 0xacb22648c9dd5ac55c297f, 250⟩,
  ⟨3703978440445451, 13, 15723985854190128, 16, 1298280334344292, 15, 22, 0x8caddcc287616f8cb7e3bd841ba1796fd34b7223574d, 372⟩,
  ⟨-25404778247333428, 14, 15688625261522047, 16, 1298280334344292, 15, 11, 0x0620abe9675b86cc43171c, -250⟩,
  ⟨-12053111122343374, 14, 15688625261522047, 16, 1298280334344292, 15, 11, 0x74346d8f2bf43c52d6e101, -119⟩,
  ⟨-13620289410667672, 14, 15652391263580334, 16, 1298280334344292, 15, 55, 0x4560944131aec7a8cf2ed37dfd325e6068a917fbc3f95d0632a26db9e21133d4c71231713b29e72f549b17fc1e45c72bb849be1c60494e, -133⟩,
  ⟨-6768799869272368, 13, 15652391263580334, 16, 1298280334344292, 15, 11, 0xb996c1981f3db9b3127fa8, -676⟩,
  ⟨-46265277867913476, 15, 15688577018933159, 16, 1298280334344292, 15, 11, 0xa4c3d9b230d485b395566b, -47⟩,
  ⟨13212457408812867, 15, 15688577018933159, 16, 1298280334344292, 15, 22, 0x8296390aadb482591df5f4d1efd673e2a38ce08984cd, 13⟩,
  ⟨6441423530533993, 14, 1565233655355409, 15, 1298280334344292, 15, 11, 0x37b3fb0f684e0a1413f64e, 62⟩,
  ⟨-5579955867230594, 14, 1565233655355409, 15, 1298280334344292, 15, 11, 0x433426ce83f6cf7559ca6f, -58⟩,
  ⟨4905055756298009, 13, 1566168887374575, 15, 1298280334344292, 15, 22, 0xb32ab546288a71428be5dac0b634e7b57ac610d92bb5, 491⟩,
  ⟨11572971589230599, 14, 1566168887374575, 15, 1298280334344292, 15, 11, 0x7221fefce28731e1460618, 114⟩,
  ⟨-9852521662758187, 14, 15617419985703638, 16, 1298280334344292, 15, 33, 0xc108cc5035a8fc95401dfaf566e43dd7f6c9a99f33cf9e9c25ba01e625fe30f17d, -97⟩,
  ⟨-3586381346414065, 13, 15617419985703638, 16, 1298280334344292, 15, 22, 0x3e8b4198d897eac2b9619d37c475678875410e52e214, -361⟩,
  ⟨-48661532481682644, 14, 15660641747741373, 16, 1298280334344292, 15, 11, 0xfa689669ad57079e21b890, -487⟩,
  ⟨-42547486123797086, 14, 15660641747741373, 16, 1298280334344292, 15, 33, 0x08d1ed907a1325728908bc4f810facfaeb16f2a9958ebef6924ed2653e9a0add10, -425⟩,
  ⟨6438484341512327, 13, 15616513394911231, 16, 1298280334344292, 15, 11, 0xd50a6dae0d7e3ddb04cdd2, 644⟩,
  ⟨3547113316869343, 13, 15616513394911231, 16, 1298280334344292, 15, 44, 0xbd8b1021b99fe4bc7bb8f227fe43e90b9e0cf5fce6c8355c0187bb5663d736c0994c3c7422a25c8a4783dd62, 357⟩,
  ⟨28408642956410387, 14, 15594544621161035, 16, 1298280334344292, 15, 44, 0x47119deeb9250bdfe9fbffda9282dfede8460a6b6fe18c198f147c6e74e4497b80ef284b14fe7ef5054be2c4, 284⟩,
  ⟨-1438493494952794, 13, 15594544621161035, 16, 1298280334344292, 15, 22, 0x7934cc43f02702050a61a4d29957ce0344e9f3f84881, -144⟩,
  ⟨-3601305414819711, 13, 15558012153292933, 16, 1298280334344292, 15, 11, 0x632a3deabda08971a7fdb4, -359⟩,
  ⟨-32686763562341037, 14, 15558012153292933, 16, 1298280334344292, 15, 11, 0xc9a18ba8c10f9ae3461b56, -326⟩,
  ⟨-5282277258175545, 13, 1559450911601384, 15, 1298280334344292, 15, 33, 0xa00431fbc192044e2ce4e651c7d2ce95026138d777ba10b589d4c9c5d647c2fe29, -532⟩,
  ⟨-2032419238869824, 13, 1559450911601384, 15, 1298280334344292, 15, 22, 0xc2a788f2323fc44ce6e6d63465e80b5e3fe4540e142d, -206⟩,
  ⟨5516676807632317, 13, 15557973732566923, 16, 1298280334344292, 15, 22, 0x14141a137572c7310c5c8c4cc462861a92551ea5532f, 554⟩,
  ⟨-19932499933429168, 14, 15557973732566923, 16, 1298280334344292, 15, 11, 0x41222a665327b8dfe9c021, -202⟩,
  ⟨-17544533909591672, 14, 15629062028359968, 16, 1298280334344292, 15, 11, 0x3bfb6e97635f63daebf45e, -178⟩,
  ⟨-3306521040444437, 13, 15629062028359968, 16, 1298280334344292, 15, 22, 0x0c47ef7333e5db4f83c2bbb1de676af3a0946351d628, -331⟩,
  ⟨11518820722740308, 14, 1558602667811561, 15, 1298280334344292, 15, 22, 0x3da6de2553843a54d920addc7bc410bf4d6dabcbc079, 115⟩,
  ⟨17052703705950667, 16, 1558602667811561, 15, 1298280334344292, 15, 22, 0x343020cabfc94c8e7fa8f8de3fea12782385c058f593, 2⟩,
  ⟨-38265095342032413, 14, 15627827971092165, 16, 1298280334344292, 15, 11, 0x96182c93c58a083ce1ae51, -384⟩,
  ⟨10715924281189808, 14, 15627827971092165, 16, 1298280334344292, 15, 11, 0x535b533ed381cff7aa4137, 110⟩,
  ⟨4807812656712166, 13, 1558486796028951, 15, 1298280334344292, 15, 11, 0x18a6eda42f17cb0bd58131, 484⟩,
  ⟨-18725052308954298, 14, 1558486796028951, 15, 1298280334344292, 15, 11, 0xc43ba4513e466ab3cb784a, -188⟩,
  ⟨-4202957410814512, 13, 1555171663783908, 15, 1298280334344292, 15, 11, 0xfa7c60ffe2e14993a3817f, -420⟩,
  ⟨-17795976569885025, 14, 1555171663783908, 15, 1298280334344292, 15, 11, 0xab666daaa6b3efe005f49c, -178⟩,
  ⟨20763607722032685, 14, 15515688555103837, 16, 1298280334344292, 15, 11, 0x65d70dcda3116aa012367a, 206⟩,
  ⟨11322853782459497, 15, 15515688555103837, 16, 1298280334344292, 15, 44, 0x4c11bbb8c7c8390e48fb68019f778614681165600e9a365726c0512a118124799ea8df645072bff038cebd25, 12⟩,
  ⟨-4346763468871669, 13, 15551286533035384, 16, 1298280334344292, 15, 22, 0x6dbd8aa2f49eaa1a797ec1aed542f72f0dd0ec381075, -435⟩,
  ⟨-2726712788978299, 13, 15551286533035384, 16, 1298280334344292, 15, 11, 0xa99b64c23e18c040862259, -273⟩,
  ⟨34567656529773465, 15, 15515196843253545, 16, 1298280334344292, 15, 11, 0x28a0c300414e1c40bcfe1e, 32⟩,
  ⟨-2387360376240363, 13, 15515196843253545, 16, 1298280334344292, 15, 11, 0x3cafd5ab8cef717d49b470, -241⟩,
  ⟨-4334384335705879, 13, 15537859419450828, 16, 1298280334344292, 15, 33, 0x26f821e7dec5fd210e4aa1381bacbdcd0e01ab9c75fdd9d973707e56175d778678, -434⟩,
  ⟨-12405400531520874, 14, 15537859419450828, 16, 1298280334344292, 15, 22, 0xd69b1b7e4766cfcfff83e5d348060b51af85c917ada1, -124⟩,
  ⟨21987016086036652, 14, 1549356677512246, 15, 1298280334344292, 15, 33, 0x7cf674883d2ed2e46404952c0d7e6cb33b754e8c1da8c960e19edb6e84922e5450, 219⟩,
  ⟨-6303396516129817, 13, 1549356677512246, 15, 1298280334344292, 15, 44, 0x2876456edb5561a907806cb3a7bc030208c9718359dd28c85d6824a7d2c5e67a94fa6edd4f24af6fa4234f1b, -630⟩,
  ⟨-4884698816023472, 13, 15536649141845194, 16, 1298280334344292, 15, 22, 0xeaa55206735149802bacde62dc0387f76ac86e93c414, -490⟩,
  ⟨7317455925721285, 14, 15536649141845194, 16, 1298280334344292, 15, 22, 0x53da9aa3c0d87f2529fff1db3d055a59866a4548253f, 74⟩,
  ⟨2317440919321654, 13, 1549243492135395, 15, 1298280334344292, 15, 11, 0x4e4dc35ea3869121959f46, 234⟩,
  ⟨-25348320508660933, 14, 1549243492135395, 15, 1298280334344292, 15, 22, 0x175e021fa7dec288781f9bf0012f4bd45b415c1f1180, -253⟩,
  ⟨-3673825221188973, 13, 15471777513083582, 16, 12982803343442921, 16, 11, 0xa933f1f72f984c2eec4db6, -367⟩,
  ⟨11291932073467098, 14, 15471777513083582, 16, 12982803343442921, 16, 66, 0x8dd8ac09f3e306f60c7c97e546c235042ee979fe7cf4d68c4003c866dd1a5ecbec449aa1c42594fe984ade9d0c3038d40d44ed8a437df65c521267def1ce3887591f, 114⟩,
  ⟨23467654105807793, 14, 15434304762652982, 16, 1298280334344292, 15, 11, 0xacaa2c7006ed7b450d741f, 234⟩,
  ⟨-5364457813676515, 13, 15434304762652982, 16, 1298280334344292, 15, 11, 0x57d0904a23788f8ac4f00f, -538⟩,
  ⟨-17887853257143854, 14, 15471390355583508, 16, 1298280334344292, 15, 33, 0x11f96d4a6c67a8b6332da77b656d40faff594b8c49e664026584f6e138bd124079, -180⟩,
  ⟨4175396552493308, 14, 15471390355583508, 16, 1298280334344292, 15, 44, 0x46f743b4c99d160ea738e7fda0167742cc1dedc0c5e8752af8f5bfeb9c94e899bcb7e7e5f8c33920023979b7, 42⟩,
  ⟨15424130566242084, 14, 15433861950394694, 16, 12982803343442917, 16, 22, 0x7c74247d0d6494f2c94fe517cfd09ceeaba73d9ecb13, 158⟩,
  ⟨-3168210679491124, 13, 15433861950394694, 16, 12982803343442917, 16, 33, 0x19d4551f885b6aecf909bc5fb83c286c1e7ed974b8f55d5c224cf52b35009dbf1d, -315⟩]

/-- tests/test_samplerz.cpp:11732-12377. -/
def kats1024_10 : List Kat := [
  ⟨27021566631939845, 14, 15407914386879316, 16, 1298280334344292, 15, 33, 0x4681ce8f53d402c40d3a9913e5882f12abf7bd65ba98aa978a0bcc49aed3c55989, 271⟩,
  ⟨21244971950086796, 14, 15407914386879316, 16, 1298280334344292, 15, 11, 0x76d26e8f9859ccb801ad01, 214⟩,
  ⟨20952301696789513, 14, 1535770305296587, 15, 1298280334344292, 15, 22, 0x1c54383b41113fd7503592f2519212f9f73359792b23, 210⟩,
  ⟨-21782003005688, 11, 1535770305296587, 15, 1298280334344292, 15, 22, 0x3149d553c230308d4f93a377460e99dd4619604d4b2e, -216⟩,
  ⟨-43819388473131136, 14, 1540446243638695, 15, 12982803343442921, 16, 11, 0x53a2686591c925186af314, -436⟩,
  ⟨170492409195353, 12, 1540446243638695, 15, 12982803343442921, 16, 11, 0xdb56317ea7c4014cd1c5bc, 171⟩,
  ⟨28763881463305154, 14, 15354626061336885, 16, 1298280334344292, 15, 11, 0xc58eb0889723631f96154f, 288⟩,
  ⟨-4603540282888189, 13, 15354626061336885, 16, 1298280334344292, 15, 11, 0xd4de538de22d180e09ce04, -461⟩,
  ⟨382890553311494, 13, 15337220248220584, 16, 1298280334344292, 15, 11, 0x7992c3c2b95e73208f8c2a, 37⟩,
  ⟨-3327855036408995, 13, 15337220248220584, 16, 1298280334344292, 15, 11, 0x238556df7e1c198e48f330, -330⟩,
  ⟨5185043477650321, 13, 15296544071983325, 16, 12982803343442917, 16, 33, 0x1128023c20d2097add569326e720ffa8b94928013d7d2c234a8efcdb10d6e5f210, 516⟩,
  ⟨-30827990663474264, 14, 15296544071983325, 16, 12982803343442917, 16, 33, 0x4503e497ff018bfafb20c95f10b3d00a859830ba36fbc27637f33770723513ae93, -309⟩,
  ⟨-23317078401585786, 14, 15336207933169745, 16, 1298280334344292, 15, 22, 0x598449de62e964c8d16087564b934068abdf74898b00, -232⟩,
  ⟨-28072277714793097, 14, 15336207933169745, 16, 1298280334344292, 15, 11, 0xffca79554af18463f95cab, -281⟩,
  ⟨7329077535903363, 13, 15295551081490233, 16, 1298280334344292, 15, 22, 0x080508761c28e8af2cd667b3561aad31d5e6f983c60a, 732⟩,
  ⟨5274017358272105, 14, 15295551081490233, 16, 1298280334344292, 15, 11, 0x0fcfead23ee9cab58a6354, 56⟩,
  ⟨50822212795749203, 14, 15360090566503983, 16, 1298280334344292, 15, 22, 0x3df21602d33f59277230e9b9b48bc187805bcc18531d, 509⟩,
  ⟨-53565528690798175, 15, 15360090566503983, 16, 1298280334344292, 15, 11, 0x95156279d84cad01ed7027, -55⟩,
  ⟨3058809897102989, 13, 15303257521125007, 16, 1298280334344292, 15, 55, 0x3ead396ba7684de89eda851b740eec735f578ad545f38678254a8e1a02af5b4ca87b9da652d81f965d4528adaee3bc67b07232243d2bd6, 306⟩,
  ⟨20554816987521156, 14, 15303257521125007, 16, 1298280334344292, 15, 55, 0x449fbfda3e803218589df9708f773c02c1d3b149adf92c5919832a8f6b873d2481b9f2c4ebcf2eaefd6ff6d5da4003525577074df9be87, 205⟩,
  ⟨-8433509065945638, 14, 1535686357486922, 15, 12982803343442921, 16, 11, 0xa085abc1bbb47e9c7bd82a, -86⟩,
  ⟨-2604407757749659, 13, 1535686357486922, 15, 12982803343442921, 16, 33, 0x669068c7c7c5c931a93faa4adcf62b5a24407f9ee86c62d56f8c4ecf9699d3ba89, -262⟩,
  ⟨3236499139848129, 13, 15300501433982745, 16, 1298280334344292, 15, 11, 0x73ea4a9a1a9da468119875, 322⟩,
  ⟨-17104625145407546, 15, 15300501433982745, 16, 1298280334344292, 15, 22, 0xd710a8fe5d936a35da39f6204e5f10be628a9bc2170a, -14⟩,
  ⟨15024175651263704, 14, 15290577073648945, 16, 1298280334344292, 15, 22, 0xc1d3e01f199c548d5872e7754f423fb2599694783174, 152⟩,
  ⟨16015269498767282, 14, 15290577073648945, 16, 1298280334344292, 15, 11, 0xb9a82f843b0b8895201b77, 161⟩,
  ⟨8990778637746091, 14, 15244200706060025, 16, 1298280334344292, 15, 11, 0xcc8763f7ddfc3467929a6b, 89⟩,
  ⟨-36692194593912376, 14, 15244200706060025, 16, 1298280334344292, 15, 11, 0x7265a301dd59133db89d39, -365⟩,
  ⟨7189521306566716, 14, 15289807516670981, 16, 1298280334344292, 15, 22, 0x5756f7f1df65c512daecfb4fe03a5a4a800b0d596a07, 69⟩,
  ⟨2695118020019622, 13, 15289807516670981, 16, 1298280334344292, 15, 11, 0xf48e3c93be3196a19f537a, 270⟩,
  ⟨7089611573599173, 13, 1524350186212107, 15, 1298280334344292, 15, 11, 0x7247e5ebea1f7e420e3504, 710⟩,
  ⟨42553943372147927, 14, 1524350186212107, 15, 1298280334344292, 15, 11, 0xec752ddbdf75d6ce63d34c, 426⟩,
  ⟨1363082729570232, 13, 1522419230946951, 15, 1298280334344292, 15, 22, 0x8627a838e6788ae3a5b9b29cf14ec1eb544315c3995c, 138⟩,
  ⟨-20187544615984874, 14, 1522419230946951, 15, 1298280334344292, 15, 22, 0xfb4fcc142aef1ba931c0f898f79ee2d30f581cee287c, -203⟩,
  ⟨-7340012137041275, 13, 15168133440699494, 16, 12982803343442917, 16, 22, 0x8d41ed34ff784f5b557cfa709c2e571d5c7ceea18333, -733⟩,
  ⟨-5128458453027993, 13, 15168133440699494, 16, 12982803343442917, 16, 33, 0x04af55a4e5cbc7208d5cd41ecef07ed99a481c8146b5c9471c9d1ce786d82c9939, -512⟩,
  ⟨-5683048688892636, 13, 152207107555942, 14, 1298280334344292, 15, 22, 0x294e434d40d9362ffdffa997689050c52cfd77b9bf0b, -567⟩,
  ⟨-19365606396212178, 14, 152207107555942, 14, 1298280334344292, 15, 11, 0x30a8547f508c2c9e47a739, -191⟩,
  ⟨5043340000126118, 13, 15164836487924191, 16, 12982803343442921, 16, 22, 0x9146e41a38858cc7592bf5d7b6662a4c665c4897d367, 505⟩,
  ⟨-19632103089707556, 14, 15164836487924191, 16, 12982803343442921, 16, 11, 0x33a2eebba8a1238127412a, -194⟩,
  ⟨-333900412445538, 13, 15165718075465295, 16, 1298280334344292, 15, 33, 0x2f50fa38bb0204f495967b124fa5df4dd2e6158153c1d84cd606d2104a9b70dc51, -34⟩,
  ⟨-11304985876788255, 13, 15165718075465295, 16, 1298280334344292, 15, 33, 0xf10f10085666df7d1ccfd50441d95f84d04509099a6888b4276518be282edb340c, -1132⟩,
  ⟨-6442116269196507, 14, 1511785054961316, 15, 1298280334344292, 15, 33, 0x7bc7b10df3755a2f0941ff3b909df57a6ed481881af2e7311bf7005269b77dda13, -65⟩,
  ⟨-8769661136579015, 13, 1511785054961316, 15, 1298280334344292, 15, 11, 0x2d1601940b921dae8f4a28, -879⟩,
  ⟨6349480967725323, 14, 15164052570845257, 16, 1298280334344292, 15, 11, 0xaeaf9ebdcb1906b2f410a9, 63⟩,
  ⟨11296907240117194, 14, 15164052570845257, 16, 1298280334344292, 15, 11, 0xb2d50c271f2e5efc6d9681, 112⟩,
  ⟨43637293081625256, 14, 15116097123037389, 16, 1298280334344292, 15, 11, 0x201e9f0caa0b69120ec426, 433⟩,
  ⟨-6390205875397659, 13, 15116097123037389, 16, 1298280334344292, 15, 11, 0xef91d610b2f22b5706e3d1, -639⟩,
  ⟨34866446575549946, 14, 15177399780518392, 16, 1298280334344292, 15, 11, 0xaa305bd92d7e2ba124aa49, 348⟩,
  ⟨21375623793173008, 14, 15177399780518392, 16, 1298280334344292, 15, 33, 0x337595d7c2e731c3d264a323f65449173a5a2dfb265e653a36941e914067087119, 215⟩,
  ⟨6358556297643459, 14, 15113915013054886, 16, 1298280334344292, 15, 11, 0xe1aea077fb5e26c0c7292c, 64⟩,
  ⟨-6758598652076203, 14, 15113915013054886, 16, 1298280334344292, 15, 12, 0xed5a56acbd58118a4aebcb23, -67⟩,
  ⟨-5775801770103171, 13, 15174172702251885, 16, 1298280334344292, 15, 11, 0xd5a5fc2a0b8ad07b960250, -578⟩,
  ⟨18459885645576185, 14, 15174172702251885, 16, 1298280334344292, 15, 22, 0x4df195400ac31f582250bbcfc39956b26e6912c6adc5, 185⟩,
  ⟨16872898385636682, 14, 1511091801678781, 15, 1298280334344292, 15, 11, 0xfbc25480f92686f7e01477, 168⟩,
  ⟨-49971048146929185, 15, 1511091801678781, 15, 1298280334344292, 15, 11, 0x62c551b2dfc2ab6076c6b5, -51⟩,
  ⟨-23732772704632447, 14, 15120109709845369, 16, 1298280334344292, 15, 11, 0xab578b7cfa99f33e59e60d, -238⟩,
  ⟨-9144342537196597, 14, 15120109709845369, 16, 1298280334344292, 15, 22, 0x6fd3b0cec45993fcb03fbb65bd90c9d6f33209933f1a, -90⟩,
  ⟨-2421101019464242, 13, 15065586531047837, 16, 1298280334344292, 15, 11, 0x69be52bfcac2f95f074185, -241⟩,
  ⟨-16796946189221404, 14, 15065586531047837, 16, 1298280334344292, 15, 11, 0x284deb4487efefdebac080, -170⟩,
  ⟨-7483722752134324, 14, 15118643954240838, 16, 1298280334344292, 15, 11, 0xef0e46bbd73ee190fff631, -75⟩,
  ⟨14758813430375108, 14, 15118643954240838, 16, 1298280334344292, 15, 11, 0x6e0102b8d98ac46701b748, 149⟩,
  ⟨-9920827783448786, 14, 15064054552144317, 16, 1298280334344292, 15, 11, 0xbeac72e5ced8c56b1a618c, -99⟩,
  ⟨-1518791875113515, 13, 15064054552144317, 16, 1298280334344292, 15, 11, 0x96c0964376f5ed405a5414, -153⟩,
  ⟨2651900939951517, 13, 15037348620526199, 16, 1298280334344292, 15, 11, 0x6a9306250bc0cea181b689, 264⟩,
  ⟨-300565570289923, 13, 15037348620526199, 16, 1298280334344292, 15, 22, 0x45d7de8c092f56a51f56e78b3a062a6d303c96aa8049, -32⟩,
  ⟨-40370677461710824, 14, 14998210946403268, 16, 1298280334344292, 15, 11, 0x9badb377651d8207d6b107, -402⟩,
  ⟨-20727342712293094, 14, 14998210946403268, 16, 1298280334344292, 15, 11, 0x625497a0681af49e897b47, -206⟩,
  ⟨1713370336430926, 13, 15026193948663618, 16, 1298280334344292, 15, 22, 0x646b1246750c36dcdc199332f539e04c114d24affc49, 169⟩,
  ⟨-19761809409346998, 14, 15026193948663618, 16, 1298280334344292, 15, 11, 0xb43dd98067d24c55a64503, -197⟩,
  ⟨-13803713083542564, 14, 14987875337862084, 16, 1298280334344292, 15, 11, 0xba5a9c3beef0cd14725f07, -138⟩,
  ⟨-3829592763015566, 13, 14987875337862084, 16, 1298280334344292, 15, 11, 0x2e96495fa8d9e27fe25235, -385⟩,
  ⟨2665570154640414, 13, 14973089497586456, 16, 1298280334344292, 15, 11, 0x2777ead630fbe6987a210b, 269⟩,
  ⟨-2480335995081304, 13, 14973089497586456, 16, 1298280334344292, 15, 33, 0x6be9d7e820dd6e16056fed493a335b4f869fec3196c5db68d16f59359f02483fc9, -248⟩,
  ⟨-16721151535821036, 14, 14940680328406062, 16, 1298280334344292, 15, 11, 0xdd75a6f7ae501d4fb71783, -167⟩,
  ⟨-2835762513288412, 13, 14940680328406062, 16, 1298280334344292, 15, 11, 0x6e2466f46ae043cbfd4592, -282⟩,
  ⟨-13946182358330998, 14, 14965627873282683, 16, 1298280334344292, 15, 11, 0x999affedc1eda002525d2c, -138⟩,
  ⟨-10590364186804823, 14, 14965627873282683, 16, 1298280334344292, 15, 11, 0x55e0903ecadafbcd555b62, -104⟩,
  ⟨1800009341393856, 13, 14933555553327023, 16, 1298280334344292, 15, 22, 0x1b47e3336ff2c94a42b7eb8f3f949283bc9d19faf949, 182⟩,
  ⟨-45477914985696526, 14, 14933555553327023, 16, 1298280334344292, 15, 11, 0x76b12400d331766b80de65, -456⟩,
  ⟨15468683654217082, 14, 14987537927066685, 16, 1298280334344292, 15, 11, 0xc9b00c41d2944d6739e0b0, 154⟩,
  ⟨-34995892118658276, 14, 14987537927066685, 16, 1298280334344292, 15, 11, 0xc1d39f49645bbde42c0d06, -349⟩,
  ⟨31484035619308236, 14, 14942688314160133, 16, 1298280334344292, 15, 11, 0xe542c83a98735d4e2ccc4f, 314⟩,
  ⟨-20781085480111295, 14, 14942688314160133, 16, 1298280334344292, 15, 11, 0x957d8ada389e2830f04e06, -209⟩,
  ⟨-3697190054984205, 13, 14977556718771692, 16, 1298280334344292, 15, 11, 0x1f60d43a7a9c1e39a0090c, -366⟩,
  ⟨-7441393621736609, 15, 14977556718771692, 16, 1298280334344292, 15, 11, 0xf99d7d7c6783fb2d1695d1, -7⟩,
  ⟨8277936272544584, 13, 1493365622525407, 15, 12982803343442917, 16, 11, 0x74ce24e457cb3a336e8b8d, 829⟩,
  ⟨4946832702284121, 13, 1493365622525407, 15, 12982803343442917, 16, 11, 0x2d426821564d78246fde32, 492⟩,
  ⟨-5285599698361705, 14, 14926885273715054, 16, 1298280334344292, 15, 22, 0xdfcaba2fc98fb2c6af1ef9732e830f3fe1bb3b3c647a, -54⟩,
  ⟨-6974275007347002, 13, 14926885273715054, 16, 1298280334344292, 15, 11, 0xb070828cec9cd78fa88654, -698⟩,
  ⟨-17930486557929558, 14, 14889575525005416, 16, 1298280334344292, 15, 11, 0x3b8a2ff4cdabfa0a327d38, -177⟩,
  ⟨1442862717215137, 13, 14889575525005416, 16, 1298280334344292, 15, 11, 0xb78daa236919845f6458d3, 144⟩,
  ⟨6787644869225113, 14, 14920342775953883, 16, 1298280334344292, 15, 11, 0x3ca6db8bb1dd96bda70018, 65⟩,
  ⟨-36970942566381034, 15, 14920342775953883, 16, 1298280334344292, 15, 22, 0xb27bb77f0ff14c22984af44dc587ecf78fdce03cb919, -34⟩,
  ⟨12255097746815292, 14, 14883467073045247, 16, 12982803343442921, 16, 11, 0x10021e0020a1c101013916, 126⟩,
  ⟨-2196219535665882, 13, 14883467073045247, 16, 12982803343442921, 16, 22, 0x7b3092c813405e327bd2eb25c6b17bdf14fc10a25e1f, -222⟩,
  ⟨23017947100840226, 14, 14892833344464314, 16, 1298280334344292, 15, 11, 0x94c74d90d03cf2d9eb3e23, 229⟩,
  ⟨-11087181438124182, 14, 14892833344464314, 16, 1298280334344292, 15, 22, 0x1d75f1dc330136bf54e270adfe99b9180221d82c16c0, -111⟩,
  ⟨8416032010635352, 14, 14846931924501483, 16, 1298280334344292, 15, 11, 0xddb2c13942e9a29aba133b, 85⟩,
  ⟨-3870370819115982, 13, 14846931924501483, 16, 1298280334344292, 15, 11, 0x1ec0d5503c963b21804d05, -384⟩,
  ⟨-40684810314925153, 14, 1488093004247472, 15, 1298280334344292, 15, 44, 0x3fd3bf7edc6c9313e019c53bdf01f8e918bd969a0fdd23f7fdda0a48772d3bb3efb01208ee5993cb5d65da9b, -407⟩,
  ⟨-2423877020965341, 13, 1488093004247472, 15, 1298280334344292, 15, 11, 0xd73fa9b4a46d914293511c, -242⟩,
  ⟨6005753420960679, 13, 14835461112834456, 16, 1298280334344292, 15, 11, 0x9bd33d395ca10e2bfcc714, 602⟩,
  ⟨26206186783567, 11, 14835461112834456, 16, 1298280334344292, 15, 11, 0x75eeddeb23744e4adcac00, 261⟩,
  ⟨-2087178970433505, 13, 14833221318914271, 16, 12982803343442917, 16, 11, 0xe25e2fbc4b892e710f7713, -208⟩,
  ⟨55955942402607036, 15, 14833221318914271, 16, 12982803343442917, 16, 22, 0x06ca87645b6a6df0294fe00e8a509bf0215aada6073c, 59⟩,
  ⟨3492067558978929, 14, 14793347692410648, 16, 12982803343442917, 16, 11, 0xe049d45fa4930ecb52bbb8, 35⟩,
  ⟨-10763775352404238, 14, 14793347692410648, 16, 12982803343442917, 16, 11, 0xf46265282067793d46a94a, -107⟩,
  ⟨-40264964396299354, 14, 14823906218855323, 16, 1298280334344292, 15, 11, 0xea63a6fd2304027d804d3b, -402⟩,
  ⟨-377470240490588, 12, 14823906218855323, 16, 1298280334344292, 15, 22, 0x4c39d3c789c12d7d857e6a8da88d793145ad25dab550, -376⟩,
  ⟨-19324439158663742, 14, 14784049708719698, 16, 12982803343442917, 16, 22, 0x0f34648fb6ab860fa64c4ca23234b52c5299355b3680, -195⟩,
  ⟨-2665413180383294, 13, 14784049708719698, 16, 12982803343442917, 16, 11, 0x6387a0962db49cbeee3955, -265⟩,
  ⟨44073636112197903, 14, 14849599151068624, 16, 1298280334344292, 15, 11, 0xaa4f153ddfc55d1423ca0a, 440⟩,
  ⟨-11070515382888144, 14, 14849599151068624, 16, 1298280334344292, 15, 44, 0x39888283007d0bdf2886c4188d1fe503f8e508c3a53422ea87022db50f942abae0d8fc5fad9ae94c1d32cd7c, -110⟩,
  ⟨-1326869750627145, 13, 14798434638696072, 16, 1298280334344292, 15, 55, 0x29fcb79c268a5c59bbe7ac50d588241823c44f6178a707b1d8e59461770da66f79088a7147fc709be474553ae587aa05aed8134575714e, -132⟩,
  ⟨-3556033281973819, 13, 14798434638696072, 16, 1298280334344292, 15, 11, 0xd354d7421ce735f24185b0, -355⟩,
  ⟨-32100045819402595, 14, 14838822374950038, 16, 1298280334344292, 15, 11, 0xceb88c5cb743f94f996da0, -321⟩,
  ⟨1398595406453028, 13, 14838822374950038, 16, 1298280334344292, 15, 11, 0xcd8f4ee9ca60b6d0124b39, 140⟩,
  ⟨18983080466756505, 14, 1478821599350496, 15, 1298280334344292, 15, 24, 0x01ef72b77d50922f5a29eeb39f87c89946e023356ebfef3d, 189⟩,
  ⟨-19408769252960505, 14, 1478821599350496, 15, 1298280334344292, 15, 11, 0xe2aa00c18ce3849946051e, -194⟩,
  ⟨3278741281266712, 13, 14793031630055682, 16, 1298280334344292, 15, 22, 0x3813e5919c6b05ae8e6fecac7d198906c7b89891a340, 328⟩,
  ⟨233516446158352, 13, 14793031630055682, 16, 1298280334344292, 15, 44, 0xe25ecf18d0298edf9545d62777fe1b685f2abd78369938583c9f06d671e0bd60d3735bdf77f759eb10b46005, 22⟩,
  ⟨-11295583524118786, 14, 1474857148095191, 15, 1298280334344292, 15, 11, 0x81bccd84dda926e127e905, -111⟩,
  ⟨-15901884649898307, 14, 1474857148095191, 15, 1298280334344292, 15, 22, 0x0cdaffeeab1302f95d049e30ea841dfa08b456e45973, -157⟩,
  ⟨-18015955361655728, 14, 1478470620230896, 15, 1298280334344292, 15, 11, 0xcbb556bf31ef051cfaddb4, -180⟩,
  ⟨-14886830990744687, 14, 1478470620230896, 15, 1298280334344292, 15, 22, 0x094afe15174952f798bd124f6336a0d3c5e68a377c8d, -151⟩,
  ⟨-7344997701145058, 14, 14740373130566535, 16, 1298280334344292, 15, 33, 0x801798f166edd35bda9bbe1287731ce8381d6bb393c04272840d01be32ab822e0e, -76⟩,
  ⟨-23302701023221232, 14, 14740373130566535, 16, 1298280334344292, 15, 33, 0xbc7e769f0280ce264f74c59c23ea16d6c93829c71e92a4f0bd700bf0cbf5a6e5b5, -233⟩]

/-- tests/test_samplerz.cpp:12378-13027. -/
def kats1024_11 : List Kat := [
  ⟨-5596751060659507, 15, 1489334096345079, 15, 1298280334344292, 15, 11, 0xa0088129d2d71d0800dd17, -4⟩,
  ⟨7063460549851848, 14, 1489334096345079, 15, 1298280334344292, 15, 22, 0x49760a91e2a77a4b7b2c579812a5fff6866cd672f225, 69⟩,
  ⟨-2985802634768015, 15, 14861979176098594, 16, 12982803343442921, 16, 11, 0x69534c869cb02a87e8f263, -4⟩,
  ⟨-23763156003529764, 14, 14861979176098594, 16, 12982803343442921, 16, 22, 0x0d55f8a44468ea943c5dc8170b66e424b5dd990d0637, -241⟩,
  ⟨-4222454629325712, 13, 14886735635801325, 16, 1298280334344292, 15, 11, 0x9e1d3bd1a985ea0374451a, -421⟩,
  ⟨5881903089815384, 14, 14886735635801325, 16, 1298280334344292, 15, 11, 0xe60e2937dd99198138ef79, 59⟩,
  ⟨-39258362048282845, 14, 14855881185513449, 16, 1298280334344292, 15, 11, 0x528cbcbc9ec67d2df5bc0f, -395⟩,
  ⟨41540130101815464, 14, 14855881185513449, 16, 1298280334344292, 15, 11, 0xbf9719415a9386ef1e9732, 416⟩,
  ⟨-18130903503110855, 14, 14825205243496442, 16, 12982803343442921, 16, 11, 0x2fbbf50b92ac97a6c8e16d, -179⟩,
  ⟨-11422446541110847, 14, 14825205243496442, 16, 12982803343442921, 16, 11, 0x31511ec68cd34e75758513, -112⟩,
  ⟨-14586702691356958, 15, 14800990098474636, 16, 1298280334344292, 15, 11, 0x954ed053a06c57a55e4939, -13⟩,
  ⟨-5818398424416312, 13, 14800990098474636, 16, 1298280334344292, 15, 11, 0x7286a739739f74bce61041, -583⟩,
  ⟨-3440223663227472, 14, 14822398776666188, 16, 1298280334344292, 15, 11, 0x6e9ef2d93d82c6e330ac25, -36⟩,
  ⟨-18276667418358102, 14, 14822398776666188, 16, 1298280334344292, 15, 11, 0x6f88fb8361e52ac33c1174, -181⟩,
  ⟨16259357156441718, 14, 14798244220596921, 16, 1298280334344292, 15, 22, 0xebcdc3f0a0065a48f24af1c822e286b16d4cd7dd31c3, 163⟩,
  ⟨-23285557048323835, 14, 14798244220596921, 16, 1298280334344292, 15, 55, 0xa308d7516d09df29ee69ca22ab1772d22882b1be616a761572dd4beb444987c59f3b1f386e5195b1facc556972a09fc936b828bc26bf46, -231⟩,
  ⟨3799982639759189, 13, 14833862130567255, 16, 1298280334344292, 15, 22, 0xea77b77a595106e1e9d1f78eb57b43fbb5970e1ba7be, 381⟩,
  ⟨-1810711966581432, 13, 14833862130567255, 16, 1298280334344292, 15, 33, 0x1836460dbaf20ba55eebe6089d1a7e4b61dfb77feddba375c4d602ef3ad4d1882e, -183⟩,
  ⟨7100845298221149, 15, 14798664888795157, 16, 12982803343442917, 16, 22, 0x63321ede2455b73f5c6cc9f00abca954585407efc8cc, 7⟩,
  ⟨-35156253570362315, 14, 14798664888795157, 16, 12982803343442917, 16, 11, 0xebd39e8d75bda6474ea611, -352⟩,
  ⟨-31656472853388, 11, 14827774705115744, 16, 12982803343442917, 16, 11, 0xd4a6b07bd95baf1ab1c71b, -316⟩,
  ⟨5374715692698288, 14, 14827774705115744, 16, 12982803343442917, 16, 22, 0x3aac3fafab81fa09904db85191aaba2dfeb1b5dac503, 56⟩,
  ⟨8522435521696987, 14, 1479313515620815, 15, 12982803343442921, 16, 33, 0x4981f5c15295d48f1da17d569b0d1ec7aab79c54ccef4dac9e5beb468eb0052b22, 88⟩,
  ⟨32581335032636595, 15, 1479313515620815, 15, 12982803343442921, 16, 11, 0xd5256eaf6bcbc6e7127f15, 33⟩,
  ⟨42063332108697665, 14, 14769989623972721, 16, 1298280334344292, 15, 22, 0x284ebc626a4a18c5c4be8711eacc54166906b3662812, 417⟩,
  ⟨2844658993867983, 13, 14769989623972721, 16, 1298280334344292, 15, 11, 0xf1e50171a80aa133650f0b, 285⟩,
  ⟨-4780892329138663, 14, 14742322007055968, 16, 1298280334344292, 15, 11, 0xe491674cfc2bb045a8d288, -48⟩,
  ⟨-53738811913833764, 15, 14742322007055968, 16, 1298280334344292, 15, 22, 0xbd9bbaa836613dd64e65ed5d3a14766f85e9c01838b3, -55⟩,
  ⟨-2459363848544865, 13, 1476745278001154, 15, 1298280334344292, 15, 33, 0xf9544d6610816e641f15f80a17ceb5c308192d41a51d55a4d09f8d0237de1304c4, -247⟩,
  ⟨-5212709758450533, 13, 1476745278001154, 15, 1298280334344292, 15, 11, 0xbe3020e4d1fb23fdecef38, -521⟩,
  ⟨-16415988776834956, 14, 14739881278555877, 16, 12982803343442921, 16, 22, 0xcf2bc5c2005af45cf52ee05c038c6c110e467ec9e7ac, -163⟩,
  ⟨-3135475403168975, 13, 14739881278555877, 16, 12982803343442921, 16, 11, 0xd6c6f4a025c46b56f99099, -314⟩,
  ⟨6432168944384239, 14, 14771055623210982, 16, 1298280334344292, 15, 55, 0x03ec42e1cd9ac68f425f1f88d3305fdaa7d173c3e3cf5becc4141e1a7650aa74ed6352f85e6249189014d3a670fe3d119c748729d4bb4f, 66⟩,
  ⟨-4364959190011761, 13, 14771055623210982, 16, 1298280334344292, 15, 22, 0xbeb9956b57ad0c080c55e66197d18a76df7eb0e67202, -438⟩,
  ⟨-7944903563079977, 14, 14735277923136427, 16, 1298280334344292, 15, 11, 0x8fe8de96b691228c38df09, -78⟩,
  ⟨7980940964268684, 14, 14735277923136427, 16, 1298280334344292, 15, 11, 0xaa75bd7af99b8d92447a34, 79⟩,
  ⟨23548126129952027, 14, 1476482967368448, 15, 1298280334344292, 15, 11, 0x0eef900bc2bb7215265f1c, 239⟩,
  ⟨4389821397659799, 13, 1476482967368448, 15, 1298280334344292, 15, 11, 0x75e6e7eed12831a8d57510, 440⟩,
  ⟨-22695071741393434, 15, 14729364625579553, 16, 12982803343442921, 16, 11, 0x6b7168672897603ae5d06e, -24⟩,
  ⟨-3288860325707242, 13, 14729364625579553, 16, 12982803343442921, 16, 77, 0x3e5fde6056f960cb9014f056374252bd4cb82992b9efb13a45972ecd43ea5dbdf746efce9b0fe5b77e5a71cd3cc5b9ab6a810372bc29de0c105eefd3604c83d26e88f963a36a17ab2ac8fadc25, -329⟩,
  ⟨232629055865474, 12, 14707421599041348, 16, 1298280334344292, 15, 11, 0x9416298da979c992041a58, 231⟩,
  ⟨-31459395761507255, 14, 14707421599041348, 16, 1298280334344292, 15, 22, 0x50198ecc1f9d7227ec5ecc463343ada7fb28ed3aad01, -312⟩,
  ⟨5591862382862099, 14, 14678643240674705, 16, 1298280334344292, 15, 11, 0xeca665b08938bbb1be506d, 55⟩,
  ⟨-4475124143008334, 13, 14678643240674705, 16, 1298280334344292, 15, 11, 0xeb9154f1184ef38b3d8896, -448⟩,
  ⟨-1560157963502928, 13, 14704345897057594, 16, 1298280334344292, 15, 11, 0x8ca0217ea1e64fce06c5b8, -155⟩,
  ⟨-3151041282847766, 13, 14704345897057594, 16, 1298280334344292, 15, 22, 0x30633a8f102638e889209da7cd27551769c9f59f5637, -316⟩,
  ⟨38344614237931245, 14, 14675501750205455, 16, 1298280334344292, 15, 55, 0x01dcd0e81402d91e16f4992b9ac9129d42ed5973c4d1102c4326aefe82e47a80c862dc1edbd0f79877ab5cb72bb711d2ab5339f192af4d, 386⟩,
  ⟨-33188820430716106, 14, 14675501750205455, 16, 1298280334344292, 15, 22, 0x20133ba0f61b7df8826ef1aec8efcf2ff3121262fe9f, -332⟩,
  ⟨6780856856740243, 13, 14711142748683521, 16, 1298280334344292, 15, 11, 0x41e2d5f8709075c7c2cb0a, 681⟩,
  ⟨21774139999346858, 16, 14711142748683521, 16, 1298280334344292, 15, 22, 0x4509810c434aed9e4056afeab2ce2d479ec8eeef645d, 2⟩,
  ⟨-24615059983950175, 15, 14670397362393393, 16, 1298280334344292, 15, 11, 0xb7f670bf3be0bbd4f30375, -24⟩,
  ⟨-1947863405466588, 13, 14670397362393393, 16, 1298280334344292, 15, 11, 0xcbfd1865fdad60ffe48032, -195⟩,
  ⟨-27125547255983783, 15, 14705110961633272, 16, 1298280334344292, 15, 33, 0x0ffcf248350861b8b6668c09c544526b1c58797e4a942c8727bfbd899f0e9e6203, -30⟩,
  ⟨13070783265282586, 14, 14705110961633272, 16, 1298280334344292, 15, 11, 0xd0130504e4d2b837870028, 130⟩,
  ⟨6193667691194946, 13, 14664676518087891, 16, 1298280334344292, 15, 11, 0xe07a51308b315c487e57a2, 620⟩,
  ⟨-373727096294839, 14, 14664676518087891, 16, 1298280334344292, 15, 22, 0x391f0374e03ad2f114109a2d7ca0ee6732bfe691c53c, -1⟩,
  ⟨-50329098821917256, 14, 14651064943424927, 16, 1298280334344292, 15, 11, 0x8feea7b6ff732266160d65, -502⟩,
  ⟨10521688648270668, 14, 14651064943424927, 16, 1298280334344292, 15, 22, 0x5ebeb2d96dbf330ec28f87b0c5666b2bbe5d02f866ce, 105⟩,
  ⟨-1550876671702151, 13, 14617710632226848, 16, 1298280334344292, 15, 22, 0x81e4f7a10987e94f76668ce4c368dd846576c5184b0b, -155⟩,
  ⟨5426521535402914, 14, 14617710632226848, 16, 1298280334344292, 15, 11, 0x66f2a497f5e5bffe612503, 56⟩,
  ⟨-38284585396732956, 14, 14647962932319083, 16, 12982803343442917, 16, 11, 0x845356cf9ddf0e571580ae, -384⟩,
  ⟨14616781045141187, 14, 14647962932319083, 16, 12982803343442917, 16, 11, 0xe0a0dafbd971b02a6b8f4e, 147⟩,
  ⟨4811307232122439, 14, 14614528047625535, 16, 1298280334344292, 15, 22, 0x095c64cf2f70c944f0a47ac78596b1666f33bb528525, 49⟩,
  ⟨-10478115377982246, 14, 14614528047625535, 16, 1298280334344292, 15, 22, 0x3f1536d42242987bc7e5e4382a77c8278c740b05441d, -107⟩,
  ⟨4901934470606934, 13, 14598609830446707, 16, 12982803343442921, 16, 11, 0x0a7762bc823c1952a5480e, 486⟩,
  ⟨-3835824740935343, 13, 14598609830446707, 16, 12982803343442921, 16, 33, 0x32077e706a77f3247dffe84eefb31e75b0748881f38211e91c8ede10c7a6126119, -380⟩,
  ⟨5564748941464285, 14, 14566858297136387, 16, 1298280334344292, 15, 22, 0x850a5ebea7bd86385a05af37d26f6fa783af91e05e15, 53⟩,
  ⟨-42058705251545155, 14, 14566858297136387, 16, 1298280334344292, 15, 11, 0xd9a82f4d7465681f0cf83f, -421⟩,
  ⟨-1211419930946266, 13, 14583948891080458, 16, 1298280334344292, 15, 44, 0xc5075b5198b0dd70bf0adb04feaae4fa9f03ab6e9bc2c86735c6580fbe39dff6fe5c341afa9eea5cff702818, -123⟩,
  ⟨17075629800813456, 14, 14583948891080458, 16, 1298280334344292, 15, 33, 0x284fd744ee9ae7487829e4998fd691623d26b30917c4c6abe035e7acc7ce33a58e, 171⟩,
  ⟨3385740141471117, 13, 14553087111094727, 16, 1298280334344292, 15, 11, 0xf290209e58b2454577ce18, 338⟩,
  ⟨1031499962571605, 13, 14553087111094727, 16, 1298280334344292, 15, 22, 0x8da4db7fd8bb5f2dd93cc4c7b01722679cac45c50d8a, 104⟩,
  ⟨-6100323730026878, 14, 14530548468829985, 16, 1298280334344292, 15, 11, 0xf4aa98091bef9793f2476e, -61⟩,
  ⟨-4855211342523543, 13, 14530548468829985, 16, 1298280334344292, 15, 11, 0xfb38f8656de42be368884a, -486⟩,
  ⟨-3911765676205394, 14, 1450435906026111, 15, 1298280334344292, 15, 11, 0xf84c606069815f1cf55953, -39⟩,
  ⟨-5022517042160334, 13, 1450435906026111, 15, 1298280334344292, 15, 11, 0x276906acd60ed9f9ded973, -500⟩,
  ⟨-22191217973438683, 15, 14520939539496804, 16, 1298280334344292, 15, 22, 0x2d641636c5e4a70755fc9eead39067e72fc2406c079d, -22⟩,
  ⟨-20700820643001344, 14, 14520939539496804, 16, 1298280334344292, 15, 22, 0x61939f0183142c8be136a5f1dac34273d7a4749511bf, -207⟩,
  ⟨12527030865488447, 14, 14495055056986597, 16, 12982803343442917, 16, 11, 0x596db965a5b2de9fa33b63, 127⟩,
  ⟨1454121443450179, 14, 14495055056986597, 16, 12982803343442917, 16, 22, 0x3d3846c17d745a995315b15e8c6aaaa33e869608e714, 16⟩,
  ⟨49404821869403406, 14, 14537265652384894, 16, 1298280334344292, 15, 55, 0x181517168a396ac3798fba806835f137d5a8d9e70f95aa52a0c4d8ad268d18efec69a3d07f96af36d94249e017a88f6de0af8f3b721435, 491⟩,
  ⟨-43509497741500786, 14, 14537265652384894, 16, 1298280334344292, 15, 11, 0xc55f24d64f73fb2c6dac52, -436⟩,
  ⟨1470073010765066, 13, 14501899626813393, 16, 1298280334344292, 15, 11, 0xb3fcfe3e5672c9ec97dc3e, 147⟩,
  ⟨-36062464365815947, 14, 14501899626813393, 16, 1298280334344292, 15, 11, 0xaefd605b1f470c68e30617, -361⟩,
  ⟨-23147784179292626, 14, 14524099474887713, 16, 1298280334344292, 15, 11, 0x21eb4bc51198e632240a23, -235⟩,
  ⟨-8785193497229818, 14, 14524099474887713, 16, 1298280334344292, 15, 11, 0xf767a1b7f9ca8095665b09, -87⟩,
  ⟨6545623616731189, 13, 14489706988786184, 16, 12982803343442917, 16, 22, 0x796f89af2eee19c376a9bc9a3a4711b808adfc156817, 653⟩,
  ⟨17608768061389327, 14, 14489706988786184, 16, 12982803343442917, 16, 11, 0x57b68016a5d451bf067843, 175⟩,
  ⟨-2473153673790023, 13, 14475769366753182, 16, 1298280334344292, 15, 22, 0xfaa2554616f33c8b074eecc177c6dfcf5387943bb539, -247⟩,
  ⟨5966098785787736, 14, 14475769366753182, 16, 1298280334344292, 15, 55, 0xcb829ec481d3dc6dde7df80284ca1aac40bc00dada1f575610ae877a11c1b7cbe15ea0013c646c8ad8f96fe514b8b09dc1c4637213cb02, 63⟩,
  ⟨-19548808235046297, 14, 14446326408940229, 16, 1298280334344292, 15, 11, 0x846cc50c4a1ecc972c846c, -197⟩,
  ⟨-31503726740903954, 15, 14446326408940229, 16, 1298280334344292, 15, 22, 0x9575cf4e43e775616858ebfc3605a270e9fc6ccec58d, -31⟩,
  ⟨-30889824142537725, 14, 14467156851655567, 16, 1298280334344292, 15, 11, 0x5973bcf22efee444d81d40, -307⟩,
  ⟨-29385057201289374, 14, 14467156851655567, 16, 1298280334344292, 15, 11, 0xd24004ebd5edc0bce12e20, -294⟩,
  ⟨5114334474900893, 13, 14438102784584195, 16, 1298280334344292, 15, 11, 0x5be62d736a803338a12a8b, 510⟩,
  ⟨-4110712094245632, 13, 14438102784584195, 16, 1298280334344292, 15, 11, 0x9d670681b7c813268ba31a, -410⟩,
  ⟨32588919826917476, 14, 1449920214587017, 15, 1298280334344292, 15, 11, 0x5a4e1771a14df60827e166, 327⟩,
  ⟨-21980679339554155, 14, 1449920214587017, 15, 1298280334344292, 15, 11, 0x2f4dec7b5fe1e2deec9258, -222⟩,
  ⟨42929550208375355, 14, 14463691582929745, 16, 1298280334344292, 15, 44, 0x2c8f934c64cbc05acb9365951448797164f780548ada537b564718be4dba9dfed5c10c0ea5bcb2dac9a49e58, 429⟩,
  ⟨-2439790118139039, 13, 14463691582929745, 16, 1298280334344292, 15, 22, 0xe358b85b35ea436a6a73dbe7c0e6ed7dce8658cf7123, -243⟩,
  ⟨-25083109905916783, 14, 14484481295827438, 16, 12982803343442917, 16, 11, 0xfa0e30e41c29e7f252cf65, -250⟩,
  ⟨-19404458522292563, 14, 14484481295827438, 16, 12982803343442917, 16, 11, 0xfb9fc69ccbd36090633d4a, -194⟩,
  ⟨8877403039546854, 13, 14449496353479496, 16, 1298280334344292, 15, 11, 0xa44d412e9965ce9bb5acbe, 887⟩,
  ⟨5434591351367214, 13, 14449496353479496, 16, 1298280334344292, 15, 33, 0x07eb6d3494518b10ff45f484c221a64a59ae31394cc86bec2879da5ca4f3c5b448, 542⟩,
  ⟨-37659972812368926, 14, 1443363741061233, 15, 1298280334344292, 15, 11, 0xd13b5d2f344c4c21ee4641, -377⟩,
  ⟨-9089348387757721, 14, 1443363741061233, 15, 1298280334344292, 15, 11, 0xaafbbdb1d01f8ec7d66352, -90⟩,
  ⟨7966119054382344, 14, 14403485126669955, 16, 1298280334344292, 15, 11, 0xe0d1edadb890937ac5b594, 80⟩,
  ⟨33822865996013513, 14, 14403485126669955, 16, 1298280334344292, 15, 22, 0x2df5917ab53141ac94e5b05666e25f1da48c67e20e70, 337⟩,
  ⟨-19918682996520573, 14, 1442308194084816, 15, 1298280334344292, 15, 11, 0xd619e9d4f03426c1c50488, -200⟩,
  ⟨-24401345073244772, 14, 1442308194084816, 15, 1298280334344292, 15, 22, 0x68a6bdc5b06dd32f0004f9a632f9bf8470f27c02be01, -245⟩,
  ⟨10018547941565437, 14, 14392926523722867, 16, 1298280334344292, 15, 11, 0xec356f60ad3d4f6e49a17d, 101⟩,
  ⟨3631675896928516, 14, 14392926523722867, 16, 1298280334344292, 15, 11, 0xd7dffb6e4eb8d2984e2960, 37⟩,
  ⟨-8875362940103756, 14, 14442477594742882, 16, 1298280334344292, 15, 11, 0x55dc2ab69c3eafaea4df23, -87⟩,
  ⟨-5251386126943366, 15, 14442477594742882, 16, 1298280334344292, 15, 11, 0xabb8be62921b44aaa8ca09, -6⟩,
  ⟨28596077395923174, 15, 14403191918199807, 16, 1298280334344292, 15, 22, 0x4750560339485d50f70ed431e31511bd7aed99fae557, 31⟩,
  ⟨-2167868270970522, 13, 14403191918199807, 16, 1298280334344292, 15, 11, 0x5635d623bde9924d9b1eb9, -218⟩,
  ⟨-11775522083544344, 14, 14428865469502725, 16, 1298280334344292, 15, 11, 0x022deb61a6f1c5dc7df606, -123⟩,
  ⟨-2496840995195859, 13, 14428865469502725, 16, 1298280334344292, 15, 22, 0x0a094216319ad38168475156bff0f93d92ea7ee4e35b, -248⟩,
  ⟨6050243761154376, 13, 1439019047825285, 15, 1298280334344292, 15, 11, 0x6b60040478b06599b50a10, 604⟩,
  ⟨4014851582289297, 13, 1439019047825285, 15, 1298280334344292, 15, 44, 0x87b080b162fbad54a2f2c273c993e7b471020158f89f6e664eb877d615b2f27af2f6f9bcb8ceba0e68c3e715, 402⟩,
  ⟨7682507139007839, 14, 14382291364974888, 16, 12982803343442917, 16, 11, 0xf3181812481ec0c76d4a44, 76⟩,
  ⟨-12530916354293313, 14, 14382291364974888, 16, 12982803343442917, 16, 11, 0xb7d76e289e526016e1c22b, -126⟩,
  ⟨55648687856778906, 15, 14348689026323251, 16, 1298280334344292, 15, 11, 0x5f1bc1bbec5251e123d223, 54⟩,
  ⟨52011671356232604, 15, 14348689026323251, 16, 1298280334344292, 15, 11, 0xbef647f4452e49969b2598, 53⟩,
  ⟨-4954873474463993, 13, 14372515342786782, 16, 12982803343442917, 16, 11, 0xbe16ab2b22db121c18a25c, -496⟩,
  ⟨-13955185388211433, 14, 14372515342786782, 16, 12982803343442917, 16, 22, 0x0252021a9a556f371bd4375008a5325d81dd50945807, -142⟩,
  ⟨4623807150383783, 13, 14338991693824719, 16, 1298280334344292, 15, 11, 0x6d05d170710880d3970865, 461⟩,
  ⟨16842850005695274, 14, 14338991693824719, 16, 1298280334344292, 15, 11, 0x518f7325769393f158a608, 166⟩]

/-- tests/test_samplerz.cpp:13028-13673. -/
def kats1024_12 : List Kat := [
  ⟨-25563322980373212, 14, 14596719069728075, 16, 1298280334344292, 15, 11, 0x6c13c3302f72ab9083a023, -257⟩,
  ⟨-3609419879664219, 14, 14596719069728075, 16, 1298280334344292, 15, 11, 0xb59569627ea2c663aa0e52, -37⟩,
  ⟨28849349548816843, 14, 1459507414965279, 15, 1298280334344292, 15, 11, 0x9279a0af9ccc51bd9db664, 287⟩,
  ⟨-14541442821238024, 14, 1459507414965279, 15, 1298280334344292, 15, 22, 0x188716ad3db8677726a55ef38cf35a05a3f7db4513ab, -145⟩,
  ⟨11036786310224609, 14, 14587343116385234, 16, 1298280334344292, 15, 22, 0x230b55128e9bc75ed518b99456a97e930a46de64744e, 109⟩,
  ⟨-355428089705449, 13, 14587343116385234, 16, 1298280334344292, 15, 11, 0xf2adb95abe3328a46b1054, -36⟩,
  ⟨-137827691504182, 12, 14585677525819232, 16, 1298280334344292, 15, 11, 0xb225ba17306a575fcc0d44, -137⟩,
  ⟨-1700038195817278, 13, 14585677525819232, 16, 1298280334344292, 15, 22, 0xb6192041f2bac8f8ab42f0c96aec1c788989b83fdf33, -170⟩,
  ⟨18385024198601707, 14, 14575045100039257, 16, 1298280334344292, 15, 11, 0x12ee3d742bc97cc59a6735, 187⟩,
  ⟨-7722367554735621, 14, 14575045100039257, 16, 1298280334344292, 15, 11, 0xbeebf9b8405862523611a0, -77⟩,
  ⟨10911660056420256, 14, 14573856303986463, 16, 1298280334344292, 15, 22, 0x98c000b9f6c9b4998d0178681d3043816a4d618c807c, 108⟩,
  ⟨-23648055754084245, 14, 14573856303986463, 16, 1298280334344292, 15, 11, 0xf4762dde6ef7928b9301c4, -236⟩,
  ⟨-353257684848704, 12, 14566868668926356, 16, 1298280334344292, 15, 22, 0x4e40c3232f56649b495e4f8c426a13cc07863237ac54, -355⟩,
  ⟨-4032630672241456, 14, 14566868668926356, 16, 1298280334344292, 15, 22, 0xc3adf27e718f405dc99df8bf6c842e62dade70598f9d, -40⟩,
  ⟨5589166814394953, 13, 1456564098046775, 15, 1298280334344292, 15, 11, 0xf215c45eb5ca6c8a3603ba, 559⟩,
  ⟨-264611175395555, 12, 1456564098046775, 15, 1298280334344292, 15, 11, 0x4dad1072fb93dc117ca814, -267⟩,
  ⟨7659500736603903, 13, 14556559268834055, 16, 1298280334344292, 15, 22, 0x39afb7aa065eaaeaff01bb724cf8bdec620d7b0a3771, 767⟩,
  ⟨-28563510955347397, 15, 14556559268834055, 16, 1298280334344292, 15, 11, 0xbe38ea5283132c032baa82, -29⟩,
  ⟨30744035589469615, 15, 14555649929043504, 16, 12982803343442917, 16, 11, 0x8eeb8ef98b7f32b1efbf2a, 32⟩,
  ⟨-22022427920024296, 14, 14555649929043504, 16, 12982803343442917, 16, 11, 0xefe0e5ed328f131d5c489b, -221⟩,
  ⟨47679423779328204, 15, 14546866387115385, 16, 1298280334344292, 15, 33, 0x34314b5a04c2bffbaf5180587842b7959fcc6f79c3f3c5e1d523ff6cd5e5432154, 48⟩,
  ⟨3474981813582109, 13, 14546866387115385, 16, 1298280334344292, 15, 11, 0xe896cf48103ca514849f72, 348⟩,
  ⟨11108128227668793, 14, 14545946943988282, 16, 1298280334344292, 15, 22, 0xc8c5c41d187da8340247ef88f47501b7e11b3004ae8c, 110⟩,
  ⟨6341028025003044, 14, 14545946943988282, 16, 1298280334344292, 15, 33, 0x90504906ab25bce5f05ede8902e930831f664c95a7bbd20d05a7adca792dbb03a3, 64⟩,
  ⟨-19830427884693663, 14, 14537266101126798, 16, 1298280334344292, 15, 11, 0xe73026ae91a3e22a36058f, -198⟩,
  ⟨19148563905469157, 14, 14537266101126798, 16, 1298280334344292, 15, 11, 0xc4daecbf97e222cb30d7a1, 192⟩,
  ⟨-15503955394541182, 14, 14536648730035766, 16, 1298280334344292, 15, 11, 0xc4dcbc288b8b054c31f93a, -155⟩,
  ⟨-310631144993058, 13, 14536648730035766, 16, 1298280334344292, 15, 22, 0x09b521c4b49f8091b9eb5de9be9c6eac0d587968635b, -31⟩,
  ⟨-18487897035015516, 14, 14528645114527412, 16, 1298280334344292, 15, 11, 0x3c154dd5ce94ae694c266e, -187⟩,
  ⟨-33389977405214296, 14, 14528645114527412, 16, 1298280334344292, 15, 22, 0x011853be2d5ee8988e23ca1945c3fe543063b577aa01, -337⟩,
  ⟨2131626378059256, 13, 14528006112786866, 16, 1298280334344292, 15, 11, 0x55ffc66d8d34405e3bb352, 215⟩,
  ⟨23688450650055236, 14, 14528006112786866, 16, 1298280334344292, 15, 11, 0xc3b992aceaaabd0c65eda7, 237⟩,
  ⟨-25412861457845352, 15, 1449710960821214, 15, 1298280334344292, 15, 11, 0x74ae971e7bfaa67eba1772, -24⟩,
  ⟨-2613273112544549, 13, 1449710960821214, 15, 1298280334344292, 15, 11, 0x6175d2d5a4c8d266de1b51, -260⟩,
  ⟨7860496297780277, 14, 14493912128959696, 16, 1298280334344292, 15, 11, 0xf023cf37bf69904cd02f66, 79⟩,
  ⟨-42292405776351785, 15, 14493912128959696, 16, 1298280334344292, 15, 11, 0xb4a72777d9aa7adff806ad, -43⟩,
  ⟨5749300781365734, 14, 14489499978206681, 16, 1298280334344292, 15, 11, 0x7a0a07f46e21637f435a94, 56⟩,
  ⟨26797281977270785, 14, 14489499978206681, 16, 1298280334344292, 15, 22, 0x538168dabda4ebdd8d8ac8916be2e71c9cd063a4242d, 266⟩,
  ⟨23763130392966724, 14, 14486286234214396, 16, 1298280334344292, 15, 11, 0xec3431efcc724efef8f351, 238⟩,
  ⟨11582859338704542, 14, 14486286234214396, 16, 1298280334344292, 15, 11, 0xaa2737c527d366f364727f, 115⟩,
  ⟨-21402092205275633, 14, 1447093070413452, 15, 1298280334344292, 15, 22, 0xd5183abcab576a71122cfaf2e4c225214aafb1bc4fa4, -214⟩,
  ⟨-54609641175941, 11, 1447093070413452, 15, 1298280334344292, 15, 11, 0x17c891749a7ee4c4afd91f, -543⟩,
  ⟨3348244824122739, 13, 14468348816123615, 16, 1298280334344292, 15, 11, 0xb8ec17b7e53870d65d7584, 335⟩,
  ⟨-22439048318973954, 14, 14468348816123615, 16, 1298280334344292, 15, 22, 0x9406b5d18ea722ed21b8c6d23465bbc1f4dca2cf645c, -225⟩,
  ⟨-38456463474656357, 14, 14464692215181525, 16, 1298280334344292, 15, 22, 0x40e3c3c5b03fbb38487b7955c7e2267ca68ccc59721b, -386⟩,
  ⟨-1147088822061302, 13, 14464692215181525, 16, 1298280334344292, 15, 11, 0x621311ded57b6f1133e941, -113⟩,
  ⟨7195919630298865, 13, 14462069331394665, 16, 1298280334344292, 15, 11, 0xcac0b0e589c05f4959b98a, 720⟩,
  ⟨-3594415468069585, 13, 14462069331394665, 16, 1298280334344292, 15, 22, 0x43c325023abf7c7da462df49a386fedd0aa2f6068202, -362⟩,
  ⟨7642252135682411, 13, 14460534521264865, 16, 1298280334344292, 15, 22, 0x2d3131517f0c3ceadfabb68052ecf38955dac2f90e91, 763⟩,
  ⟨-7389276831135987, 15, 14460534521264865, 16, 1298280334344292, 15, 11, 0xe1ce6d45b6f5d3300e52a5, -8⟩,
  ⟨11729540986354117, 14, 14458367678775408, 16, 1298280334344292, 15, 11, 0x7941d6f233f9f97f4fa94a, 119⟩,
  ⟨-5564328935861561, 13, 14458367678775408, 16, 1298280334344292, 15, 44, 0x84323fd347337576bbcdc4054ca65ca60493fe448f7917b42fcbb7cdbd61c81c92d911fa321a06ae0a186209, -557⟩,
  ⟨-2670771159242491, 13, 14452666449094789, 16, 1298280334344292, 15, 11, 0xce414f26bb5daba49f3a57, -268⟩,
  ⟨2479809556038818, 13, 14452666449094789, 16, 1298280334344292, 15, 11, 0x86dd14a87491470cb855a2, 249⟩,
  ⟨5356904612999307, 13, 14450491543486608, 16, 1298280334344292, 15, 22, 0xa16e24bca6c2900a3df29bb6af6db248698b30f6eb32, 536⟩,
  ⟨8105239011555244, 14, 14450491543486608, 16, 1298280334344292, 15, 11, 0xcd86083c3acd41149403b7, 82⟩,
  ⟨-642026094405791, 13, 14436760352908593, 16, 1298280334344292, 15, 22, 0x8a9e1d3545fb48ed6576db24a89e41b3f4e3df583d19, -62⟩,
  ⟨33910896294249517, 14, 14436760352908593, 16, 1298280334344292, 15, 44, 0x1c6223e69aa54db45682d21e832db526f8d112a8e9c774c4f9db3cc85ca4b373a476639a44eed0f9e2290749, 341⟩,
  ⟨22583628784732457, 14, 14435033708833382, 16, 1298280334344292, 15, 11, 0xd9cd15e155865e77bac069, 225⟩,
  ⟨-36076697428102796, 14, 14435033708833382, 16, 1298280334344292, 15, 11, 0x9d7420bcf7f29574755e30, -362⟩,
  ⟨-2412870880250497, 13, 14430150060359686, 16, 1298280334344292, 15, 11, 0xf4168fb533899e201b98c9, -242⟩,
  ⟨-1752813564979575, 13, 14430150060359686, 16, 1298280334344292, 15, 11, 0xdbaaf5518238789eae0082, -176⟩,
  ⟨-13884640407743734, 14, 14428397583227803, 16, 1298280334344292, 15, 33, 0x7b811148d4ca7b433d3fc3770fa7ac83b9cb76212f999fe913a504ba42e5738b6a, -137⟩,
  ⟨-1590899862548841, 13, 14428397583227803, 16, 1298280334344292, 15, 11, 0x6e7478091135517d91ae18, -161⟩,
  ⟨16803913098399045, 14, 1434082193114958, 15, 1298280334344292, 15, 11, 0x9bbdcbda75cf6d4fbe78a8, 167⟩,
  ⟨-3265992187988751, 13, 1434082193114958, 15, 1298280334344292, 15, 55, 0x5bcb1de7a1fc8f947d89d4cb14d167c9d1a09e268bd524905043538c8c097d3fd363b50df8af32ec90a00aa8b2dea940c90e3f69cf8caa, -327⟩,
  ⟨-21949586866552266, 14, 14331750455831953, 16, 1298280334344292, 15, 22, 0x998daf16cafc9f458fa5eccb4fba92df35c56ab37da1, -219⟩,
  ⟨-11161643776890786, 14, 14331750455831953, 16, 1298280334344292, 15, 11, 0xcaf73205a3a023a165e457, -112⟩,
  ⟨-3998366847580721, 13, 1433426955150079, 15, 1298280334344292, 15, 11, 0x7c8d9dd08b4e7ae870f298, -401⟩,
  ⟨-13882388496235066, 14, 1433426955150079, 15, 1298280334344292, 15, 22, 0x12853094caabff70cc587b3945acfcde0af9402ca301, -136⟩,
  ⟨25130457705054903, 14, 14325518005819504, 16, 1298280334344292, 15, 11, 0x9ed37e2b5503a1262c910f, 253⟩,
  ⟨-4116293916725656, 14, 14325518005819504, 16, 1298280334344292, 15, 11, 0x9598eb53d9cdcb17abb52b, -40⟩,
  ⟨20688672336820898, 14, 14310858473289727, 16, 1298280334344292, 15, 11, 0xc98e4491153542bc54d59d, 207⟩,
  ⟨-5517027931253807, 15, 14310858473289727, 16, 1298280334344292, 15, 44, 0xccc50903f87ae860c1a5dc82e6d3e3c4ac8b9b786dc67ea0c4d0549bc0b77ce9e2d57a349c6d7fedc00d8528, -5⟩,
  ⟨15572502882427364, 14, 14302431275994545, 16, 1298280334344292, 15, 22, 0x34691cf7b3b106b5a15a8862b6855b23360a42158c06, 154⟩,
  ⟨-5898382205213343, 13, 14302431275994545, 16, 1298280334344292, 15, 22, 0xe62ebde098b3f77b0fe6f6d78452f85307f1c87fde5c, -590⟩,
  ⟨-13152254582119807, 14, 14305867305729876, 16, 1298280334344292, 15, 33, 0xf9f7815d01d50a468d49ef088b965c5d29f0709ebdc277cb81636b8693abafb83b, -133⟩,
  ⟨-6112587199979981, 13, 14305867305729876, 16, 1298280334344292, 15, 22, 0x3571b3cec1f8c8789a07e46c351bf34f4086d785283f, -613⟩,
  ⟨21915665248548433, 14, 14297673808534461, 16, 12982803343442917, 16, 22, 0x33577af7342d328698c950e16c51e31029c46763fe83, 219⟩,
  ⟨-7516255469689901, 14, 14297673808534461, 16, 12982803343442917, 16, 11, 0x92c9fdf72c11470908636b, -74⟩,
  ⟨-2139400308601304, 13, 14287825217896952, 16, 1298280334344292, 15, 11, 0x7cbcdcaeeeaaf37e3ae892, -215⟩,
  ⟨5042422439769692, 14, 14287825217896952, 16, 1298280334344292, 15, 33, 0x389c57958bba4aa04be964d48e9b727a87408c5a31ffe40a39f6673ebc1170faa3, 50⟩,
  ⟨19762869558236378, 14, 14280011244438686, 16, 1298280334344292, 15, 33, 0x1f3ba478df74b7b79cd1609c26f0e4d5183abf36bdeee95ff147eb48160f444449, 197⟩,
  ⟨10036554029568215, 14, 14280011244438686, 16, 1298280334344292, 15, 22, 0x0ef11456c5f29265a5b867736fc9cf67d688ce5d92a6, 99⟩,
  ⟨-1796102604954781, 13, 1428112814532449, 15, 1298280334344292, 15, 22, 0x135e5c022ff0579fc2d5ab660bc7113d7da52409195b, -178⟩,
  ⟨-40309707709493205, 14, 1428112814532449, 15, 1298280334344292, 15, 11, 0x768d048c78d906fd7ded8f, -402⟩,
  ⟨615639610350707, 12, 14273630675525735, 16, 1298280334344292, 15, 11, 0xbb405db1eff6272d7dc6b5, 615⟩,
  ⟨-731602437307338, 13, 14273630675525735, 16, 1298280334344292, 15, 11, 0xc719d5d1a053314a973574, -73⟩,
  ⟨10427704105042761, 14, 14260593746318542, 16, 1298280334344292, 15, 22, 0x4fb26b082fb7b2049ce3aaa25053c70747a2be5fb00e, 103⟩,
  ⟨-36436846015652054, 14, 14260593746318542, 16, 1298280334344292, 15, 11, 0xe9c04fdfdd65a7210c089b, -365⟩,
  ⟨-4417187777023574, 13, 14253185631954468, 16, 1298280334344292, 15, 11, 0xdb9009d1c02b321e27ce6a, -442⟩,
  ⟨6358358863527658, 15, 14253185631954468, 16, 1298280334344292, 15, 22, 0x5ac21f83ca080b8867a2ad2f673b4c584f1cafdcf93b, 9⟩,
  ⟨-28380901932751897, 15, 14255274972898153, 16, 12982803343442917, 16, 11, 0x1019c33cbb9987c03fcd20, -25⟩,
  ⟨2923993312621162, 13, 14255274972898153, 16, 12982803343442917, 16, 11, 0x0c94495c27f9d4a5db5b1d, 296⟩,
  ⟨18548126903103974, 14, 14248114451098206, 16, 1298280334344292, 15, 11, 0x639d5eaeef34db4a7a706a, 184⟩,
  ⟨-24634309987115162, 14, 14248114451098206, 16, 1298280334344292, 15, 44, 0x256a702c73cc36659d70977ba373cb4f7fa957d57cde21bdda6d5eab1c3f724445c070550c9fe384c9e8435b, -246⟩,
  ⟨8199632746803454, 14, 14259994873637143, 16, 1298280334344292, 15, 11, 0x60e3ca3579551511ea3005, 80⟩,
  ⟨15155211134747864, 14, 14259994873637143, 16, 1298280334344292, 15, 11, 0x92b8c3e8ac98a313fd4a77, 150⟩,
  ⟨-18697355002723293, 14, 14249200781440268, 16, 1298280334344292, 15, 11, 0x396d14022f52cb5f2f2104, -184⟩,
  ⟨-8410881006200586, 14, 14249200781440268, 16, 1298280334344292, 15, 11, 0xbd534edf428848d888763b, -85⟩,
  ⟨-30136392997548114, 14, 1425441486123067, 15, 1298280334344292, 15, 11, 0x2880700176e0edd0aaa401, -304⟩,
  ⟨3230008677169451, 14, 1425441486123067, 15, 1298280334344292, 15, 11, 0xc6864f5328d77c55c9c96b, 33⟩,
  ⟨3900639168890835, 13, 14243938298698635, 16, 1298280334344292, 15, 11, 0x89a8603738f23a0e113f19, 392⟩,
  ⟨32218658295470806, 14, 14243938298698635, 16, 1298280334344292, 15, 11, 0x798451a4923386aff1eb52, 324⟩,
  ⟨-17448099063088924, 14, 14225748966946556, 16, 1298280334344292, 15, 22, 0x20c5305a41907102d7967ab5823d7de7b56dbaea4a0f, -175⟩,
  ⟨15718828498717718, 14, 14225748966946556, 16, 1298280334344292, 15, 11, 0x35237211800f0910917509, 160⟩,
  ⟨-7931467558106438, 14, 14215632775544018, 16, 1298280334344292, 15, 11, 0xc30bd83a097924a08c640b, -80⟩,
  ⟨-15643405586600292, 14, 14215632775544018, 16, 1298280334344292, 15, 11, 0xe9911609b94c6a56c8c82b, -157⟩,
  ⟨-33260755259589234, 14, 14221831421298785, 16, 1298280334344292, 15, 11, 0x696a01b97ce2c3ab887a8c, -334⟩,
  ⟨2008339516062165, 15, 14221831421298785, 16, 1298280334344292, 15, 11, 0x9647b144fe79bfe1e11c52, 1⟩,
  ⟨-2696010271581241, 13, 14211941571395015, 16, 1298280334344292, 15, 22, 0x4e22e8e06f712c849081e5b795000cda0334fc47c329, -269⟩,
  ⟨1154008495102702, 13, 14211941571395015, 16, 1298280334344292, 15, 22, 0x21543af5ab3e9d133d0edbb116cb323f048de30dc471, 115⟩,
  ⟨25077088505851054, 14, 14213997902743687, 16, 1298280334344292, 15, 22, 0x1df8af6b98f4b3b1b9c2dac64b4ea3acaa6bdda1f9e0, 251⟩,
  ⟨-2774154825996711, 13, 14213997902743687, 16, 1298280334344292, 15, 11, 0x99fac1821c8c68ae8b6a38, -279⟩,
  ⟨16307692375548478, 14, 1420472371215401, 15, 1298280334344292, 15, 22, 0x59c832e3331ca1f964bbbdb14e04ea51fc19b8271866, 163⟩,
  ⟨-1489313482278442, 13, 1420472371215401, 15, 1298280334344292, 15, 11, 0x803352fc4469342849903a, -150⟩,
  ⟨-13516764528516046, 14, 1420826219629693, 15, 1298280334344292, 15, 22, 0x37c665fadd15b864c2d870e6ae3dfe4f875fdb338233, -136⟩,
  ⟨-2722007996741873, 13, 1420826219629693, 15, 1298280334344292, 15, 44, 0xb26dd6d076481388cf72ecae09b0fd56210c4bfc07efa88f56fdd59dd5b4bda2fa871d50b766add783724d55, -271⟩,
  ⟨1911307392351369, 13, 14199294414655166, 16, 1298280334344292, 15, 22, 0xdb33733b24fd89a74e19fd2e7103121c2be4d7cfdc51, 189⟩,
  ⟨21610628776804563, 14, 14199294414655166, 16, 1298280334344292, 15, 22, 0x1faafc79bae18a3cce489d81e9deafc0d9ccb6145635, 215⟩,
  ⟨16286544300141685, 14, 14182827092148418, 16, 1298280334344292, 15, 11, 0x6b416ac4c8cabc03dcb787, 164⟩,
  ⟨-3668599845761691, 13, 14182827092148418, 16, 1298280334344292, 15, 11, 0x4544e78338f303379ca481, -369⟩,
  ⟨-2864631697178585, 13, 14174001031618018, 16, 1298280334344292, 15, 11, 0x26830e516e4fd1bcecaa1b, -289⟩,
  ⟨-5542581511693465, 14, 14174001031618018, 16, 1298280334344292, 15, 33, 0x30c320f26dc1425bf0ccbe09f04c700fbf0c75596c54badce97f9fb4d1735af818, -56⟩,
  ⟨-7178052042324587, 14, 14178587848823887, 16, 1298280334344292, 15, 22, 0x154174c8fe8f27b21a6be45e2b2910d3e5f515486c44, -73⟩,
  ⟨-8173878804950887, 14, 14178587848823887, 16, 1298280334344292, 15, 11, 0xcced8042949b3122fd5c9c, -82⟩,
  ⟨408956785485863, 13, 14169994302565498, 16, 1298280334344292, 15, 11, 0xe26a57c86168d744a57945, 41⟩,
  ⟨-23123884914089584, 14, 14169994302565498, 16, 1298280334344292, 15, 11, 0xd35df05b8f4ad77542ea07, -232⟩]

/-- tests/test_samplerz.cpp:13674-14323. -/
def kats1024_13 : List Kat := [
  ⟨-3304701735695404, 13, 14235325329225939, 16, 1298280334344292, 15, 22, 0x0f1cd329e33723d0cb3c6dd4a0890fa41ed19d085f69, -330⟩,
  ⟨647863276701757, 13, 14235325329225939, 16, 1298280334344292, 15, 22, 0x0fbb2ebb7dd8b25576d3e6dd2db07b7e73432711f33d, 65⟩,
  ⟨-494297308400459, 12, 14233739913681134, 16, 1298280334344292, 15, 11, 0xbba24f7d33fdaf2af28067, -495⟩,
  ⟨-16370903213398066, 14, 14233739913681134, 16, 1298280334344292, 15, 11, 0x6c449b814a8cd9d8f15e60, -165⟩,
  ⟨2595193347358228, 13, 14226320023932733, 16, 1298280334344292, 15, 11, 0x6fcb47bfdb874e696fc62e, 258⟩,
  ⟨-47713437076365597, 14, 14226320023932733, 16, 1298280334344292, 15, 22, 0x4134e66b5801ac54a8cea55bbbdec40c4fa34de1883e, -479⟩,
  ⟨-2983233119184492, 13, 14224852844034281, 16, 1298280334344292, 15, 33, 0x0ce8ed821f8bd097c4e99a052411fe54713ebc58c0abfea7b253d724b3da2109d9, -298⟩,
  ⟨-3686309475350594, 13, 14224852844034281, 16, 1298280334344292, 15, 22, 0x96bb40d6a0b7db92615aec8aaacc7ba89b25ece8eb6f, -367⟩,
  ⟨11962049540777525, 14, 14207151611425555, 16, 1298280334344292, 15, 22, 0x608a2f3dc63f5055c5b7e8a3c25dc50aa73ed30a7a54, 118⟩,
  ⟨-6795378316157819, 13, 14207151611425555, 16, 1298280334344292, 15, 11, 0xa186b65c931e0f02a0f686, -681⟩,
  ⟨8624140368861228, 14, 14206268997448057, 16, 1298280334344292, 15, 11, 0xe21e1040a2a4af98314297, 86⟩,
  ⟨-2184840521363918, 13, 14206268997448057, 16, 1298280334344292, 15, 22, 0x0c4cc44838809f1089b665e5569a888a2e26a3732d2c, -218⟩,
  ⟨2628677137786944, 13, 14200034449888388, 16, 1298280334344292, 15, 11, 0x701d0795885c4d3d041152, 264⟩,
  ⟨56122995639211936, 15, 14200034449888388, 16, 1298280334344292, 15, 11, 0xd2047beda0c84885a239b7, 57⟩,
  ⟨28777403614282844, 14, 14199198982691037, 16, 1298280334344292, 15, 11, 0x4555dc5b1c091f529a9551, 290⟩,
  ⟨-16311534349545244, 14, 14199198982691037, 16, 1298280334344292, 15, 11, 0x70962e76e0d35472fabf9a, -162⟩,
  ⟨2123639319862877, 13, 14200324792978627, 16, 1298280334344292, 15, 11, 0x109e0ca000452c0f89100f, 209⟩,
  ⟨749281305650602, 13, 14200324792978627, 16, 1298280334344292, 15, 33, 0x0a5564cae2b2773a641a9f14acf383cbc85171950a90b1993e70ec079f7cbac85e, 74⟩,
  ⟨12126024894068438, 14, 14199252188578166, 16, 1298280334344292, 15, 11, 0xebe34d0af8217f0082387a, 121⟩,
  ⟨-3447388498568478, 13, 14199252188578166, 16, 1298280334344292, 15, 55, 0x9be6f7b5bcc02e666af79217121523e62c09586869841408a0e9b0031702ad40524813a69ffa42bc018592f7eba684b7beb72eee4856d9, -345⟩,
  ⟨3583292920367429, 14, 14191363838364182, 16, 1298280334344292, 15, 11, 0xf6f3b39780e29a9b183a43, 35⟩,
  ⟨1519699913387482, 13, 14191363838364182, 16, 1298280334344292, 15, 11, 0xd8928bf644b6451fd0ab44, 152⟩,
  ⟨7018560667496408, 13, 14190386450323296, 16, 1298280334344292, 15, 11, 0xa966dc1e7ede89661dbea2, 701⟩,
  ⟨6100067134049889, 14, 14190386450323296, 16, 1298280334344292, 15, 11, 0xf13fd38164403f536ee16e, 62⟩,
  ⟨-25848495482302843, 14, 14175082503934031, 16, 1298280334344292, 15, 11, 0xd5f934187fb17c3c54c8a2, -259⟩,
  ⟨-30873782931479803, 14, 14175082503934031, 16, 1298280334344292, 15, 33, 0x3ff98f2561e2053d0dbfb537663e9456aa8ca18050d4983c70c2dc4aea343b553c, -307⟩,
  ⟨27756589932883963, 14, 1417452580695075, 15, 1298280334344292, 15, 11, 0x2b9014fc395b8c4f1c3c03, 275⟩,
  ⟨-6084193442647131, 14, 1417452580695075, 15, 1298280334344292, 15, 22, 0xd63b91465053d509692ef974a42040a19c381ff78a27, -62⟩,
  ⟨7178503421214181, 14, 1416777383693738, 15, 1298280334344292, 15, 33, 0x4e377f6b71df0580669ce012d8eb3a649b13ec63d0a7a169d32bc4e34a2c8a474f, 73⟩,
  ⟨-2961096277615703, 13, 1416777383693738, 15, 1298280334344292, 15, 11, 0xf268d098269c2944566144, -296⟩,
  ⟨-9426838521119365, 14, 14167257288791724, 16, 1298280334344292, 15, 22, 0x76446ed9c8d037e02192b86a7ca901c161c0e8e8a970, -93⟩,
  ⟨-3358281158101148, 13, 14167257288791724, 16, 1298280334344292, 15, 22, 0x1a698ca73f84feb7c91d66e7d86fd2147f27131f5a97, -336⟩,
  ⟨-14896185785178653, 14, 141454085861243, 14, 1298280334344292, 15, 22, 0x3444d96d5ef463c6a267acb2ab4c5f20fb135684b27a, -149⟩,
  ⟨-15586522492096725, 14, 141454085861243, 14, 1298280334344292, 15, 12, 0x61bc006affbc25875b917215, -154⟩,
  ⟨-16479290628673823, 14, 14142748076152072, 16, 12982803343442921, 16, 11, 0xd08d8eba2f31845d164267, -165⟩,
  ⟨-3095295775563966, 13, 14142748076152072, 16, 12982803343442921, 16, 11, 0x40bc80a59adcb1004c6e3b, -312⟩,
  ⟨-268257331926691, 12, 14137585101926942, 16, 1298280334344292, 15, 11, 0xdb05c95c82b9bce3bdbb72, -268⟩,
  ⟨-10839823273676606, 14, 14137585101926942, 16, 1298280334344292, 15, 11, 0xff4b825e2e9eb92113340c, -109⟩,
  ⟨33202618861689996, 14, 14135071049568393, 16, 1298280334344292, 15, 11, 0xe3449c683c9c2e55424065, 332⟩,
  ⟨-6858760033694546, 13, 14135071049568393, 16, 1298280334344292, 15, 11, 0xda393034393b10b88618a2, -686⟩,
  ⟨-4781538238806738, 13, 14115849342559519, 16, 1298280334344292, 15, 11, 0xb8bc97faaf744e1210538e, -478⟩,
  ⟨-2450423580852016, 13, 14115849342559519, 16, 1298280334344292, 15, 11, 0x9f4749c1b37087e8caed7b, -244⟩,
  ⟨-21908713697577408, 15, 1411413570862151, 15, 12982803343442921, 16, 22, 0x2bb1bad5ecdce60ad0aecc512a356d1849c94e004e7f, -24⟩,
  ⟨-5030247439911346, 13, 1411413570862151, 15, 12982803343442921, 16, 11, 0x8cf938d6c865a05522c1a9, -502⟩,
  ⟨-10919773755858785, 15, 14109886209210079, 16, 1298280334344292, 15, 11, 0x51b0f45e95043428f90407, -13⟩,
  ⟨-6585349380257153, 13, 14109886209210079, 16, 1298280334344292, 15, 44, 0x0c1b255f38c51a84b2a9977333d357e507c0e751d9d4f458193c5cea495132c2eb473bd02fff6eeb265ae616, -661⟩,
  ⟨21949080072616516, 14, 1410823621673794, 15, 1298280334344292, 15, 22, 0x3e42e4a89bc16d9b8ed590ca1f550420ec025254fc73, 219⟩,
  ⟨-2495604242149717, 13, 1410823621673794, 15, 1298280334344292, 15, 11, 0xc02479b1713ca45c67e14d, -249⟩,
  ⟨26583729069919127, 14, 1411455666079944, 15, 1298280334344292, 15, 11, 0xf33f54e00b3c7f4e746d12, 266⟩,
  ⟨3994026112152511, 13, 1411455666079944, 15, 1298280334344292, 15, 22, 0x43f76d9bec08e376863b71e795aeb5923d8185099842, 399⟩,
  ⟨5300796284082977, 13, 14112521550459365, 16, 1298280334344292, 15, 11, 0xa66b98a74b7fb6bcf23ba3, 531⟩,
  ⟨-16562168180387815, 14, 14112521550459365, 16, 1298280334344292, 15, 22, 0x5df50c0168d8e1aaaec9aee16867c3474fb3ae983aa3, -166⟩,
  ⟨-13815646629459707, 14, 14106883341193042, 16, 1298280334344292, 15, 11, 0x6a79b49af550c6c6f79b2e, -137⟩,
  ⟨-2758506405488098, 13, 14106883341193042, 16, 1298280334344292, 15, 22, 0x0779417fb7dcc869d24f4363c69e3d6684fca2f3192f, -274⟩,
  ⟨690366759894133, 12, 14104975480304645, 16, 1298280334344292, 15, 11, 0xf5c8b0a99c83da691bd9cb, 691⟩,
  ⟨989622964759602, 13, 14104975480304645, 16, 1298280334344292, 15, 11, 0x5d82dc10719edaf800f180, 100⟩,
  ⟨-58246207288391375, 15, 14087687363887165, 16, 1298280334344292, 15, 22, 0x765f81684d57f39d09f3d55efcb39e32e0d2213f7523, -57⟩,
  ⟨6838220121243408, 14, 14087687363887165, 16, 1298280334344292, 15, 11, 0x45ec57fa4d1e7159abac23, 66⟩,
  ⟨-42017514969634874, 14, 14086408667336252, 16, 12982803343442921, 16, 11, 0x4cde9097e5da7f3c81b55c, -418⟩,
  ⟨-3656875523275746, 13, 14086408667336252, 16, 12982803343442921, 16, 11, 0x4ab99256af2cbe37d99856, -368⟩,
  ⟨-2723314918615695, 13, 14081662157749004, 16, 1298280334344292, 15, 11, 0x974d5f522e0d8b96f5b04e, -274⟩,
  ⟨-38314573757649654, 15, 14081662157749004, 16, 1298280334344292, 15, 11, 0x99defcc092d1706923fb08, -37⟩,
  ⟨-10459228731125576, 14, 1408044299750764, 15, 12982803343442921, 16, 11, 0xebe0125ad751b24e0ee193, -104⟩,
  ⟨15200642372770693, 15, 1408044299750764, 15, 12982803343442921, 16, 11, 0xa7d9d4004ad41bdc9c7acf, 15⟩,
  ⟨4366586886075214, 13, 14010250382642528, 16, 1298280334344292, 15, 11, 0x57eff0ea26c97dace23589, 438⟩,
  ⟨15243091487029943, 15, 14010250382642528, 16, 1298280334344292, 15, 11, 0x57514c15a74efb819c131b, 17⟩,
  ⟨16600672089586418, 15, 14002337744623092, 16, 1298280334344292, 15, 11, 0x5b6b40168f79f0766a9d0a, 18⟩,
  ⟨-5431643963826934, 13, 14002337744623092, 16, 1298280334344292, 15, 33, 0x0e8c5e35403df9f8adea64636355703e37a0089725d474ce17fc44036a940b410c, -542⟩,
  ⟨-8782771832747619, 13, 14001968502757682, 16, 12982803343442917, 16, 22, 0x60a6f8181c5c1cceac0be4e806ec21d2bbe67d685c38, -879⟩,
  ⟨-4671918922446753, 14, 14001968502757682, 16, 12982803343442917, 16, 11, 0xb8e884ec9b22e9a41088bb, -47⟩,
  ⟨3311328901199072, 13, 13994556324773377, 16, 1298280334344292, 15, 22, 0x01f263c8670bf10ee5f011aa211b33ae529f048cb554, 332⟩,
  ⟨4408974308189452, 13, 13994556324773377, 16, 1298280334344292, 15, 11, 0xaa73393a03c8376f4ca898, 440⟩,
  ⟨885791576579697, 13, 13974790273443187, 16, 1298280334344292, 15, 11, 0x29534b071c4e7637ac4554, 91⟩,
  ⟨9216973023726781, 14, 13974790273443187, 16, 1298280334344292, 15, 11, 0x114fe566180a709840d63c, 89⟩,
  ⟨-17192043458849926, 14, 13968236775467344, 16, 1298280334344292, 15, 11, 0x6285d10f60640a855fe68f, -173⟩,
  ⟨-17266915864269703, 14, 13968236775467344, 16, 1298280334344292, 15, 22, 0x2fbc3aa427d3725d4b21d2fc84115d8a37fd72cb85b6, -172⟩,
  ⟨-6206152488292378, 13, 13968836779274234, 16, 1298280334344292, 15, 22, 0x41ef7fd2b7969bfdfabd6a28bd05c10fe15ce2e6a312, -618⟩,
  ⟨3108524747349844, 14, 13968836779274234, 16, 1298280334344292, 15, 22, 0x41df506d083fefe3b41caa52acef7f448fe9c14ea201, 29⟩,
  ⟨7654277945781796, 13, 13962603845408927, 16, 12982803343442917, 16, 22, 0xa151997b2d5a2295bf92a8933accf0a7a826f807436a, 767⟩,
  ⟨-5870402849607582, 15, 13962603845408927, 16, 12982803343442917, 16, 56, 0x0756ddd3c700470d71ef5c2670555e02bd5d55100b995bcf1931ca31419a656d70ea329ac71a984eb7b49f3f36688231a80a48d36aa71eb9, -7⟩,
  ⟨11527600022862458, 14, 13964471498309878, 16, 1298280334344292, 15, 22, 0x888033cf549fd6094c2fd8f1b918a8c862fa84217366, 116⟩,
  ⟨-10692257339730506, 14, 13964471498309878, 16, 1298280334344292, 15, 22, 0x76a0f9c043095fd079e39c83b3afaa91649543619950, -105⟩,
  ⟨184931131812226, 12, 13957227141146846, 16, 1298280334344292, 15, 11, 0x2afce11830a4b489c1d93a, 187⟩,
  ⟨31056703905663685, 15, 13957227141146846, 16, 1298280334344292, 15, 44, 0x92e4df364ccba0e13b98f7a7d575ee0eb22fcad5a3da0e149859982a03809fc1d5ac55333d32bf8724df575e, 32⟩,
  ⟨-8262028359732966, 14, 1395649823645626, 15, 12982803343442917, 16, 22, 0xa9f97fff4ea16f55f820eaa92f220edb62422bf1c780, -82⟩,
  ⟨2809022101940096, 14, 1395649823645626, 15, 12982803343442917, 16, 33, 0xc3e4e491f290f8cb02e1f2236c1e2ae93c24756042a6347a485a8febcd44cf1208, 26⟩,
  ⟨26782395646595785, 14, 1394972127357409, 15, 12982803343442921, 16, 22, 0x93b47c72abd579c4dccbe0e30798cd60dc904f31797f, 268⟩,
  ⟨21444899744773707, 14, 1394972127357409, 15, 12982803343442921, 16, 11, 0xeb72ee0cafa303162b1c10, 214⟩,
  ⟨-47706553068561436, 14, 1393266158823413, 15, 1298280334344292, 15, 11, 0xf1670ec52bc1136dc89b65, -477⟩,
  ⟨-22070304461524665, 14, 1393266158823413, 15, 1298280334344292, 15, 11, 0x657a2f7f8c642b7f902424, -222⟩,
  ⟨-179365030095959, 12, 13926539349342555, 16, 1298280334344292, 15, 11, 0xb514fe63500f782886773b, -179⟩,
  ⟨-5737135311711085, 14, 13926539349342555, 16, 1298280334344292, 15, 11, 0xa6135d627fd9cbcafc6fc4, -57⟩,
  ⟨-19043383366740235, 14, 13926704038753923, 16, 1298280334344292, 15, 11, 0x941f287c0639d903cd5b66, -189⟩,
  ⟨9203886439847068, 14, 13926704038753923, 16, 1298280334344292, 15, 11, 0x49fbc00d0e97acfe33427e, 90⟩,
  ⟨10388879623499196, 14, 13920898168845968, 16, 1298280334344292, 15, 11, 0x60fdebacb43256756f6a22, 102⟩,
  ⟨-49409803775936183, 14, 13920898168845968, 16, 1298280334344292, 15, 11, 0x3e7c920e3cb559ab348725, -492⟩,
  ⟨10119207613014713, 14, 13934346410853489, 16, 1298280334344292, 15, 66, 0x51a5e1384fcc026ee633a35d46650c91a1210057cd8d0f932efb7ee0ba670aebfe1260ee466c4f2c21f7cab6434d68bf5aeea0362fa3eeae21fb32a8a376c51ba400, 101⟩,
  ⟨-9900887598624139, 14, 13934346410853489, 16, 1298280334344292, 15, 22, 0x78d37c7c57dd0598f6c6b089664fd52d034fdaf9e156, -98⟩,
  ⟨80608860634114, 11, 1392564706049403, 15, 1298280334344292, 15, 11, 0x6bb145b93a200581441891, 805⟩,
  ⟨5066791128664131, 14, 1392564706049403, 15, 1298280334344292, 15, 11, 0xc7448f82ace2bff1771c41, 50⟩,
  ⟨12840698554661378, 14, 1392687320298641, 15, 1298280334344292, 15, 44, 0x413fb4cbc60487a09365ae828cefed2dbf8caf736ecd83742a3984a92d8aaf60dac1d7d614bba76a8a3f6089, 128⟩,
  ⟨-8064220443422968, 14, 1392687320298641, 15, 1298280334344292, 15, 11, 0xea67ec1912511b4fd36a2b, -81⟩,
  ⟨19829789420552586, 14, 13918659430315559, 16, 1298280334344292, 15, 22, 0x0f266c00dbae99dc8484c15a67734507b0554a95152a, 200⟩,
  ⟨16712709844568366, 15, 13918659430315559, 16, 1298280334344292, 15, 22, 0x163a2feb644df14140d9c6e2dc02ec7dcad6383d5d4b, 17⟩,
  ⟨4216832564832481, 13, 13896863931629932, 16, 1298280334344292, 15, 11, 0x9a4a4f045fbdab4ff32943, 423⟩,
  ⟨830537125636493, 13, 13896863931629932, 16, 1298280334344292, 15, 44, 0x71853167e0687b2eeb21993f3c2d89567b76957171d45bfc80e0c9da4e4097dfa1444ce515f0bf99a9309004, 81⟩,
  ⟨23127870707383929, 14, 13889630152292096, 16, 12982803343442917, 16, 11, 0xee13d8b70c6b8f7736c68d, 231⟩,
  ⟨-40228943291604884, 14, 13889630152292096, 16, 12982803343442917, 16, 11, 0xd03aaaddecec5b6bf7a7d8, -402⟩,
  ⟨-15599017828238206, 14, 13891727539172145, 16, 1298280334344292, 15, 11, 0x31bb1273dca60c5ddafd04, -153⟩,
  ⟨-16025774324383755, 14, 13891727539172145, 16, 1298280334344292, 15, 11, 0xc95dd45996f329faeed69f, -161⟩,
  ⟨36646374617251035, 14, 13884798875498885, 16, 1298280334344292, 15, 44, 0x1e7149dbd0202b1124bf879e9e04aad80017cb1a9ad125d7a417259ec7e83245b73fddca041d6cef83f1552c, 369⟩,
  ⟨-38071890802480414, 14, 13884798875498885, 16, 1298280334344292, 15, 22, 0xb80c413fcfebdac201d7faac6a2af442da90020f1d02, -380⟩,
  ⟨-38556530458207925, 14, 13895492232241988, 16, 1298280334344292, 15, 44, 0x09ae02886d5c2ed5aee0acf5ec7b5ba3bc5dfde9f1fd38e43e78efacf32724a4fff7f8e6f95ba44efc09f9b9, -385⟩,
  ⟨19321702765728259, 14, 13895492232241988, 16, 1298280334344292, 15, 22, 0x73673d707aba452cf88f8457d3bedbe18a18be4eed39, 195⟩,
  ⟨3660890056885117, 13, 13887544962768774, 16, 1298280334344292, 15, 22, 0xf91d5f4aac0b5922a01fdf624ab0aeae16b99bd42a33, 365⟩,
  ⟨-4721406499428873, 13, 13887544962768774, 16, 1298280334344292, 15, 22, 0xcbd014e9d4d3a9f943d4ec5c89eee8ca9fa27157ac23, -474⟩,
  ⟨-268874148146204, 12, 13888332432348527, 16, 1298280334344292, 15, 11, 0x69c42ffca8e979697e7e13, -270⟩,
  ⟨13356417406504863, 14, 13888332432348527, 16, 1298280334344292, 15, 33, 0x8a5c8688837e932d45d6d89cf587b5c049cdd20606fdc75427f417ede9e360f16a, 134⟩,
  ⟨6054627212406563, 13, 1388083467854029, 15, 1298280334344292, 15, 22, 0x1a070b6f08bc07994f7fbbe324ff2ed969e5123ceb4a, 606⟩,
  ⟨34936962209215906, 15, 1388083467854029, 15, 1298280334344292, 15, 11, 0x4799cffd7fc36588963e2d, 32⟩,
  ⟨-6332658713559093, 13, 13861521732800481, 16, 1298280334344292, 15, 22, 0x91a896cce867f076494ab832d849887fac3c9491a509, -631⟩,
  ⟨4159880327640508, 14, 13861521732800481, 16, 1298280334344292, 15, 33, 0x37beddf8d87e76b7532e6cd22888ca1f4a3bc4c46cdbc98ad276c6648738aa0da7, 42⟩,
  ⟨26916180778126767, 14, 13854818907775874, 16, 1298280334344292, 15, 33, 0x4b28dfff23342156c55db2570fd92f4bf27f5d6e42f5a9deb2b820accd8eb00ecf, 269⟩,
  ⟨-6422069479628034, 14, 13854818907775874, 16, 1298280334344292, 15, 11, 0xe13b6730691fb51609ce80, -65⟩,
  ⟨-5243700102292398, 13, 13856413196689334, 16, 12982803343442921, 16, 44, 0x2aa909ab293a2029cfff78441c7e33982b446f9079bd222aeb67ff0c1cb9f27bee2e1aa7eff751ce88e17629, -527⟩,
  ⟨-42715073640599303, 14, 13856413196689334, 16, 12982803343442921, 16, 22, 0x65f7edf263c4b8f14d5fc8bdec3ee654d76f85b48e00, -428⟩,
  ⟨31336982263621843, 14, 13850005883394987, 16, 1298280334344292, 15, 33, 0x2c610ec05978b0aa59aef21c7569be16962cc9b5ed8c4bd67e18c36c9d11372d0e, 316⟩,
  ⟨22806318246047206, 16, 13850005883394987, 16, 1298280334344292, 15, 11, 0xca7d5041c9fc7de1563246, 2⟩]

/-- tests/test_samplerz.cpp:14324-14973. -/
def kats1024_14 : List Kat := [
  ⟨8633129888160646, 14, 13673420111268912, 16, 1298280334344292, 15, 44, 0x140762e2be78fe9a557b8e2ba78a488578174650e74d3df4014edbab620489f182f36861d6f07a19facdad75, 87⟩,
  ⟨-14468898964972956, 14, 13673420111268912, 16, 1298280334344292, 15, 11, 0xcb103a19793106d1e0a158, -144⟩,
  ⟨-15681283014872395, 14, 13668150610383452, 16, 1298280334344292, 15, 22, 0x0e26be7bd66def73a61c9eb0afc0a03fd7e0be44fb12, -156⟩,
  ⟨-22938326583756, 11, 13668150610383452, 16, 1298280334344292, 15, 11, 0x56442d867715a9b86c3b3b, -228⟩,
  ⟨-37625336276722095, 15, 13663538755817066, 16, 1298280334344292, 15, 22, 0x75e83b2094f02e91146fdceec5912259888a0ba15a4f, -38⟩,
  ⟨-334161701403298, 12, 13663538755817066, 16, 1298280334344292, 15, 11, 0xe5df9f418bdc07e53a3b64, -334⟩,
  ⟨394414684954809, 12, 13658793256751165, 16, 1298280334344292, 15, 11, 0x8efb7f5a7d511b2cbf3ea0, 393⟩,
  ⟨-19937014555324396, 15, 13658793256751165, 16, 1298280334344292, 15, 11, 0xb6028b75534bf9f91cd619, -20⟩,
  ⟨-2171418143947608, 13, 13647548440945139, 16, 1298280334344292, 15, 22, 0x9963cc726cbe770dd8d4a587dc3f05de2a67ab014861, -219⟩,
  ⟨-27962678038277744, 14, 13647548440945139, 16, 1298280334344292, 15, 11, 0x8ebc85dcd87baf73f6ea17, -281⟩,
  ⟨25443103744724687, 14, 13643384622250796, 16, 1298280334344292, 15, 22, 0x5117cd0fb1c5147e716bfdeba430afddcc9dcb97aa73, 254⟩,
  ⟨-628975613218742, 12, 13643384622250796, 16, 1298280334344292, 15, 33, 0xacc93224aff533981c25c54b8bc55825ff2af0154fef9a084a674e4c8fa6925401, -630⟩,
  ⟨-2532312739137888, 13, 1363991371689524, 15, 1298280334344292, 15, 11, 0x9758891701f7c739d0431c, -252⟩,
  ⟨-38177930186152474, 14, 1363991371689524, 15, 1298280334344292, 15, 11, 0xbfdc033759068b448a122b, -382⟩,
  ⟨5321865620546557, 13, 1363611214331098, 15, 1298280334344292, 15, 66, 0x97fc7c10f6a83f0b9824dccad630fc69f54d0f4391d601f53ebcc5d2f29b1fc31e51c430a4c0cb67341d8bdf9309223b0e7e5c38f112d0882991406c888e5bea0ca6, 531⟩,
  ⟨-6050276533441558, 14, 1363611214331098, 15, 1298280334344292, 15, 33, 0x48382661750a3a26cd3bde666413bf44c999874a5edad44aff373fe9e921b0b2b6, -61⟩,
  ⟨1731374273840255, 13, 136448850402587, 14, 1298280334344292, 15, 11, 0x511b17106037f2a2c49229, 171⟩,
  ⟨-19358833089784184, 14, 136448850402587, 14, 1298280334344292, 15, 33, 0x6303b4e389053ddc197fcb67e362a3360fc600fc4ff9fc5b715f913038088e3d15, -193⟩,
  ⟨-34115513759648096, 15, 13640293970069, 13, 12982803343442921, 16, 11, 0xa8cd3f3c4aed2a56b7184a, -35⟩,
  ⟨-1740295688285967, 14, 13640293970069, 13, 12982803343442921, 16, 11, 0x9fd52a88885728d50c0678, -19⟩,
  ⟨-353061499173034, 12, 13633900717152687, 16, 1298280334344292, 15, 11, 0x94555b39f63c2ffce5dd0d, -352⟩,
  ⟨1598031391782405, 13, 13633900717152687, 16, 1298280334344292, 15, 11, 0xe8d4f17bb620bb89828861, 159⟩,
  ⟨17813361337916177, 14, 13629851092266538, 16, 1298280334344292, 15, 22, 0x7957bf7813d6f04d976982c29d9701bd8f00a66a4656, 178⟩,
  ⟨17304820214778107, 14, 13629851092266538, 16, 1298280334344292, 15, 33, 0x3343af4b402887e221ea99073f19e7b2ef02c8ca2322baa1e0a04984247f4b7425, 173⟩,
  ⟨-1304173293572191, 13, 13620389487261855, 16, 1298280334344292, 15, 22, 0x1afad48b0fbc027cac5556abd9315d86bd16e1c66701, -130⟩,
  ⟨-6958868605854572, 14, 13620389487261855, 16, 1298280334344292, 15, 33, 0x99c9118ceeebab737519e886410aa239fd1abf3dfcc4abd5dd30b2b65297e6eee0, -70⟩,
  ⟨15015676973920606, 14, 13616774853555575, 16, 1298280334344292, 15, 34, 0x41d373a2c799575165175b18910b470c21b9ea610ae38d9cf207bba1e5f7dcb1711d, 152⟩,
  ⟨8558369484705538, 14, 13616774853555575, 16, 1298280334344292, 15, 11, 0xe9ca7cbe0461c1cebdf3de, 86⟩,
  ⟨-3492904851769692, 13, 13611691579248042, 16, 1298280334344292, 15, 22, 0x3a84473c6bc2da2d293e9e8794069032a762b8b22c52, -351⟩,
  ⟨-2094093429955057, 13, 13611691579248042, 16, 1298280334344292, 15, 22, 0x4b6d059be4ac072ab545f64169c594f4873432ea5158, -207⟩,
  ⟨6231883149469235, 13, 13608459934413086, 16, 1298280334344292, 15, 11, 0xca7c89fed96f1f75a7167f, 623⟩,
  ⟨-24289240558057355, 14, 13608459934413086, 16, 1298280334344292, 15, 11, 0xbe1f1f3254cd626a2745b3, -242⟩,
  ⟨4940135022079369, 13, 13561288263804503, 16, 1298280334344292, 15, 11, 0xb84b4a9e7a3b48d3db7461, 494⟩,
  ⟨-2112411487220456, 13, 13561288263804503, 16, 1298280334344292, 15, 11, 0x9cdbce647e92ccae4beb32, -210⟩,
  ⟨-15331020431504987, 14, 13552748163444188, 16, 1298280334344292, 15, 11, 0x61526d3dc732843be4bb52, -152⟩,
  ⟨-3973228297844967, 13, 13552748163444188, 16, 1298280334344292, 15, 11, 0xdae5af5c716cf3411e9626, -398⟩,
  ⟨-4516688658678189, 13, 13551595182503156, 16, 1298280334344292, 15, 11, 0x7e971dd2248379e8e8be09, -453⟩,
  ⟨6732986361386659, 14, 13551595182503156, 16, 1298280334344292, 15, 11, 0xc0b83fabc45a162be66e01, 67⟩,
  ⟨4297179835131272, 13, 13543669134438654, 16, 1298280334344292, 15, 22, 0x1874e8b107d32e89adedcd23ad84f885e66c8d130c23, 427⟩,
  ⟨4500644611227416, 14, 13543669134438654, 16, 1298280334344292, 15, 22, 0xa409b56c3cbe19e4b8fefdf11057235ca5c2d07cdf77, 46⟩,
  ⟨-45408553117906524, 14, 13535647100213546, 16, 1298280334344292, 15, 11, 0x4672c21da46a3926518b7f, -452⟩,
  ⟨-5831282059767717, 13, 13535647100213546, 16, 1298280334344292, 15, 11, 0xb2b40d6c4713cb4d8d2dde, -583⟩,
  ⟨761846825582644, 12, 13528741268599678, 16, 12982803343442917, 16, 22, 0x18021ae9c245bdba055a34eccf8e066ea954dcd9f146, 762⟩,
  ⟨-16973885569063236, 14, 13528741268599678, 16, 12982803343442917, 16, 11, 0xdba40fd1eabe2aa95b041b, -170⟩,
  ⟨1641327914924278, 13, 13528316423933884, 16, 1298280334344292, 15, 11, 0x4a974ca064acb775d4ca15, 162⟩,
  ⟨-29994725555687603, 14, 13528316423933884, 16, 1298280334344292, 15, 22, 0x58d7444dcf86251d566cef69149db59ecb120c652b3f, -298⟩,
  ⟨4410099639913765, 13, 13521822050030747, 16, 12982803343442921, 16, 11, 0xaa6e86c3d816db68d7cacb, 441⟩,
  ⟨-48386973607664316, 14, 13521822050030747, 16, 12982803343442921, 16, 11, 0x99c933cea92b8680df4d18, -482⟩,
  ⟨39505330617675327, 14, 1352655193798591, 15, 1298280334344292, 15, 22, 0xfc67e57746eb6e012ff1ef50825ac422198dc3e5664c, 393⟩,
  ⟨-4356779905353844, 13, 1352655193798591, 15, 1298280334344292, 15, 11, 0xe759d8d7227ad735dbe99a, -435⟩,
  ⟨18831159772075654, 14, 13518276373062958, 16, 1298280334344292, 15, 22, 0x36d3dc0570787a6db48282b51fc694d89d02aea2713b, 189⟩,
  ⟨-3329245004767659, 13, 13518276373062958, 16, 1298280334344292, 15, 11, 0x854364e53f1d5072bdf01a, -334⟩,
  ⟨-36687139650358887, 14, 13515774042938355, 16, 1298280334344292, 15, 22, 0x19cde9eb2d4b81f90f6141d86ab7bf3334a6468f7435, -367⟩,
  ⟨13418114579200727, 14, 13515774042938355, 16, 1298280334344292, 15, 11, 0x3f9257b98400b44a4ce616, 132⟩,
  ⟨2657309699378269, 13, 1350816532172911, 15, 1298280334344292, 15, 11, 0x6d969bd2dc82a26e8ff5a6, 267⟩,
  ⟨6343211230891838, 14, 1350816532172911, 15, 1298280334344292, 15, 22, 0x236d729582f4cce26ca58a768d00af42248352fb8c59, 62⟩,
  ⟨33979923024343876, 15, 1350210819303099, 15, 1298280334344292, 15, 11, 0xe2785a52f4d070614e2284, 33⟩,
  ⟨-7618136709102559, 14, 1350210819303099, 15, 1298280334344292, 15, 22, 0x52e31fafed0e9fed058dcca96c2148b6f32b2bc49095, -77⟩,
  ⟨-2100743672987052, 13, 13495372545192938, 16, 1298280334344292, 15, 11, 0x2212b26d6cf5eefa56b32b, -207⟩,
  ⟨-14489570955589522, 14, 13495372545192938, 16, 1298280334344292, 15, 22, 0x00be792fd9b4918f9b67604c84dd3f23e17527439116, -142⟩,
  ⟨-9018458758368811, 14, 13493726166252442, 16, 12982803343442921, 16, 22, 0x5c5aba0f862d593cba808aa9867d1c1b1f25fb792f06, -90⟩,
  ⟨-2557738375055932, 13, 13493726166252442, 16, 12982803343442921, 16, 22, 0x32a9039c430ec2a8c40376b01a7e1e75157debe6fc81, -256⟩,
  ⟨-1325774695799199, 13, 13487451691127221, 16, 1298280334344292, 15, 11, 0xc9e8518bccf5afc73eefbc, -132⟩,
  ⟨28894553845574876, 14, 13487451691127221, 16, 1298280334344292, 15, 111, 0x20230718d576dfb4cb85ee5e27270e6ced3f6694bfd35e15aeafbf0a3a9578bbbfb23f059e2914a32ceffe0e4976aa2952a060b4d13986c614497c11cd2a970fa21cbab39b2cbd4e91ac3eb964d453d876a70c90f04d5e967586c03a0a1fa4d3de711beecee1110865e3047d366fc2, 289⟩,
  ⟨-21509037887804035, 14, 1345515727426674, 15, 1298280334344292, 15, 22, 0x9c82126929f91e7bb432c77c404431356f31bf18422a, -217⟩,
  ⟨-2360026766180728, 13, 1345515727426674, 15, 1298280334344292, 15, 22, 0x3bc405e6478eccd832fc956511ac7b824bc28e1ed41d, -238⟩,
  ⟨23585212537325447, 14, 13443033877194945, 16, 1298280334344292, 15, 11, 0xe6add7e45c86d356c79f7f, 236⟩,
  ⟨-5606562072267873, 13, 13443033877194945, 16, 1298280334344292, 15, 22, 0xbcad9eecdcd85cea43def4e9863047ff51d2b870925f, -561⟩,
  ⟨-2652777322482321, 13, 13442908155149662, 16, 1298280334344292, 15, 11, 0x61cf43b7a8cbc38f5fd94c, -264⟩,
  ⟨-23557322205110503, 14, 13442908155149662, 16, 1298280334344292, 15, 11, 0xf90a22b3edf2c99d2a92b7, -236⟩,
  ⟨2045382962702948, 13, 13431520172167288, 16, 1298280334344292, 15, 33, 0x5fef9b2cb86c2e17dabab649e451d4debfa06da114a4a5f6b12c19c9e42c427311, 205⟩,
  ⟨-293311845541893, 12, 13431520172167288, 16, 1298280334344292, 15, 11, 0xe1daeaa95dfaeb377d0625, -294⟩,
  ⟨-2835021560455123, 13, 1343006779939405, 15, 1298280334344292, 15, 11, 0x9dcd1a81ef383b808cc744, -282⟩,
  ⟨-22575024588774085, 14, 1343006779939405, 15, 1298280334344292, 15, 55, 0xeda49b8df0cdee26677cf923e9e423294bbedb4dcccc4eaa685ab7e8aeb3c15aa50710ed34e55cb552261ae8bb51ebb8c3cb9419614778, -225⟩,
  ⟨-3207097765801539, 13, 13419523553940196, 16, 1298280334344292, 15, 11, 0xc3f1e095d8f7dff4f193b0, -320⟩,
  ⟨-3227227066828713, 13, 13419523553940196, 16, 1298280334344292, 15, 11, 0x9fe1ad78d21171a7b21e93, -324⟩,
  ⟨-5130190158706396, 13, 13420138469449123, 16, 1298280334344292, 15, 22, 0x0e42b2dddd3196223ba582c109189d42a6304c8d9e32, -514⟩,
  ⟨-6792885742281012, 13, 13420138469449123, 16, 1298280334344292, 15, 11, 0xf692989d145cf0aa5f7b98, -679⟩,
  ⟨7675422904837649, 13, 13410115672401086, 16, 1298280334344292, 15, 66, 0x464aa65893509b5f33d47ee73ad67a17a34d5100c4fe3132d9930f720cb4ef49afa251126c8ac1df55ca62d6d37db05b233e6cc12baaf37668eb5392c4888a12d629, 766⟩,
  ⟨-45306979991841126, 14, 13410115672401086, 16, 1298280334344292, 15, 11, 0xab8b1c0fdc3b99cb8b9201, -454⟩,
  ⟨24006366294636393, 14, 1342638485671465, 15, 1298280334344292, 15, 11, 0xae063fe00452621c105b38, 241⟩,
  ⟨18814647058542658, 14, 1342638485671465, 15, 1298280334344292, 15, 55, 0x321f88b1d734c08e633aa1a050fdf277242a9c264b824c674c55d231e0c54af9dd39f5e1afba5a2d12903d53e1a869dbf7c0fa1d3e616f, 189⟩,
  ⟨3098502310531087, 13, 13414807059291443, 16, 12982803343442921, 16, 11, 0xf1219661c35f9c25d29876, 309⟩,
  ⟨-2574335718483137, 13, 13414807059291443, 16, 12982803343442921, 16, 11, 0xaad0cd66f1c521e7b092ad, -258⟩,
  ⟨12130879447481311, 14, 13413686500392201, 16, 12982803343442917, 16, 33, 0x2d9d38a44c3de0ae24287829ffeea0d76135de7cedc8ea43b291a502848a9b4c03, 121⟩,
  ⟨-23088997435961528, 14, 13413686500392201, 16, 12982803343442917, 16, 11, 0x802be945b2245f91d6d067, -232⟩,
  ⟨29078209345990854, 14, 13402914406768658, 16, 1298280334344292, 15, 22, 0x57a04372fd6006f029d1c13b097b5ba36904749f0910, 293⟩,
  ⟨-24858837746493842, 14, 13402914406768658, 16, 1298280334344292, 15, 11, 0x59f710738fdb9d673a7f35, -247⟩,
  ⟨-507926310432504, 12, 13402357586814164, 16, 1298280334344292, 15, 11, 0x700b4871c3bc9c98f7670a, -506⟩,
  ⟨7389531818516028, 14, 13402357586814164, 16, 1298280334344292, 15, 11, 0x9dc07fdf4631af7a1ac664, 72⟩,
  ⟨-2932079486945862, 13, 13392242542349018, 16, 1298280334344292, 15, 33, 0x4dfeb11eff6c1c2ff9bacb2fbf3f3c6d4f21f5d602a73591ff08423ac814783d03, -291⟩,
  ⟨-556074932546483, 13, 13392242542349018, 16, 1298280334344292, 15, 22, 0x96f6bc2ada3cca66dca0ed9c18d77eca200a8985ff3b, -54⟩,
  ⟨1094810133831626, 13, 1339194146465189, 15, 1298280334344292, 15, 11, 0x5e57e45cfc7caa0d6a3d25, 111⟩,
  ⟨-1907354323498425, 13, 1339194146465189, 15, 1298280334344292, 15, 11, 0xf211c9e83456d848273f10, -190⟩,
  ⟨1603331293577666, 13, 13382421431153044, 16, 1298280334344292, 15, 22, 0x5eae5e5ca29992d2e09ab9c47c4044091aa128a26670, 160⟩,
  ⟨-18404110315227072, 14, 13382421431153044, 16, 1298280334344292, 15, 11, 0xe81b457bba983cc32f4215, -185⟩,
  ⟨470760238253133, 12, 13370282434283285, 16, 1298280334344292, 15, 11, 0x79de2ae5ae91d05de26398, 472⟩,
  ⟨-23677645999684754, 14, 13370282434283285, 16, 1298280334344292, 15, 11, 0x11ee35bf67fbbe8fcd982b, -240⟩,
  ⟨-18735834552394846, 14, 13355204846607978, 16, 1298280334344292, 15, 11, 0xc46177bee8018ca64995d8, -187⟩,
  ⟨-19934224170757963, 14, 13355204846607978, 16, 1298280334344292, 15, 22, 0x1aa3f7ad6ec1821f1aca52df85edd29e5350f45ea65b, -200⟩,
  ⟨22633486279062495, 14, 13357515124836756, 16, 1298280334344292, 15, 22, 0x03b2dd8492152c96ee8484ad5a433b2e363b7c405722, 227⟩,
  ⟨10525422121445322, 14, 13357515124836756, 16, 1298280334344292, 15, 22, 0x8e9ec82e9322a9e62fbbcfea05c67e3a5ba550f191a1, 106⟩,
  ⟨-18062638947039565, 14, 13343060365486392, 16, 1298280334344292, 15, 11, 0x6cf750a0510cf78fa99670, -182⟩,
  ⟨-10348797665892533, 14, 13343060365486392, 16, 1298280334344292, 15, 11, 0x68a08d803fd9836bc93430, -105⟩,
  ⟨8200492819197356, 14, 13341411275817623, 16, 1298280334344292, 15, 33, 0x0e70203e3a0c36085fbde568a2609e84365cf9e525b4823375d4ab153f75160d03, 84⟩,
  ⟨41310727682305526, 15, 13341411275817623, 16, 1298280334344292, 15, 22, 0x4476c15d3f4eb70efd78d75d024743ca813f721d041c, 40⟩,
  ⟨3376656093773757, 14, 13328109233100673, 16, 12982803343442921, 16, 11, 0x735a91ca1b166727506e66, 32⟩,
  ⟨16893689821831217, 15, 13328109233100673, 16, 12982803343442921, 16, 22, 0x611baf9821415f3a1b55f4542af8ea7d1c6665e3e750, 19⟩,
  ⟨-6891786305314346, 14, 13330884169255, 13, 1298280334344292, 15, 22, 0x37ee41e791b47a9b5227dc4eeedffb016d7ee7efd683, -71⟩,
  ⟨-11002934392482788, 14, 13330884169255, 13, 1298280334344292, 15, 33, 0x0af87ee03dd31dca6afb9eb33c72f4c7a2f2c05dccefd9fe7dde9b77b49f635c3b, -111⟩,
  ⟨-7082534851895689, 14, 13317960698351219, 16, 1298280334344292, 15, 34, 0x60de2ba3d64790ec5c5cc4d35ab9d39e7de559dff92f934dfff0b62b39e1702c4c49, -73⟩,
  ⟨-11383986155170943, 14, 13317960698351219, 16, 1298280334344292, 15, 11, 0x8652a302f037f7631a8142, -112⟩,
  ⟨-8253645183028712, 14, 13341627924702368, 16, 1298280334344292, 15, 22, 0x61aafc9dec8f93aac8d2cb9cdea701a5d008bc48a04c, -84⟩,
  ⟨-19814022752905154, 14, 13341627924702368, 16, 1298280334344292, 15, 22, 0x4fc81560007cc3fa11e3f4e2bd58e6b68f1f620782a3, -199⟩,
  ⟨36921029176076814, 14, 133271326798152, 14, 1298280334344292, 15, 33, 0x095d193d7e9d24bac73bf606bab15ba5cba907e0c9f2775c77fe96f43e6c481d4e, 371⟩,
  ⟨-17844980681578755, 14, 133271326798152, 14, 1298280334344292, 15, 11, 0xdbdb902184fa93fc901a21, -179⟩,
  ⟨-28491641178494314, 14, 13328415149402206, 16, 12982803343442917, 16, 11, 0xf83c103fada2637ee156cf, -285⟩,
  ⟨-11327118216071368, 14, 13328415149402206, 16, 12982803343442917, 16, 55, 0x97cceb1a4eb1a95248c0890bb9dbe84f1523cd2255b2114415c2f97f5ec654acce2efcb45160c72bf92d2ddcd68e5d9665c2fce314efb5, -113⟩,
  ⟨3922794778785714, 13, 13314634509077037, 16, 1298280334344292, 15, 11, 0xd3d19768f13d00b29ad863, 392⟩,
  ⟨-29960165791304047, 14, 13314634509077037, 16, 1298280334344292, 15, 33, 0x9f9d9a8282d8a518209fb843af0736cbd659bd96dfa056fc7c01d03bbb11f40ea5, -301⟩,
  ⟨-2829160484009639, 13, 13313624605021346, 16, 1298280334344292, 15, 22, 0x10b7af176cc3213c18f9888ce2ecf3c2dc27987cf346, -281⟩,
  ⟨-3985536744103577, 13, 13313624605021346, 16, 1298280334344292, 15, 22, 0x3d357c1c7d8f7c4dd65a9455283d4c9fea383459b295, -400⟩,
  ⟨-29813413161739355, 15, 1330077235593349, 15, 1298280334344292, 15, 11, 0xa4021b74c228ebe1b472d8, -30⟩,
  ⟨7179265708527117, 14, 1330077235593349, 15, 1298280334344292, 15, 11, 0x6225795b0f82241cc7b1be, 73⟩,
  ⟨-30895237789461714, 14, 13302643469676407, 16, 1298280334344292, 15, 44, 0x1bee1bc081a04ea5c6f37c729d0cc134e2102e96518433776eaaa53b0daeb997d599645fd4524b5d34c57021, -310⟩,
  ⟨-1413610724197673, 13, 13302643469676407, 16, 1298280334344292, 15, 11, 0x7bc23d19ae2575a27b3019, -143⟩,
  ⟨-3293241770870395, 13, 13290265510848986, 16, 1298280334344292, 15, 22, 0x02a2001e75c1f8dadc14e5d4ea70aaff591711ffbd23, -329⟩,
  ⟨-25215968021389853, 14, 13290265510848986, 16, 1298280334344292, 15, 22, 0x1f77ac9ff5bdb3787372beb79bd1940175772eb87d33, -252⟩]

/-- tests/test_samplerz.cpp:14974-15626. -/
def kats1024_15 : List Kat := [
  ⟨-13270354585708414, 15, 1340671238640979, 15, 1298280334344292, 15, 44, 0x3ca057f6d89206d72a89da53821b541882aed4f5a99e2d5ce23cfee2b28c93e8cd243f5c4c54262d7df31b19, -11⟩,
  ⟨-42957000218289664, 15, 1340671238640979, 15, 1298280334344292, 15, 11, 0xe492159a5f43f2a014201e, -43⟩,
  ⟨-24814826249244655, 14, 13402444694603015, 16, 1298280334344292, 15, 22, 0x0e99ed46ff8f1c2c3512a8178c98a5e10216c5063c0b, -252⟩,
  ⟨-3641219782034842, 13, 13402444694603015, 16, 1298280334344292, 15, 11, 0x55f1ea63f9ba5ed18c73c8, -363⟩,
  ⟨-17446740951664003, 14, 13393428168789994, 16, 1298280334344292, 15, 11, 0xcb0697aeead0d2c3550060, -175⟩,
  ⟨-26459825844391406, 14, 13393428168789994, 16, 1298280334344292, 15, 22, 0x5e32a7a4a43693a9accdc2e470af35fedf708d71e7c1, -264⟩,
  ⟨1571626630104377, 13, 13389776424967827, 16, 1298280334344292, 15, 11, 0x769ceee1661cf268925b5e, 159⟩,
  ⟨-14172486379952795, 14, 13389776424967827, 16, 1298280334344292, 15, 11, 0xfafef0911b016223a52b40, -141⟩,
  ⟨-262804821311031, 13, 13378040055356308, 16, 1298280334344292, 15, 11, 0xa518dfd1fdefedcd4ede18, -27⟩,
  ⟨-5258303103932407, 13, 13378040055356308, 16, 1298280334344292, 15, 22, 0xe1f9a2ec0c7da5093cfbf09a6d24a047b8087106cea9, -527⟩,
  ⟨37481295445015675, 15, 13374879338185985, 16, 1298280334344292, 15, 66, 0x6945dbfe28f9efa722f2cf12a117b816d0705303dff0791626005bef95ac0010e1f56a40456aab128a1ec2fc4fe4bcecf28170130e327998f00718dafdf4bcf3b58a, 39⟩,
  ⟨-5935259607122981, 13, 13374879338185985, 16, 1298280334344292, 15, 11, 0x4f2369d2d301a9c13eee0e, -596⟩,
  ⟨-1764749281178875, 14, 13367609934725322, 16, 1298280334344292, 15, 11, 0xf5b641e6f734fa3959be6f, -18⟩,
  ⟨-2399176086301227, 13, 13367609934725322, 16, 1298280334344292, 15, 22, 0x0042bf43a339b6b8346f16fc4e11db7c822358b9133a, -239⟩,
  ⟨6952612351050382, 13, 13364865480003214, 16, 1298280334344292, 15, 33, 0x5edeec42facfb8a80719d838f097e1a513706ca84bf09134df0d5560dff5715833, 694⟩,
  ⟨-3584640959562329, 13, 13364865480003214, 16, 1298280334344292, 15, 11, 0x71aaa2f2d45916a88f5948, -357⟩,
  ⟨42262923070477177, 14, 13380132073867024, 16, 12982803343442921, 16, 22, 0x0bc6d0fbf03ebb82013d69e6c22630472daef7a5e7c8, 423⟩,
  ⟨7977808192420014, 14, 13380132073867024, 16, 12982803343442921, 16, 11, 0x9f38f494bcfe75b7c39e21, 78⟩,
  ⟨1021093294017677, 13, 13376193498261577, 16, 1298280334344292, 15, 22, 0x7b700ed811c6d835ebbf9beea3e03a0b6f5c6b061596, 103⟩,
  ⟨11484906663851575, 14, 13376193498261577, 16, 1298280334344292, 15, 22, 0x4751aaff3f013cae6c6899fb9462edef3d6ec3d52c2e, 114⟩,
  ⟨1817569455954764, 14, 13366045089780736, 16, 12982803343442921, 16, 11, 0xe25e73ff2a11dbb94ef9b8, 19⟩,
  ⟨-18531667268062026, 15, 13366045089780736, 16, 12982803343442921, 16, 22, 0x01475abee87581f5f687f2a3e1f2c7283ef9cb026069, -20⟩,
  ⟨5007340338702288, 13, 13362736929903394, 16, 1298280334344292, 15, 11, 0xc6e819987dc5cb31fbc706, 501⟩,
  ⟨17734877589745832, 14, 13362736929903394, 16, 1298280334344292, 15, 11, 0x7c57a466373256510c9f0a, 179⟩,
  ⟨2519476383492861, 13, 13352805266322123, 16, 1298280334344292, 15, 33, 0xf8793e417b57d57b56d6cf0ccc1b3c8946ca8615589e71225e02e358b7c67ef337, 253⟩,
  ⟨-5961368247598762, 13, 13352805266322123, 16, 1298280334344292, 15, 11, 0x7015cb5e0cd709dad20f0f, -595⟩,
  ⟨947656149536118, 13, 13349899352491732, 16, 1298280334344292, 15, 11, 0xe164726fc49a684a674b30, 95⟩,
  ⟨-336588056558045, 12, 13349899352491732, 16, 1298280334344292, 15, 11, 0xff3bfa8f486646c886453d, -336⟩,
  ⟨15614285363068853, 14, 13341595617819013, 16, 1298280334344292, 15, 11, 0xd40d098f60975243f766aa, 156⟩,
  ⟨646726985010241, 13, 13341595617819013, 16, 1298280334344292, 15, 11, 0xc42abc0f54ad25ed8d8d8a, 65⟩,
  ⟨11848125569708124, 14, 13339121363115916, 16, 1298280334344292, 15, 44, 0x088b5b812b727db88769c1097af64d3447bdced16ff7099c92d4d931bd716598b470f869bc57b1ec5e931504, 120⟩,
  ⟨-15376521687071696, 15, 13339121363115916, 16, 1298280334344292, 15, 22, 0xba48944ebcad56f2c3a7f75d208143c7cce20543c25d, -17⟩,
  ⟨-9549570077615459, 14, 13314664236119418, 16, 1298280334344292, 15, 33, 0x430fd6c854ee83a44785970e703c1107051103bc0adc7dccc3d6c1311f5c17f771, -94⟩,
  ⟨50539138589829855, 14, 13314664236119418, 16, 1298280334344292, 15, 33, 0x1dc4bd14c7821e7705e1c22d171ef7ffab00c32c808fe149754357f1b1fc18f3cf, 506⟩,
  ⟨12442589551971713, 15, 13307872793484028, 16, 1298280334344292, 15, 11, 0xa22f46ee3a485ca8547956, 14⟩,
  ⟨-3827960438564771, 13, 13307872793484028, 16, 1298280334344292, 15, 55, 0x303b382855cec225994c769a12b094be716c7c08bd833464f05c0d7485372e6b7f141df3d57ca60f6af85072fef632ce3e2424e0d7e8d7, -383⟩,
  ⟨-3487449730941719, 13, 13301905129598222, 16, 1298280334344292, 15, 11, 0x3e95da43b9ccde9e48566a, -351⟩,
  ⟨-14248074340410105, 14, 13301905129598222, 16, 1298280334344292, 15, 11, 0xbe2ec78f99503e61a370c0, -143⟩,
  ⟨5420670321147444, 13, 1329580542411215, 15, 1298280334344292, 15, 11, 0xc5314ed3b8c9fff6f796ee, 542⟩,
  ⟨12792508110423368, 14, 1329580542411215, 15, 1298280334344292, 15, 11, 0xe7a46321bc957c4f22d1f3, 128⟩,
  ⟨-24055976807984814, 14, 1328533014059807, 15, 1298280334344292, 15, 11, 0xef163efcad8a28cf503d69, -240⟩,
  ⟨-8651454252520072, 14, 1328533014059807, 15, 1298280334344292, 15, 11, 0xf352a89dcd5bd571ad6d79, -86⟩,
  ⟨48007883724752827, 14, 1328009895859232, 15, 12982803343442921, 16, 11, 0xd40fb49bf24da030d101a5, 481⟩,
  ⟨-18991084378130753, 14, 1328009895859232, 15, 12982803343442921, 16, 22, 0x202679215246dbd55bd65de2a050e62b657f5ab2011f, -189⟩,
  ⟨-19619922076707343, 14, 1327554796419133, 15, 1298280334344292, 15, 44, 0x7d394f6226832dce6a547e1eed580a9e3249e699da6b7af896532746fb3925abdd5dd16c035dccb538dc3608, -198⟩,
  ⟨60345287335479725, 15, 1327554796419133, 15, 1298280334344292, 15, 22, 0xae10676871e322b85a52f9f81a0926a354979f48a9aa, 61⟩,
  ⟨4012931227615326, 13, 13270772480244246, 16, 1298280334344292, 15, 11, 0xcf7379e02ea48f074f67d7, 402⟩,
  ⟨18778427160381722, 14, 13270772480244246, 16, 1298280334344292, 15, 22, 0x03e015a859956d5fcfc61f665f17571c8996a45b1224, 186⟩,
  ⟨2459952132756128, 13, 13283174247142444, 16, 12982803343442917, 16, 11, 0xeec7f3fe0a340eee8e6fa2, 246⟩,
  ⟨-11916684303769074, 14, 13283174247142444, 16, 12982803343442917, 16, 11, 0xf2cd8d9fbd0e8b52c9c771, -119⟩,
  ⟨2601025324181727, 13, 13276344109020064, 16, 1298280334344292, 15, 11, 0xcd4eb88e6595df81ea0690, 260⟩,
  ⟨54070910414409, 11, 13276344109020064, 16, 1298280334344292, 15, 11, 0xd50e20cc2ec31d4961f4ad, 540⟩,
  ⟨-2631324645307447, 13, 13269459167910855, 16, 1298280334344292, 15, 11, 0xa0a759a9830796a7bc1dc8, -262⟩,
  ⟨5094522652243013, 14, 13269459167910855, 16, 1298280334344292, 15, 11, 0x70142a1bcca61ca616639f, 52⟩,
  ⟨36899291034934294, 14, 13263363648460869, 16, 1298280334344292, 15, 11, 0xefe944bb8bf017e2abe178, 369⟩,
  ⟨15024540588956927, 14, 13263363648460869, 16, 1298280334344292, 15, 11, 0xd0767490d47e8f4fb6b7ce, 151⟩,
  ⟨-263058775345333, 12, 13255049919473108, 16, 1298280334344292, 15, 11, 0xc5622131f09781eae7a9a5, -263⟩,
  ⟨-12702937603563976, 14, 13255049919473108, 16, 1298280334344292, 15, 11, 0x2659a15c786b49c6a55911, -125⟩,
  ⟨-10504848298704673, 14, 13249732172915216, 16, 1298280334344292, 15, 44, 0x9337171beba6fd12f887ed56dfbf3b43b2c2c488d0f4947517fbaec3985d2bdff744506966453b938503d97b, -103⟩,
  ⟨24415770778299103, 14, 13249732172915216, 16, 1298280334344292, 15, 11, 0xc23893c614ed77a3ca6a59, 244⟩,
  ⟨-5898698883687866, 14, 13244331334472144, 16, 1298280334344292, 15, 11, 0x8ce63423aa0a196ca3b636, -60⟩,
  ⟨9556200992068916, 15, 13244331334472144, 16, 1298280334344292, 15, 44, 0x387cc3d01aa52d24cb7651655d92bed9d347874d73e642863a80c0c024cd8560be5b75a3515420f86f852719, 11⟩,
  ⟨15907860667903344, 14, 13239508647033233, 16, 1298280334344292, 15, 11, 0x9134ce8181794431ec989f, 158⟩,
  ⟨-13146872526509281, 14, 13239508647033233, 16, 1298280334344292, 15, 44, 0x20fc2ae04396e125ea2ea86897d89eb4feb515fd2bc039a3d8f871a8c18a6857839795b4457120e8310d8b1b, -130⟩,
  ⟨11180206232749634, 14, 13203044864245619, 16, 1298280334344292, 15, 11, 0xbe023f87f602ef608923b6, 112⟩,
  ⟨-16580743418598684, 14, 13203044864245619, 16, 1298280334344292, 15, 11, 0xc724ef550408c013e15c52, -166⟩,
  ⟨57630826146947854, 15, 1319356851563068, 15, 1298280334344292, 15, 11, 0xcfd188e1dba03b70c919d9, 58⟩,
  ⟨-9044761470713684, 14, 1319356851563068, 15, 1298280334344292, 15, 11, 0xfe4776fd86aa0b5831d0a5, -91⟩,
  ⟨12675598701345194, 15, 13187165708628061, 16, 1298280334344292, 15, 33, 0x14257ee48757ba54ce1a4839d812760d14d3438830cbcc9f0caa0a76368c656a14, 12⟩,
  ⟨-7894134780109427, 14, 13187165708628061, 16, 1298280334344292, 15, 11, 0x10da00d723c48ba1e15c38, -82⟩,
  ⟨-3983252652305807, 13, 13178507330995888, 16, 1298280334344292, 15, 11, 0x9650b4440d5b45111e9b8a, -397⟩,
  ⟨8637620792364126, 14, 13178507330995888, 16, 1298280334344292, 15, 11, 0xd46936175f2ac807e71ba1, 87⟩,
  ⟨-22907197533363188, 14, 13174153102988047, 16, 1298280334344292, 15, 11, 0x5705d9ead01885e0d64e2c, -231⟩,
  ⟨-8350838612963548, 13, 13174153102988047, 16, 1298280334344292, 15, 11, 0xbd6920729e5ff9ca8635d1, -835⟩,
  ⟨-19151883189258254, 14, 13166033977213767, 16, 1298280334344292, 15, 11, 0xfd11a050fc37623efd2047, -192⟩,
  ⟨-11821182170603244, 14, 13166033977213767, 16, 1298280334344292, 15, 11, 0x78e743a99adf35cba93f8d, -117⟩,
  ⟨12439255339981625, 14, 13161190422390272, 16, 1298280334344292, 15, 11, 0x62bbcae4beaa4d3c944e4c, 123⟩,
  ⟨-22172476814958637, 14, 13161190422390272, 16, 1298280334344292, 15, 11, 0xfc9921a99f640346918a47, -222⟩,
  ⟨500815180737909, 12, 13153659532584028, 16, 1298280334344292, 15, 11, 0x5bc26d8e911cc919d89f31, 502⟩,
  ⟨-10500108386318708, 14, 13153659532584028, 16, 1298280334344292, 15, 11, 0x90471604a512661d6f0730, -104⟩,
  ⟨2970850228865232, 13, 13178077276728093, 16, 1298280334344292, 15, 22, 0x4f9486471b9f3164b3daefd4159ca9dee88078bc9789, 298⟩,
  ⟨42548691963488903, 14, 13178077276728093, 16, 1298280334344292, 15, 11, 0x9df07f803eb9f27b816200, 424⟩,
  ⟨1488149362619795, 13, 13168785105208274, 16, 1298280334344292, 15, 22, 0x06fa43aacd4939c64a2acee6e15fb393b40288f6f3ee, 149⟩,
  ⟨-4678788099032409, 13, 13168785105208274, 16, 1298280334344292, 15, 11, 0xa24a17e66196f254d66327, -466⟩,
  ⟨-12238427297989216, 14, 1316190642568771, 15, 1298280334344292, 15, 11, 0xedcf6259903f657c8442ad, -123⟩,
  ⟨-451052234752546, 12, 1316190642568771, 15, 1298280334344292, 15, 11, 0x5826612a81e7971736e568, -450⟩,
  ⟨41954750194641053, 14, 13153503196919016, 16, 1298280334344292, 15, 22, 0x1470cb26ac0fdf1193ffcba138cfd1e5c9ebeb5ce913, 421⟩,
  ⟨5840465601331714, 13, 13153503196919016, 16, 1298280334344292, 15, 44, 0x2e62733a4484ab43fb65e30a08a89ad603dea160bd8c520481b57c4be90e3672daeccf08f09e2c58e08f516f, 585⟩,
  ⟨-4253101853971451, 14, 13150091965341155, 16, 1298280334344292, 15, 22, 0x177bd981bb5c358ae5b99697d271d112c39c08217764, -41⟩,
  ⟨-13970590410308063, 14, 13150091965341155, 16, 1298280334344292, 15, 11, 0xe3a3664f6c1372b2442f00, -139⟩,
  ⟨56651766976748384, 15, 13142095514086114, 16, 1298280334344292, 15, 11, 0x65c6e270a95add06a9677f, 58⟩,
  ⟨1603933723367843, 13, 13142095514086114, 16, 1298280334344292, 15, 22, 0x4376e4cf09ac869e3c605ad1e7e2e05f3de1f0deb743, 161⟩,
  ⟨-26156450188690343, 15, 13136818673297812, 16, 1298280334344292, 15, 33, 0x80e3168b712670111cd3d85a5405a9b38658fb3236d2e8a0af7e793fc2c7713ec7, -27⟩,
  ⟨-30096062514066296, 14, 13136818673297812, 16, 1298280334344292, 15, 11, 0xd7c6bee6dc6a7530fff7bd, -300⟩,
  ⟨-3406375135896157, 13, 13129479181363088, 16, 1298280334344292, 15, 22, 0x72825ff508f4fbf98a70c2e25673e5d55ca7e97970dc, -341⟩,
  ⟨-3635173245024618, 14, 13129479181363088, 16, 1298280334344292, 15, 11, 0x368cc670eedee67411b930, -34⟩,
  ⟨3236513499949672, 13, 13131797177283737, 16, 1298280334344292, 15, 11, 0xe4f5a66fd04f26bd7327d3, 324⟩,
  ⟨-3301508972061624, 13, 13131797177283737, 16, 1298280334344292, 15, 22, 0x45c7323a9389ba2f82b7c6b0711669c495aa9082792b, -330⟩,
  ⟨12551407549413274, 14, 13120137155970553, 16, 1298280334344292, 15, 11, 0x632210c53ae3b9aeffc464, 124⟩,
  ⟨-3463884268729863, 13, 13120137155970553, 16, 1298280334344292, 15, 33, 0x9b9ed7be47ee2a7f3879fe324354280564699e6cb6cfce9f0e1f21267013854f1a, -346⟩,
  ⟨-20120916786630235, 14, 13115909736727627, 16, 1298280334344292, 15, 11, 0x242494945d8e1d4ff5f502, -199⟩,
  ⟨-19317466125551445, 14, 13115909736727627, 16, 1298280334344292, 15, 11, 0xb7e158aabc5fd98c14a67c, -194⟩,
  ⟨29319556625113955, 14, 13104981764476387, 16, 1298280334344292, 15, 22, 0x68f98f8f6dd12cc03f81df38f355cf5d686ded679c62, 291⟩,
  ⟨4378527609713134, 14, 13104981764476387, 16, 1298280334344292, 15, 22, 0x95dfc774387018ae8860cda2dc003542e49077eb1842, 42⟩,
  ⟨-2218003633186466, 13, 13099909952920985, 16, 1298280334344292, 15, 33, 0x390ab819528dbb6f16f7ce1e12fa8af079eaa9068a3f9d23fc88109fc586303d06, -220⟩,
  ⟨-45166204010814994, 14, 13099909952920985, 16, 1298280334344292, 15, 22, 0x2e9c8f5328e5ef45aabee25bfbdb6a1ad357ef4a4617, -453⟩,
  ⟨12347114393104131, 14, 13089881699499635, 16, 1298280334344292, 15, 44, 0x348dcf630a530c54b5fc87076bf918cf3cfaf745489a964cfabb304593ed4e09baec491f9f669ddd707a4819, 123⟩,
  ⟨15390085909383623, 14, 13089881699499635, 16, 1298280334344292, 15, 11, 0x89a6c559e03ce9085c1d37, 155⟩,
  ⟨-7472854014999854, 14, 13086966560861137, 16, 1298280334344292, 15, 11, 0xc91a95ff71620dbb8a5a0d, -75⟩,
  ⟨-35099943186744395, 14, 13086966560861137, 16, 1298280334344292, 15, 11, 0xd85cbd3d7dcd82c716f04d, -351⟩,
  ⟨21573281841560146, 14, 13077408303325602, 16, 1298280334344292, 15, 11, 0x44a96d39e3c7e21ab49961, 218⟩,
  ⟨-2631829084765956, 13, 13077408303325602, 16, 1298280334344292, 15, 11, 0xb5a91a4089ea19367c2765, -263⟩,
  ⟨-9071763560893709, 14, 13106872005878325, 16, 1298280334344292, 15, 11, 0xff0307393901cba50cd4d9, -91⟩,
  ⟨-2768529858747044, 16, 13106872005878325, 16, 1298280334344292, 15, 11, 0x90ad3985e23f0b79ca7a56, -2⟩,
  ⟨-8393427918375653, 14, 1309535376785393, 15, 1298280334344292, 15, 11, 0x8561e109c1b6b506301c8a, -85⟩,
  ⟨-6313017730650721, 13, 1309535376785393, 15, 1298280334344292, 15, 22, 0x217a6bf33876542709767b5b980b2baf38bb35ca2658, -633⟩,
  ⟨-20597790190974922, 14, 1309061277363246, 15, 1298280334344292, 15, 55, 0x46757204b3cb1e09817b58f4c73689ff4b17a5e957f376e3818ccbf2ddc490e7f51a26c3d95cf73f6bbf865beb61d9b06047e0d39f4920, -205⟩,
  ⟨-3717339108575824, 13, 1309061277363246, 15, 1298280334344292, 15, 22, 0x50d5d843f4a7cc2ed666fdc69690c1742c0ef04828c2, -372⟩,
  ⟨8819906413517847, 13, 13079907211704227, 16, 1298280334344292, 15, 11, 0xdaa91bf0a30b571ff06854, 881⟩,
  ⟨-11250284271308568, 14, 13079907211704227, 16, 1298280334344292, 15, 11, 0xd3b28f933d3b57e56009bb, -112⟩,
  ⟨-1632581011646621, 13, 13075727839665479, 16, 1298280334344292, 15, 11, 0xfa56db03c0a478cd79d7bc, -163⟩,
  ⟨20236196632443506, 14, 13075727839665479, 16, 1298280334344292, 15, 11, 0xdae9106f82005d6ec06ed1, 202⟩,
  ⟨-12417011710625287, 14, 1306575094178795, 15, 1298280334344292, 15, 44, 0x5e47f7e5ea856abdc93bd3875e23de737482a60b8ee41356e3bf999e25174afc982d78285ea6ad80961b713e, -122⟩,
  ⟨-2644642588675911, 13, 1306575094178795, 15, 1298280334344292, 15, 11, 0x8fbb572b846c121cc2d04d, -266⟩,
  ⟨-12264975197513492, 14, 1306241267501739, 15, 1298280334344292, 15, 44, 0x9845c6596d2455b2dd97b63ab791e37b974eac8658f27c1239cbd7517ca51430e76c4e955902d9b2f71d561a, -124⟩,
  ⟨14119887611700221, 14, 1306241267501739, 15, 1298280334344292, 15, 11, 0xc554ae0b1ea24b6cad94de, 141⟩,
  ⟨3430441653647399, 13, 13052985443865464, 16, 1298280334344292, 15, 11, 0xc9def4eb69b63e60cb5e16, 343⟩,
  ⟨21787844009133536, 14, 13052985443865464, 16, 1298280334344292, 15, 11, 0x2fb0c86ece8d0416d6af13, 220⟩]

/-- tests/test_samplerz.cpp:5236-15627 `falcon1024_samplerz_kats`. -/
def kats1024 : List Kat :=
  kats1024_0 ++ kats1024_1 ++ kats1024_2 ++ kats1024_3 ++ kats1024_4 ++ kats1024_5 ++ kats1024_6 ++ kats1024_7 ++ kats1024_8 ++ kats1024_9 ++ kats1024_10 ++ kats1024_11 ++ kats1024_12 ++ kats1024_13 ++ kats1024_14 ++ kats1024_15

end Falcon
