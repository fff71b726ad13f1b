import Verif.Model.Kat

/-!
# The 1024 known answer tests of Falcon-512, written by tools/gen_kats.py
-/

namespace Falcon

/-- tests/test_samplerz.cpp:19-673. -/
def kats512_0 : List Kat := [
  ⟨-9190471153063714, 14, 17037990414754918, 16, 12778336969128337, 16, 22, 0x0fc5442ff043d66e91d1eacac64ea5450a22941edc6c, -92⟩,
  ⟨-8322564895434937, 15, 17037990414754918, 16, 12778336969128337, 16, 22, 0xf4da0f8d8444d1a77265c2ef6f98bbbb4bee7db8d9b3, -8⟩,
  ⟨-19096516109216804, 15, 17035823083824078, 16, 12778336969128334, 16, 22, 0xdb47f6d7fb9b19f25c36d6b9334d477a8bc0be68145d, -20⟩,
  ⟨-11335543982423326, 15, 17035823083824078, 16, 12778336969128334, 16, 44, 0xae41b4f5209665c74d00dcc1a8168a7bb516b3190cb42c1ded26cd52aed770eca7dd334e0547bcc3c163ce0b, -12⟩,
  ⟨79386734193997555, 16, 16984647769450156, 16, 12778336969128337, 16, 33, 0x31054166c1012780c603ae9b833cec73f2f41ca5807cc89c92158834632f9b1555, 8⟩,
  ⟨-28990850086867255, 15, 16984647769450156, 16, 12778336969128337, 16, 11, 0x737e9d68a50a06dbbc6477, -30⟩,
  ⟨-9071257914091655, 15, 16980782114808988, 16, 12778336969128339, 16, 11, 0xa98ddd14bf0bf22061d632, -10⟩,
  ⟨-4388754568839566, 14, 16980782114808988, 16, 12778336969128339, 16, 11, 0x3cbf6818a68f7ab9991514, -41⟩,
  ⟨-5817435547946095, 14, 17010983419195522, 16, 12778336969128339, 16, 23, 0x6f8633f5bfa5d26848668e3d5ddd46958e97630410587c, -61⟩,
  ⟨-4358664906684732, 14, 17010983419195522, 16, 12778336969128339, 16, 22, 0x272bc6c25f5c5ee53f83c43a361fbc7cc91dc783e20a, -46⟩,
  ⟨-3470565203313315, 14, 17009387219711465, 16, 12778336969128337, 16, 22, 0x45443c59574c2c3b07e2e1d9071e6d133dbe32754b0a, -34⟩,
  ⟨-4436009577368896, 14, 17009387219711465, 16, 12778336969128337, 16, 44, 0x6ac116ed60c258e2cbaeab728c4823e6da36e18d08da5d0cc104e21cc7fd1f5ca8d9dbb675266c928448059e, -44⟩,
  ⟨-21783037079346236, 15, 16958406126012802, 16, 12778336969128337, 16, 11, 0x68163bc1e2cbf3e18e7426, -23⟩,
  ⟨-3968827784633828, 14, 16958406126012802, 16, 12778336969128337, 16, 11, 0xd6a1b51d76222a705a0259, -40⟩,
  ⟨-18488607061056847, 15, 16955259305261838, 16, 12778336969128337, 16, 22, 0xf0523bfaa8a394bf4ea5c10f842366fde286d6a30803, -22⟩,
  ⟨-4839610939101591, 14, 16955259305261838, 16, 12778336969128337, 16, 22, 0x87bd87e63374cee62127fc6931104aab64f136a0485b, -50⟩,
  ⟨-10100385632924957, 14, 1694194291360674, 15, 12778336969128337, 16, 11, 0xe72eadbc08ea77ed1c2823, -102⟩,
  ⟨-55766206519422155, 15, 1694194291360674, 15, 12778336969128337, 16, 11, 0x3632c29bef5ff255bbba7d, -58⟩,
  ⟨4279820924390407, 15, 16937038942280862, 16, 12778336969128337, 16, 11, 0x11e8fbad926a8748efbd3d, 8⟩,
  ⟨-61632330276740515, 16, 16937038942280862, 16, 12778336969128337, 16, 44, 0x755d7eec0dec4ab547669a44d5113b6d8465102827bb68fad1b91b1f32c7d65cf2b27a2de77f5b02549f7829, -7⟩,
  ⟨-12636901236335072, 15, 16893009634650535, 16, 12778336969128334, 16, 22, 0x01b2bd367ee80fccf335ae8ffdf86c0ef4ad076d7854, -14⟩,
  ⟨-1419051757550942, 14, 16893009634650535, 16, 12778336969128334, 16, 33, 0x99042f67f18f2a49baeea6cdba65ef008be154fd9dfdee32c97f885d20eefe4100, -14⟩,
  ⟨15996015013814931, 15, 16885857180002772, 16, 12778336969128337, 16, 33, 0xf05c53d4ad1bcf824a4abb701814bd9cb8b371715ace3acfdc88a5af541f306e00, 13⟩,
  ⟨-62516938164862246, 15, 16885857180002772, 16, 12778336969128337, 16, 44, 0xd33fea2db82a9a0d81cec7455358a2e97b4b914ec3925da04d64bb3ca6d69ec4f387310edf97fa43ceef7490, -64⟩,
  ⟨-19134957285144306, 15, 16907818034679203, 16, 12778336969128337, 16, 11, 0xd229c9018b2c3c8645bd71, -19⟩,
  ⟨5121244097140291, 15, 16907818034679203, 16, 12778336969128337, 16, 11, 0x93f090cdb2164b5584ca95, 4⟩,
  ⟨6686630568251369, 15, 16903655284346046, 16, 12778336969128337, 16, 11, 0x97523a0d9b5ae3be81553f, 8⟩,
  ⟨-3788347616745064, 14, 16903655284346046, 16, 12778336969128337, 16, 11, 0x2b931fcd0c760fc8515a2a, -40⟩,
  ⟨-6163535730572427, 15, 16860138676808625, 16, 12778336969128337, 16, 11, 0x25589b7a9393883dcd8d90, -4⟩,
  ⟨-129593836429217, 13, 16860138676808625, 16, 12778336969128337, 16, 11, 0xba7377dda60733a9416e5b, -13⟩,
  ⟨5996166146913, 12, 16853825380694936, 16, 12778336969128337, 16, 11, 0x0188370dcf1fdbaa9c4f35, 11⟩,
  ⟨-926150453624138, 13, 16853825380694936, 16, 12778336969128337, 16, 11, 0xa13088667ece607acfbc85, -94⟩,
  ⟨-35526874346363776, 15, 1668741735158274, 15, 12778336969128337, 16, 11, 0xde49696ca5c36e9f233693, -36⟩,
  ⟨-14804035512551051, 15, 1668741735158274, 15, 12778336969128337, 16, 11, 0xb021597b689ce8331dc0b9, -15⟩,
  ⟨-3547446449445392, 14, 16687391904905082, 16, 12778336969128337, 16, 22, 0x2841f88b411ccfc831389ed1779855ba7b184be0c03a, -36⟩,
  ⟨-8691067906089864, 14, 16687391904905082, 16, 12778336969128337, 16, 44, 0x7424b1ca69009622cce5e58e2d7bae980d8e331b5ee53a08be54fbaa2c09e20ba420a8b036131ec9d03b7668, -90⟩,
  ⟨-5074764455287415, 14, 16598232261129564, 16, 12778336969128337, 16, 11, 0x75dd51cbe96252aa23591f, -49⟩,
  ⟨-1808464281807201, 14, 16598232261129564, 16, 12778336969128337, 16, 11, 0x8142e7d9071a96c3005d4e, -17⟩,
  ⟨-19416894083782772, 15, 16598189469378422, 16, 12778336969128337, 16, 22, 0xa9ab4e6c623c69d5b0e1f4f1c3e59c19a576f8a4bb5a, -19⟩,
  ⟨-7576489161495854, 14, 16598189469378422, 16, 12778336969128337, 16, 22, 0x224adee1868af2f33533e05c2c27fea9cbb820f66748, -74⟩,
  ⟨-22568003851246832, 15, 1666587254687072, 15, 12778336969128337, 16, 11, 0xdb2a09f06e3f304dca1579, -22⟩,
  ⟨-34248547468830424, 15, 1666587254687072, 15, 12778336969128337, 16, 11, 0xa6cc8a58ed342527b5cc24, -35⟩,
  ⟨-3650176564237311, 15, 16665740319107831, 16, 12778336969128337, 16, 11, 0xf8b5149c9a1bae3c772d90, -3⟩,
  ⟨-8377284887616247, 14, 16665740319107831, 16, 12778336969128337, 16, 22, 0x5a8a57bef11eceaef728e859c909140d7cc7d5c1e205, -85⟩,
  ⟨-7737886459677057, 14, 16579218898793529, 16, 12778336969128337, 16, 11, 0x691dc785e3eef23198d464, -79⟩,
  ⟨-4777968017294247, 14, 16579218898793529, 16, 12778336969128337, 16, 11, 0x25f6b30780976dbaed113d, -45⟩,
  ⟨-37688707484409086, 15, 1657921762503543, 15, 12778336969128337, 16, 33, 0x019dc13ce5b29092a405842d350dcc58c4b5858cb163fee7dd76b7092d6586aeae, -38⟩,
  ⟨-5080373321270442, 15, 1657921762503543, 15, 12778336969128337, 16, 11, 0x7c373e00474055e83939b4, -4⟩,
  ⟨-6881934881334362, 14, 16574056074493624, 16, 12778336969128337, 16, 11, 0x6f768721fb7497fa919b19, -67⟩,
  ⟨-3142818757292438, 14, 16574056074493624, 16, 12778336969128337, 16, 11, 0x7f35f8cb4a941e9b174e29, -33⟩,
  ⟨-4340662327416726, 15, 16573673439691072, 16, 12778336969128337, 16, 22, 0x8b9dbd044c399283e5e8ef9723bccdf3bcbfb1da7b03, -3⟩,
  ⟨2722966763679848, 16, 16573673439691072, 16, 12778336969128337, 16, 22, 0x986c805ee9fc087b80bdd859244ced89dd579ab2de98, -1⟩,
  ⟨-3665885560483109, 14, 16487668129035908, 16, 12778336969128337, 16, 11, 0x86fd58603b4270cf01840c, -38⟩,
  ⟨-1580855940681025, 14, 16487668129035908, 16, 12778336969128337, 16, 11, 0x90a7af7436a6a6b41d2d4c, -14⟩,
  ⟨6784216210408996, 15, 16486717808053597, 16, 12778336969128337, 16, 11, 0x94745b26dfc474378c830e, 8⟩,
  ⟨-4823603233351529, 14, 16486717808053597, 16, 12778336969128337, 16, 33, 0x412d5fbd4238acc6220096267dd69d95274177eea4c8f0b453de4d0794fa545746, -48⟩,
  ⟨29242952857486166, 15, 16547539946899612, 16, 12778336969128337, 16, 11, 0x7fedca3b0ce5774b85aa1c, 28⟩,
  ⟨-3218328530103889, 14, 16547539946899612, 16, 12778336969128337, 16, 33, 0xf4e9ccf64e01977cb987c63be7ff9cfff29c7059c5aa3e7a2728ad4fc9fe95df15, -30⟩,
  ⟨3987424039811011, 15, 16547362727522357, 16, 12778336969128337, 16, 22, 0x1add5117502a2de75aafaad256be6873776e6be7431e, 4⟩,
  ⟨-27876680956344398, 15, 16547362727522357, 16, 12778336969128337, 16, 22, 0x4849486850c527c4240eb98e2cf9cf81a9fbb2630b05, -26⟩,
  ⟨-57145830992459935, 15, 16464489647562588, 16, 12778336969128337, 16, 11, 0x851da0de9af4d6d997da6d, -59⟩,
  ⟨-9351933548334574, 14, 16464489647562588, 16, 12778336969128337, 16, 22, 0x475651b7349b294fab25f8f50cd4e89d76d22e4b4312, -93⟩,
  ⟨-4113925115176669, 15, 16463838225747724, 16, 12778336969128337, 16, 11, 0xeef77f60c4674c56cfa449, -5⟩,
  ⟨-13006662972806927, 15, 16463838225747724, 16, 12778336969128337, 16, 55, 0x03b42854d3b06ae143197cde0e7131689f61a91f68cc40b5b99fed12700146a8f945f26c5516124a59799adac0f7249a4364c4df21f289, -14⟩,
  ⟨-7398622803554997, 14, 16725452602389794, 16, 12778336969128337, 16, 11, 0x6cc4a5e40aebf11ad8bd45, -72⟩,
  ⟨12121652167034888, 15, 16725452602389794, 16, 12778336969128337, 16, 11, 0x445505ef98d423b0292e38, 10⟩,
  ⟨-2330673257442461, 14, 16724758710745398, 16, 12778336969128337, 16, 22, 0x62d986d1561936cc105ca8191bfe3307c3a02d207908, -20⟩,
  ⟨-20771190634609367, 16, 16724758710745398, 16, 12778336969128337, 16, 44, 0x01f7a03125efd5df50ece45ecaa5d6be1588c18ea9da95933fe003a3e8e3fb0dcc32618a2cc588c94b6e998a, 0⟩,
  ⟨-2525809841598817, 14, 16687741242403542, 16, 12778336969128337, 16, 11, 0x955a61b259c71974f56a77, -27⟩,
  ⟨-5558495468589204, 14, 16687741242403542, 16, 12778336969128337, 16, 22, 0x880c6d850d63b8032131dc8282efa88a6a57c6c0f331, -54⟩,
  ⟨29241465250296454, 15, 16686193299002987, 16, 12778336969128334, 16, 11, 0x8ff210135e575750e22e7b, 28⟩,
  ⟨-8518872207219417, 14, 16686193299002987, 16, 12778336969128334, 16, 11, 0x7b1720dd89e6978d862101, -84⟩,
  ⟨-3589879772023778, 15, 16695990226934436, 16, 12778336969128337, 16, 11, 0xe4fb31307c7a7bd2229d56, -3⟩,
  ⟨2785889054233481, 15, 16695990226934436, 16, 12778336969128337, 16, 11, 0x0315f89c0dcf8089fea821, -2⟩,
  ⟨17573753518512817, 15, 1669553889665852, 15, 12778336969128337, 16, 11, 0x8ee704e811f70d10db2506, 19⟩,
  ⟨-17184409706168207, 15, 1669553889665852, 15, 12778336969128337, 16, 11, 0x8fafc5d8bb09171b09fb32, -16⟩,
  ⟨-4934746795527824, 14, 16658765318476667, 16, 12778336969128337, 16, 11, 0x31fe4159b2e6d93e7fc750, -47⟩,
  ⟨-3765975030807076, 14, 16658765318476667, 16, 12778336969128337, 16, 44, 0x7ec88d421b77f97161d0ba3e5f401220ecf51b83a576c1426f0642397c19f3ececc1dee9c03a211667a3a435, -38⟩,
  ⟨-25775108396430003, 15, 16657595339064706, 16, 12778336969128337, 16, 99, 0x041b6edaaf0cf32de21ef90995f3dd2ed528c154ef390f48b7def5ac906ae46bd49c7fcf930be4a248c5e9bae4ff0a5055af274aa575fbc22c4e82ac38ee2eba01be3fdd7992b65ee45e1ab5ce7f86f25aa60f7e21c7f3d07864687e61036e78b6b429, -27⟩,
  ⟨-57174681714634374, 15, 16657595339064706, 16, 12778336969128337, 16, 22, 0xf2010d9e1f3b98d17802b46f253571cb7db8264a4f4b, -56⟩,
  ⟨-7926654688742886, 14, 1664855542571465, 15, 12778336969128337, 16, 11, 0xf14ea299e0a6f25571f49f, -80⟩,
  ⟨17540609881387255, 16, 1664855542571465, 15, 12778336969128337, 16, 33, 0x58dfcad66ad93ed1ed69f91215a348ddfed1d27946db9971465b51049901c0fe50, 0⟩,
  ⟨-135887655047045, 13, 16646818882659686, 16, 12778336969128334, 16, 11, 0x9a5e5aff8fcdea6d57220d, -15⟩,
  ⟨-1727699546008054, 14, 16646818882659686, 16, 12778336969128334, 16, 22, 0x35708fd1141d05eb3acbb8ecdb91928b549fe5008a72, -18⟩,
  ⟨-8935072468424237, 14, 1661219857674767, 15, 12778336969128334, 16, 66, 0x6e2eb983c2108954f22cc6ac256a10fbc51bb2ddb6bf7fc22c032c9682721149fa11f2b59b6161fd9528d4fabf7f3dda25d1a61fd40ef3f093e0c1bf8b764f0d3e41, -90⟩,
  ⟨-3348080595891608, 14, 1661219857674767, 15, 12778336969128334, 16, 11, 0xbc70ab4099cdf24669b787, -33⟩,
  ⟨-3025674304203439, 14, 16609246646764477, 16, 12778336969128339, 16, 11, 0xf9ab821c924cb7d06cffb9, -30⟩,
  ⟨-6906386358751237, 14, 16609246646764477, 16, 12778336969128339, 16, 11, 0x623854c779f815d8ab6a53, -71⟩,
  ⟨3576298071876907, 14, 16613509525605183, 16, 12778336969128337, 16, 11, 0x577754e306421b2607f444, 34⟩,
  ⟨3272813289474162, 14, 16613509525605183, 16, 12778336969128337, 16, 55, 0x496fb78365576564c3cfa76548e6061809ffe7f93bf39c7cc86fcec322694406bd4d473fdb8d2b5ca81fb0a5f72399b7ed04df21fdf245, 32⟩,
  ⟨14983552522987877, 16, 16612047041143871, 16, 12778336969128334, 16, 22, 0x9d1aa814cba3645ed294a1c281370cd3d34528180362, 2⟩,
  ⟨-7742029959596151, 15, 16612047041143871, 16, 12778336969128334, 16, 22, 0xbf2dba092d6c1ffc8323b8c615c93c628a94593df279, -8⟩,
  ⟨-7041049027363464, 14, 16578055914730363, 16, 12778336969128337, 16, 22, 0x7302a87df10d6d6cb556c52f393172630f19864b5315, -68⟩,
  ⟨-4157575671987202, 14, 16578055914730363, 16, 12778336969128337, 16, 11, 0x6c4d0b23a7a661a2fc984c, -43⟩,
  ⟨-2612903603605937, 15, 165754865679169, 14, 12778336969128337, 16, 11, 0x7b6341ad81477162498b57, -1⟩,
  ⟨-43237715461385584, 15, 165754865679169, 14, 12778336969128337, 16, 11, 0x36e150ae0cee767a19e718, -41⟩,
  ⟨-6096367542376961, 14, 16371529561786458, 16, 12778336969128337, 16, 11, 0xce37771fc7ece3983ba474, -61⟩,
  ⟨-5707304629962105, 14, 16371529561786458, 16, 12778336969128337, 16, 11, 0xc2d534e2faacc72b216071, -58⟩,
  ⟨8968048446989895, 15, 16371015191338443, 16, 12778336969128337, 16, 11, 0x77bd8d00fc254626d1a7b1, 10⟩,
  ⟨-20302888719504477, 15, 16371015191338443, 16, 12778336969128337, 16, 11, 0xfa3fc4202d133feb1a6898, -21⟩,
  ⟨-3248269875460176, 14, 1630835527471971, 15, 12778336969128337, 16, 33, 0x3fbf1b74b40ef3428935854dbbb3e5a15f2320608ff3ea388672c5ac1d6d7e6e16, -33⟩,
  ⟨-57190032935592576, 15, 1630835527471971, 15, 12778336969128337, 16, 11, 0x7825591ec5a1a079d5c949, -56⟩,
  ⟨-54986223687335354, 15, 16308246486372042, 16, 12778336969128339, 16, 11, 0x5241fdffff7c260813d229, -57⟩,
  ⟨-6941970583385722, 14, 16308246486372042, 16, 12778336969128339, 16, 11, 0xfd630e8f5c9380c28b6d3b, -69⟩,
  ⟨-12700775881637998, 15, 16345590783878698, 16, 12778336969128337, 16, 11, 0x5474bf858d58383b33ae4d, -15⟩,
  ⟨-4730422662245631, 14, 16345590783878698, 16, 12778336969128337, 16, 22, 0x486487133262281639cade329a89bd0078cce2a0b30b, -45⟩,
  ⟨-1673422932432098, 15, 16344762845108187, 16, 12778336969128337, 16, 11, 0xd6ef7c947c8ee3424b1e16, -2⟩,
  ⟨-18006127668837504, 15, 16344762845108187, 16, 12778336969128337, 16, 11, 0xd3c0e8b37f0ec7a86f4a64, -19⟩,
  ⟨-7537836295239363, 14, 1628495601652157, 15, 12778336969128337, 16, 33, 0x5a134d65360c8e16faf6d9ca13cd5a79b2bfdd0fa5f8cd1394d9fb3b84137fe34b, -75⟩,
  ⟨-4262976030363443, 14, 1628495601652157, 15, 12778336969128337, 16, 22, 0x8b21eee3e2779860d3b6aeec940877ea8702e5e34713, -42⟩,
  ⟨-19860925893944295, 15, 1628470391125569, 15, 12778336969128337, 16, 11, 0x835f9bb6bae0240a688932, -18⟩,
  ⟨-16760878318209524, 15, 1628470391125569, 15, 12778336969128337, 16, 44, 0x29474e71fc8deb294f14d626da9b847d48a41cebd3bd2a35759a3bc20ae17362d6d51d3690eadf46dac9c397, -16⟩,
  ⟨-31160968165311395, 15, 1628017293294592, 15, 12778336969128337, 16, 11, 0x8ee96313801826f98acd52, -30⟩,
  ⟨32466357951315224, 15, 1628017293294592, 15, 12778336969128337, 16, 22, 0x5612d31f7daf33ac1bb9ecfdecd61bafcd21442429a5, 33⟩,
  ⟨-5103678519281309, 14, 16280133822002723, 16, 12778336969128337, 16, 11, 0xa3329294bf8620a1e2dc58, -53⟩,
  ⟨-23329296477405002, 15, 16280133822002723, 16, 12778336969128337, 16, 22, 0xdad94be6a7ad24c0c1bcd2eab5e4bcaf2888d947af10, -23⟩,
  ⟨-1592420763087651, 14, 16216788740786154, 16, 12778336969128337, 16, 11, 0x276f91502a43d394a4eca1, -18⟩,
  ⟨-28572879544878823, 15, 16216788740786154, 16, 12778336969128337, 16, 55, 0x1908366ae75e13575c7b7128d3e920c142c09a401db7db83720d01a1a544af33c875f955e82caf4f17b305d7adfa479a6d04052b90bf5b, -28⟩,
  ⟨-61915544677766166, 16, 1621674855650253, 15, 12778336969128337, 16, 22, 0x285d55c30be4c14f3b1ee72b12f85676aa190ee12b91, -4⟩,
  ⟨-326396463920972, 13, 1621674855650253, 15, 12778336969128337, 16, 11, 0x85133b8e523d98502ee50d, -31⟩,
  ⟨3645848552134315, 14, 1624947206346513, 15, 12778336969128337, 16, 22, 0x8ec620e32267813c9a09c0ada2957682e169e1a84619, 36⟩,
  ⟨-12898017895747028, 15, 1624947206346513, 15, 12778336969128337, 16, 33, 0x6b424fb13ea76bf5c9b38f2a631cba19254fa02f2ebcf9b750e3993859fe8def6f, -12⟩,
  ⟨-53606457705532044, 15, 16249337054989044, 16, 12778336969128334, 16, 11, 0xe0ba244a979282a3597529, -53⟩,
  ⟨-342634591878503, 13, 16249337054989044, 16, 12778336969128334, 16, 11, 0xc62f56fa7570f778cfe69d, -35⟩,
  ⟨-13863431446426798, 15, 1618938613003657, 15, 12778336969128337, 16, 11, 0x35f26048823cb2ddc14d26, -11⟩,
  ⟨-6080479621321466, 14, 1618938613003657, 15, 12778336969128337, 16, 44, 0xad398028f83c3a96a9f2f928bdafcd9159f9d02b3eb33c3151caa30064909bab73c82ca05bfe9487051f0183, -60⟩,
  ⟨-14780869185047498, 15, 161893841419014, 14, 12778336969128337, 16, 11, 0xb7a056ac51af5d6f29a5ac, -14⟩,
  ⟨-5304437166964772, 14, 161893841419014, 14, 12778336969128337, 16, 11, 0xd68587345e6c3fc9bc9b0f, -53⟩]

/-- tests/test_samplerz.cpp:674-1322. -/
def kats512_1 : List Kat := [
  ⟨-55687186128638444, 15, 16406979863147333, 16, 12778336969128339, 16, 11, 0x5db2f995e0d2e926eccd43, -54⟩,
  ⟨-4670235091016684, 14, 16406979863147333, 16, 12778336969128339, 16, 11, 0x0532e5ae222463b944d430, -51⟩,
  ⟨-6913411990171592, 14, 16399518054412032, 16, 12778336969128337, 16, 66, 0xa08e26208997a82ceda3d419a3c9ac9eefc7dfd499b92ea22b8363f937f95e53a174e6befc8def49af494cec401650180fb76ec07b74c09d8b9df4400d842a251a13, -71⟩,
  ⟨-1532947668563413, 14, 16399518054412032, 16, 12778336969128337, 16, 22, 0x688b367b67c6dbcb8098b143c31546f93641fcc1aa05, -18⟩,
  ⟨4505516952293379, 15, 16349826278200263, 16, 12778336969128337, 16, 11, 0xc9f0dcf5215d27b4ef407e, 4⟩,
  ⟨9930107826879464, 16, 16349826278200263, 16, 12778336969128337, 16, 11, 0xa61b5a80686b7ccc9d5594, 1⟩,
  ⟨29470219745363647, 15, 16338533027957487, 16, 12778336969128337, 16, 11, 0xebca16c2198f335751510e, 30⟩,
  ⟨-5004034146571538, 14, 16338533027957487, 16, 12778336969128337, 16, 22, 0x03d3d9a50cc056b1e750fcd56b59a019a02e199c985a, -51⟩,
  ⟨-6711073543765661, 14, 16382749490697714, 16, 12778336969128337, 16, 11, 0xe051fd39be010146339a58, -68⟩,
  ⟨-25247745381371253, 15, 16382749490697714, 16, 12778336969128337, 16, 11, 0x2b9de028533398f4120243, -28⟩,
  ⟨-8499810247628068, 14, 16375530466868946, 16, 12778336969128337, 16, 11, 0xc73fd71d0da194482910c4, -85⟩,
  ⟨-4300569242022046, 14, 16375530466868946, 16, 12778336969128337, 16, 11, 0x65f1f712ea9f5585f7b102, -42⟩,
  ⟨-3672752775470372, 14, 1632341372925088, 15, 12778336969128337, 16, 11, 0x8c2cb5769b78cab4ff8e53, -38⟩,
  ⟨-44481354513118724, 15, 1632341372925088, 15, 12778336969128337, 16, 11, 0xdeabd0699592dced62ac5a, -45⟩,
  ⟨-3929093548383069, 14, 16312200653137734, 16, 12778336969128337, 16, 22, 0x1b219833f6a5dcc4b711cd7e7b72030aeee1003c9522, -38⟩,
  ⟨-46502515513753735, 15, 16312200653137734, 16, 12778336969128337, 16, 11, 0x7bb57dc3dab17e76026637, -48⟩,
  ⟨-14101312963748388, 15, 16278717890684966, 16, 12778336969128334, 16, 44, 0x0b44d5fc280cbd664ef5eaf24aeabced8636240f24e231ac168a527af7e8cfaa9eebed04da37621e0f249516, -14⟩,
  ⟨-11288445923829155, 15, 16278717890684966, 16, 12778336969128334, 16, 11, 0x43397f44339abb17c31c4b, -14⟩,
  ⟨-4451095923735509, 14, 162659978637882, 14, 12778336969128339, 16, 33, 0xac219bad88c81104297edb7b82192a9cdcaa912443b0dbe1aacbec7d0344a7d23c, -45⟩,
  ⟨-2258015822622855, 14, 162659978637882, 14, 12778336969128339, 16, 55, 0x9b8d98d44cfce3de0633b1328a3e0a145b3dd4ea7fd29378217081fe1956c972de75347ceb624a386eecd7e86433ce3964db2915bf7c43, -24⟩,
  ⟨40021024974015496, 15, 1621848142956816, 15, 12778336969128337, 16, 22, 0xe0881b2780a41a15f509f2d397b7d21918426df548a3, 40⟩,
  ⟨-25426587399969442, 15, 1621848142956816, 15, 12778336969128337, 16, 22, 0x51f81ad31c5dceb9fa748ec51409ff4cd2a90c012f10, -25⟩,
  ⟨3463149394931299, 14, 16200446488583782, 16, 12778336969128337, 16, 22, 0xaf6ec9b397fa6dcf7bc0ea50818a478dc9e63c3f6960, 37⟩,
  ⟨-10882457295744175, 14, 16200446488583782, 16, 12778336969128337, 16, 11, 0xa3c91df8accb572381f48a, -110⟩,
  ⟨-27535558329121343, 15, 1624520298944551, 15, 12778336969128334, 16, 11, 0xe4be5cd385045c71c0e068, -28⟩,
  ⟨-7354638214168007, 14, 1624520298944551, 15, 12778336969128334, 16, 11, 0x8724d814c5f61a80ac7755, -72⟩,
  ⟨-14355802931668025, 15, 16232420190816386, 16, 12778336969128339, 16, 11, 0xe475cb83170f81182a156e, -14⟩,
  ⟨-44664517159068645, 15, 16232420190816386, 16, 12778336969128339, 16, 22, 0x9df5d6d297e1327af20ec31d561be988bd6b7b21f719, -41⟩,
  ⟨-6072184559175109, 14, 1618157893667945, 15, 12778336969128337, 16, 33, 0x0cf1475f47b913889bc548cac4c51c65b554d2ceb2ccfbd4fe4fe1157c93f77b26, -60⟩,
  ⟨-18446412390360134, 15, 1618157893667945, 15, 12778336969128337, 16, 11, 0xc8fd4ad70d9899310da19d, -18⟩,
  ⟨-3775169385405228, 14, 16163074787784912, 16, 12778336969128337, 16, 22, 0x7bc89e7196471baf0b85f6323c50c0720938cddf630b, -35⟩,
  ⟨857339967133343, 14, 16163074787784912, 16, 12778336969128337, 16, 11, 0xf2fb99bbc0cdc7d85a7e94, 8⟩,
  ⟨-2960081302989863, 14, 15982729396055209, 16, 12778336969128337, 16, 11, 0xc052ecee57c711664be02e, -30⟩,
  ⟨14325384992394634, 15, 15982729396055209, 16, 12778336969128337, 16, 22, 0x22dea50c7dd2c2a24386bdc098e9b80c1734660a3564, 15⟩,
  ⟨-19606382802491495, 15, 15982698477812436, 16, 12778336969128337, 16, 11, 0xdb37e6a512356ee55b9d6d, -19⟩,
  ⟨-4733776245126613, 14, 15982698477812436, 16, 12778336969128337, 16, 11, 0xd02ef6be80ded4c239be18, -48⟩,
  ⟨-27486690324862906, 17, 1589805455601271, 15, 12778336969128337, 16, 22, 0x34429e9c65375381c68dab61c3ce0157b12a30e6b477, -2⟩,
  ⟨-505064605427442, 13, 1589805455601271, 15, 12778336969128337, 16, 11, 0xb395c20924754e1398aea1, -51⟩,
  ⟨3315297953245304, 14, 15897471363198565, 16, 12778336969128337, 16, 22, 0x06e62c01c3f477ce4202bee3ea81864721e7a8519c36, 33⟩,
  ⟨-30690420020183966, 16, 15897471363198565, 16, 12778336969128337, 16, 11, 0x099fa233d4e68bf4d24203, -8⟩,
  ⟨-3448171842946488, 14, 15960470990250275, 16, 12778336969128337, 16, 11, 0x58ba6bc251d10b4a2abf7d, -33⟩,
  ⟨-5367652145616249, 14, 15960470990250275, 16, 12778336969128337, 16, 11, 0xff8c6898bbe97dcec09499, -54⟩,
  ⟨-43945573195157465, 15, 15960438703251567, 16, 12778336969128337, 16, 12, 0xb918e18b5101e7eb90b1ab9b, -43⟩,
  ⟨5106571968506355, 16, 15960438703251567, 16, 12778336969128337, 16, 33, 0x07e477fe01b7e01adeb8b379382b356b6569fd3aafc5b28a32c392c44af0f90e13, 0⟩,
  ⟨1817882698120827, 14, 1587299075155714, 15, 12778336969128337, 16, 44, 0x38fae805ef8fa8f57d6ec42a2b9f4ccc0ac810925971c7519407e2c23dfc1142faa46f47f5c26a8e31cfcd64, 19⟩,
  ⟨-3917467243512628, 14, 1587299075155714, 15, 12778336969128337, 16, 12, 0x142b37784e17dde31b822ba7, -43⟩,
  ⟨-5491835262245819, 14, 15872333757716075, 16, 12778336969128334, 16, 11, 0xad9a3d07b3604727c8885c, -55⟩,
  ⟨-4165878389901368, 14, 15872333757716075, 16, 12778336969128334, 16, 33, 0x92b28df316a49d61ff67a50e6431f7712db5708ca66dcb7a0dd7ba8f7e8ec4d9a2, -41⟩,
  ⟨-7788873898311869, 14, 15834337667481888, 16, 12778336969128337, 16, 11, 0xece2e7423f573a2723013c, -77⟩,
  ⟨-9812157563736797, 15, 15834337667481888, 16, 12778336969128337, 16, 11, 0x68a36ff7293ee29d421518, -8⟩,
  ⟨-6461065891495073, 14, 1583376968777839, 15, 12778336969128337, 16, 22, 0x45bf569ae7e1f78c5c73a02d4d08f5b55698b90b2059, -67⟩,
  ⟨-26224285380263788, 16, 1583376968777839, 15, 12778336969128337, 16, 11, 0x923dda0d867aef6ddbfb51, -1⟩,
  ⟨-6584394719516698, 14, 15749113122385034, 16, 12778336969128337, 16, 11, 0xe946474eac40bac1e5749b, -66⟩,
  ⟨-29376155581314475, 15, 15749113122385034, 16, 12778336969128337, 16, 33, 0xdacf67640072f9f53f39d22d23e9d2f7902a76155da5ed97b4830d6464d11478af, -30⟩,
  ⟨-17761214369397564, 15, 15747146232658324, 16, 12778336969128337, 16, 11, 0xda8efbc534ec1a25da0520, -17⟩,
  ⟨-26813864274718444, 15, 15747146232658324, 16, 12778336969128337, 16, 22, 0xca4076a71db7b32d6ea8d8959d8edf5f0dfecf8b5929, -25⟩,
  ⟨-19257495457159692, 15, 15807596400688875, 16, 12778336969128337, 16, 11, 0x16922d1a721544b42d2531, -16⟩,
  ⟨18104790536293386, 15, 15807596400688875, 16, 12778336969128337, 16, 11, 0xa8f375c5ac2dcdfba4cf75, 19⟩,
  ⟨-13132287800346711, 15, 15807018616786794, 16, 12778336969128337, 16, 22, 0x53b4c7ed0d06020d805c6eb2d14594885925099a3e9f, -14⟩,
  ⟨-25121565818942294, 15, 15807018616786794, 16, 12778336969128337, 16, 33, 0x0146ca6093270c84f977cf41452bd6690a667a279a4fc9aad4d2792d9e49121419, -26⟩,
  ⟨7079919622576808, 15, 1571906685551159, 15, 12778336969128337, 16, 22, 0x938a3b066db6f47d5d1aeedae05d95b2c38ad498c544, 8⟩,
  ⟨-29086625505373206, 15, 1571906685551159, 15, 12778336969128337, 16, 22, 0xb16249356bda1e16805ee944ec987b4a979f0507cd17, -27⟩,
  ⟨-12463367233650311, 15, 15716943860629242, 16, 12778336969128337, 16, 22, 0x99b1dcffa64bd80b5816a06062b905a28acf31e32a3f, -14⟩,
  ⟨-46122474237352655, 15, 15716943860629242, 16, 12778336969128337, 16, 11, 0xe57c42c71fcdc8f0df405f, -47⟩,
  ⟨-7044655407825874, 14, 16037002936888647, 16, 12778336969128337, 16, 11, 0x378ac225621147163d7d38, -68⟩,
  ⟨-28857470619295867, 15, 16037002936888647, 16, 12778336969128337, 16, 11, 0xffd03cbe70055589f8ca78, -29⟩,
  ⟨-19992824851679963, 15, 1603102352737718, 15, 12778336969128337, 16, 11, 0xd64422d292338513b866c1, -20⟩,
  ⟨-35512511906205596, 15, 1603102352737718, 15, 12778336969128337, 16, 11, 0x7819fd14f3fe9ce7e18c0b, -37⟩,
  ⟨-13534199945586089, 15, 16001541486477369, 16, 12778336969128337, 16, 11, 0xbff65220c7f11521ef724d, -14⟩,
  ⟨8973752494309668, 15, 16001541486477369, 16, 12778336969128337, 16, 22, 0x1f4c8d6994c6362abbe040d5428d5822f7459184405f, 8⟩,
  ⟨-24237185067965083, 15, 15993571331945273, 16, 12778336969128337, 16, 33, 0x1a9debf1b9ba08931e85fb20563a0c2ce50fbf6ca8b3ddb258393e22409856820a, -25⟩,
  ⟨-60823737668955076, 15, 15993571331945273, 16, 12778336969128337, 16, 11, 0xd2e7b52c74f352a096ec3f, -61⟩,
  ⟨-3092381398470772, 14, 16015216845652842, 16, 12778336969128337, 16, 22, 0x2387d25bb6095808e530f8a80e285f5b1646ea6e1a8e, -31⟩,
  ⟨-2357622236390693, 14, 16015216845652842, 16, 12778336969128337, 16, 22, 0x3d6ead115c6dddb7ff0c93719226cb3438a7b07aa234, -25⟩,
  ⟨-36234212725411766, 15, 16009266822192787, 16, 12778336969128337, 16, 22, 0x8a92452938da3687f245eef00e79db570d78b07c735f, -36⟩,
  ⟨-12940545262989726, 15, 16009266822192787, 16, 12778336969128337, 16, 11, 0x834ccfa8dd8742d1094735, -11⟩,
  ⟨-58681001755540336, 15, 15978154429456675, 16, 12778336969128337, 16, 22, 0x10d41110a161d92eb643e9b555774d858022a203de87, -59⟩,
  ⟨-30558780638003512, 15, 15978154429456675, 16, 12778336969128337, 16, 11, 0x324190dd3f0776576a7a61, -33⟩,
  ⟨-3732842286544218, 14, 1597016137282452, 15, 12778336969128337, 16, 11, 0x199211701dc670244ab628, -41⟩,
  ⟨-4390998850781685, 14, 1597016137282452, 15, 12778336969128337, 16, 22, 0x162c6548d55a5926ad7d39547c9a59ed2fd8091a6739, -41⟩,
  ⟨-45856004199994956, 15, 1592143385607466, 15, 12778336969128337, 16, 44, 0xd3200352e72bf248abcbf58fdc5a936531ea0d2bdebb4b4f495083ee8d96883eccb6ce32bb3774690f584442, -46⟩,
  ⟨-3298659089421646, 14, 1592143385607466, 15, 12778336969128337, 16, 11, 0xa0b307310de254b4342956, -31⟩,
  ⟨-6802107560948106, 14, 15912672096443028, 16, 12778336969128337, 16, 11, 0x5bf9541f67e192db94fe2c, -70⟩,
  ⟨12448707710478175, 15, 15912672096443028, 16, 12778336969128337, 16, 11, 0x4ad00a36d2f48ece529159, 15⟩,
  ⟨-12077350288981368, 15, 15880070009357314, 16, 12778336969128337, 16, 11, 0xa8989400dcc4d9d6f17746, -12⟩,
  ⟨9800093138827993, 15, 15880070009357314, 16, 12778336969128337, 16, 11, 0x8f584543c0d36aa5cb2d11, 11⟩,
  ⟨-11499769405347106, 15, 1586857711674847, 15, 12778336969128337, 16, 11, 0x40b5317d64a383bb25c50e, -9⟩,
  ⟨-39050166099744374, 15, 1586857711674847, 15, 12778336969128337, 16, 22, 0xd8b41a8f1dfd7c29eab8d0f1b5a534090442f1ba7b40, -39⟩,
  ⟨3002271229856804, 15, 15893009792032426, 16, 12778336969128337, 16, 11, 0x969cf464bb389591e86234, 2⟩,
  ⟨-3275102410268679, 14, 15893009792032426, 16, 12778336969128337, 16, 11, 0x84e253d08c938d02e9ac79, -34⟩,
  ⟨-26805107274548723, 16, 15883795319657683, 16, 12778336969128337, 16, 22, 0x7a87dc201f274633ef43d8b6441fde4168f803761c38, -3⟩,
  ⟨-6811022891081515, 14, 15883795319657683, 16, 12778336969128337, 16, 11, 0x49379d3ef6a184c9c2362a, -71⟩,
  ⟨-821529149898059, 13, 15849155904096526, 16, 12778336969128337, 16, 11, 0x347e8fc7eaf21809af5b7f, -80⟩,
  ⟨-3478640589812156, 14, 15849155904096526, 16, 12778336969128337, 16, 11, 0x18ed238886d11863804327, -31⟩,
  ⟨11974888390339615, 15, 1583701881851323, 15, 12778336969128334, 16, 11, 0xdc9ba9bd4e209a50496e6c, 11⟩,
  ⟨-6612266171327254, 14, 1583701881851323, 15, 12778336969128334, 16, 11, 0x284a7eef810eadbbe87f4b, -64⟩,
  ⟨-3554951592981689, 14, 15630107280767622, 16, 12778336969128337, 16, 11, 0x28b825498f6676e4e2d224, -38⟩,
  ⟨7305625230333272, 15, 15630107280767622, 16, 12778336969128337, 16, 22, 0x17950216edd62085a849cf336c12c234739b3a868c2f, 5⟩,
  ⟨11996062109953614, 15, 15630077980163075, 16, 12778336969128337, 16, 11, 0x566d90511244cfba7961bb, 13⟩,
  ⟨-41904390257302936, 15, 15630077980163075, 16, 12778336969128337, 16, 22, 0x025ee8c080de77ee1fbbe27a08658dca34ee773adc64, -43⟩,
  ⟨11498627532045905, 15, 1558022920021207, 15, 12778336969128337, 16, 44, 0x1178da951bd1f6738e6d7892bbaac491dab7200bc5d88dddf18dc7b84628b2febfac8d3fab508d296212f9af, 12⟩,
  ⟨12524040298960514, 15, 1558022920021207, 15, 12778336969128337, 16, 11, 0x8c60b1eaab267a2961fd7e, 14⟩,
  ⟨16562158215969635, 15, 1558014192370375, 15, 12778336969128337, 16, 11, 0xb1b1476aef642b3d64c627, 16⟩,
  ⟨-5754127717936329, 14, 1558014192370375, 15, 12778336969128337, 16, 22, 0x3f23b85b796bdbfe76fa97bd515b1db583fea369db8b, -57⟩,
  ⟨-26948987338025848, 15, 15609183266459106, 16, 12778336969128337, 16, 11, 0x91b2f13ecda16c5afe076a, -25⟩,
  ⟨-2295524255673269, 14, 15609183266459106, 16, 12778336969128337, 16, 33, 0x1e66e78cc71c5113c16afd8a3fba91e5a039e6b8c6d776ad05cc0b02ef4a1f2601, -24⟩,
  ⟨-36306060554384246, 15, 1560915663315428, 15, 12778336969128337, 16, 33, 0x56b81f3870fb232b25f4a3d33b199160e29b9bdbbdd2c7c52776d1ffd4fa440f69, -36⟩,
  ⟨-10063312689079224, 15, 1560915663315428, 15, 12778336969128337, 16, 11, 0xb2552713397b6687f8a992, -10⟩,
  ⟨-4858046971895318, 14, 1555789919521967, 15, 12778336969128337, 16, 11, 0x88e14d749953506d2d4659, -50⟩,
  ⟨-8559876565406977, 14, 1555789919521967, 15, 12778336969128337, 16, 33, 0xa01a8ed780398c8978e19730fcda642df1e5ffd1d19c61fa33cc1a6db0b35c176c, -84⟩,
  ⟨1057220438609487, 14, 15557790725884324, 16, 12778336969128337, 16, 22, 0x41e0934b0a1c6db036366922e0a756380de984fada1e, 8⟩,
  ⟨-4193419476397567, 14, 15557790725884324, 16, 12778336969128337, 16, 11, 0x21c6331f66c8b10ddaa26f, -45⟩,
  ⟨-3499347110691942, 14, 15497923818887709, 16, 12778336969128337, 16, 44, 0xf82e906a5aed62a3c35ad9cc93e5216f105e13f650ecdfff44732d6b287e0bf0df1a0a6afe8cf78231d8ec31, -38⟩,
  ⟨-52962425972397735, 16, 15497923818887709, 16, 12778336969128337, 16, 44, 0x07e3b7d36c953a9281883d8f093efe8f8aa84abbfab57a119acfc0af8d268531f0a39a961de47176345f3789, -4⟩,
  ⟨-62398034062292304, 15, 15497909961254792, 16, 12778336969128337, 16, 22, 0x41efc5496b484c6778ddb37385a2ee18a94b325b9b1d, -61⟩,
  ⟨-5187562406282389, 14, 15497909961254792, 16, 12778336969128337, 16, 11, 0x96ccc7fcb314386d1f6864, -53⟩,
  ⟨-4320787928117177, 14, 15444704009219083, 16, 12778336969128337, 16, 33, 0x11593d6875f7ed9e5c6a5707becbd824d9f796dd05cad96ee0d1bfc185a9682b48, -43⟩,
  ⟨-4195563980037625, 14, 15444704009219083, 16, 12778336969128337, 16, 11, 0x2dcd3f11958cf3cdde7a8d, -44⟩,
  ⟨-13057073100203441, 15, 15444271825998022, 16, 12778336969128337, 16, 11, 0xda085ffc5ace66463d7562, -13⟩,
  ⟨-19758677765326986, 15, 15444271825998022, 16, 12778336969128337, 16, 33, 0x2ab6aa6c2091b6130264c984fe8d1e8b1838dd35a9da37e4ed4141102dc4a3431d, -17⟩,
  ⟨60344592494828095, 16, 15472816448852025, 16, 12778336969128337, 16, 11, 0xc00648ded026b5bb375972, 7⟩,
  ⟨370561163835832, 14, 15472816448852025, 16, 12778336969128337, 16, 55, 0x487ff3cb30680111af3e879658e1e547c976656d8fc5220d9b0580d7142e777bef17bbd000d976db88f2e7f68c68387c8f0c6cba465973, 5⟩,
  ⟨7600071438110615, 15, 15472792334841836, 16, 12778336969128339, 16, 33, 0x1d28172f6a468c8eefd57110edf78ed142104ade576f78ddf789b15a274209ed19, 9⟩,
  ⟨1045637637824933, 14, 15472792334841836, 16, 12778336969128339, 16, 22, 0x8f26328a4f25f58c235fed01e9a88ce1f62f19722f02, 16⟩,
  ⟨-17233086787549375, 15, 1541787249948298, 15, 12778336969128339, 16, 11, 0x77de6e25de4cc1a0d6bb68, -16⟩,
  ⟨-11486406491797334, 14, 1541787249948298, 15, 12778336969128339, 16, 22, 0x0a9530960215f4d95c4ed2cd27438887f2bec9c5957c, -114⟩,
  ⟨30102976049671174, 15, 15417351239647936, 16, 12778336969128337, 16, 22, 0x3ef787d1ca6ca723745558261437bf2035aa8c733036, 28⟩,
  ⟨-6983114610732383, 14, 15417351239647936, 16, 12778336969128337, 16, 11, 0x181406aefe0e1d7d1d0e4e, -73⟩]

/-- tests/test_samplerz.cpp:1323-1976. -/
def kats512_2 : List Kat := [
  ⟨-6061040473002428, 14, 15077213699575425, 16, 12778336969128337, 16, 11, 0xd454d6ff213c828812b79a, -60⟩,
  ⟨24164106202592386, 15, 15077213699575425, 16, 12778336969128337, 16, 11, 0x4bc0082fb73d68ba16504a, 22⟩,
  ⟨-3155987395165594, 14, 1502053385832104, 15, 12778336969128337, 16, 11, 0xc4b249a073fbb8223304a2, -32⟩,
  ⟨-4628412900872474, 14, 1502053385832104, 15, 12778336969128337, 16, 11, 0xbcb36cef00e5da8276012e, -46⟩,
  ⟨-27870612878606686, 16, 15028677783150484, 16, 12778336969128337, 16, 11, 0xd1e3c3fb1f2ac8a1007f41, -2⟩,
  ⟨-8348332356657787, 15, 15028677783150484, 16, 12778336969128337, 16, 22, 0xa96fde67ce5b07823598d562feeb1ca7195bf7135952, -7⟩,
  ⟨-18367977904568797, 15, 14970600921493318, 16, 12778336969128337, 16, 11, 0xe79bd9fa2e56111b6b8366, -18⟩,
  ⟨-522429982875953, 13, 14970600921493318, 16, 12778336969128337, 16, 11, 0xd427d235d79cadf1be2e3e, -53⟩,
  ⟨-41133233835403786, 15, 1503365983521631, 15, 12778336969128334, 16, 11, 0xd15008a50f22bfa8a7b9c1, -41⟩,
  ⟨9203543623477842, 15, 1503365983521631, 15, 12778336969128334, 16, 22, 0x39a58ae1d8794506196c9a80cb9293f23614249db953, 11⟩,
  ⟨-2779218435235683, 15, 14979021252851474, 16, 12778336969128334, 16, 22, 0x79b9d911d30b229c01dd848811dd87399e4b7fe6b77a, -1⟩,
  ⟨-7410724837759798, 14, 14979021252851474, 16, 12778336969128334, 16, 22, 0x7960002dfc63e566477bc5b7a453d432c463938a0ea8, -75⟩,
  ⟨-20030582536172126, 15, 14990431234726158, 16, 12778336969128337, 16, 22, 0x0fb68e8f875c29b83780bb73b43dfe82ddff1c098431, -22⟩,
  ⟨-3599567050780522, 14, 14990431234726158, 16, 12778336969128337, 16, 11, 0xf86a0aa6b0012ba7b2ef99, -35⟩,
  ⟨-16485397457322957, 15, 1493429444030979, 15, 12778336969128337, 16, 22, 0x498a1ebf3b35e8793cce8ad8b5779af89bb8f35c7a4a, -17⟩,
  ⟨-6544656539115348, 14, 1493429444030979, 15, 12778336969128337, 16, 22, 0x1d9aa6d917e612ec022f9dd1701d540c6254859682c0, -66⟩,
  ⟨-8774535514728663, 14, 15035428930021009, 16, 12778336969128337, 16, 11, 0x9e8f05a074a59b57eed322, -86⟩,
  ⟨-9271498554766985, 15, 15035428930021009, 16, 12778336969128337, 16, 11, 0xbdd06dfa4f44b8e91a13b5, -9⟩,
  ⟨13997049197394906, 15, 14975021756841052, 16, 12778336969128337, 16, 11, 0xac92c2722794ac34f24503, 14⟩,
  ⟨2259006788373936, 14, 14975021756841052, 16, 12778336969128337, 16, 22, 0x9887e467bbe1bc430b2fb5a58ae7b028263ad1520910, 23⟩,
  ⟨-7530568204914515, 14, 1498545312240183, 15, 12778336969128337, 16, 11, 0x690648a6dbd7db5d201216, -77⟩,
  ⟨-6972746297774911, 14, 1498545312240183, 15, 12778336969128337, 16, 11, 0xf7cd59aeac393ddc96c2be, -70⟩,
  ⟨-4621375624529285, 14, 14922926138422896, 16, 12778336969128337, 16, 22, 0x0d22be5fc8242d00c2ebb47f34a031e87b453ebfffa6, -45⟩,
  ⟨-15209310956451032, 15, 14922926138422896, 16, 12778336969128337, 16, 33, 0x434f4ebd7a51301fbc8fdba87abda0c1495d13168ef9fef275fb505485b07d5f1c, -15⟩,
  ⟨12915345418802735, 15, 14987577575554127, 16, 12778336969128337, 16, 22, 0x0d327db615c735eef5719dcc5b6dbd88b145024b1719, 13⟩,
  ⟨-16308766946513046, 15, 14987577575554127, 16, 12778336969128337, 16, 44, 0xe58e127f4b348fbf1400c9519f8882d4424a4511d2ba2b1944acf0bdd68a3a49d1f18b4707b91870c0c1800e, -17⟩,
  ⟨-3253788316124524, 14, 14929252183335158, 16, 12778336969128339, 16, 33, 0x0fd558b698dfeda62e708bbe8a9dd1b433dd8abd9bd46f01eef709d578edf08b7c, -31⟩,
  ⟨-57833384531226145, 15, 14929252183335158, 16, 12778336969128339, 16, 11, 0x2626dc5bf4ca580f065b25, -55⟩,
  ⟨-4952016013908526, 14, 14943261201912512, 16, 12778336969128337, 16, 11, 0xc9ae1752cc44bbe7e98827, -50⟩,
  ⟨-738720139504822, 13, 14943261201912512, 16, 12778336969128337, 16, 44, 0x293dc6770b54cb4cbefab617f82a64f89311d5580f5306a2af04e8da5e7c3eddfa355137161164fe66ee9432, -76⟩,
  ⟨-3706670274809783, 14, 14882704110672327, 16, 12778336969128337, 16, 11, 0xbc28841d762e328feb6f73, -37⟩,
  ⟨-445101126561871, 13, 14882704110672327, 16, 12778336969128337, 16, 11, 0x82e439281f1d47f356915a, -43⟩,
  ⟨-31902056887451447, 15, 14646272906345605, 16, 12778336969128339, 16, 33, 0x7666bb97a0369a69c367ff6232dca400342c46575fb15e77902d80585e5db13b51, -30⟩,
  ⟨-42245844973396345, 15, 14646272906345605, 16, 12778336969128339, 16, 22, 0xe5609f4d4c40bce42f63f3a90130773dd3483dd8ba3a, -43⟩,
  ⟨24884202848598996, 15, 14616470713637384, 16, 12778336969128337, 16, 11, 0xfade0d639ff4a0a69df82d, 24⟩,
  ⟨-3329307604010705, 14, 14616470713637384, 16, 12778336969128337, 16, 11, 0x9070928be67c3d0b863d79, -32⟩,
  ⟨-36147634527660486, 15, 14531365735883313, 16, 12778336969128337, 16, 11, 0x561a92e65b04f4143cdc63, -38⟩,
  ⟨7186002711133979, 15, 14531365735883313, 16, 12778336969128337, 16, 22, 0x1b2355dc9ab9a275adc4965a88f85f388a0887c078b9, 6⟩,
  ⟨-11135359967152525, 15, 14508152608091145, 16, 12778336969128337, 16, 22, 0x1782e1dc80fbcc1ac50d7d346abf9a42a85f8263720d, -14⟩,
  ⟨-6596422514537873, 14, 14508152608091145, 16, 12778336969128337, 16, 11, 0xbe586ecba9dd6b315a3d69, -65⟩,
  ⟨-5234259141796961, 14, 1460099783966391, 15, 12778336969128337, 16, 11, 0x8880906cb88e1df6e2e403, -54⟩,
  ⟨-31261421147557492, 15, 1460099783966391, 15, 12778336969128337, 16, 11, 0xa781a927e62a3f7a138bcb, -31⟩,
  ⟨-7055582080558985, 14, 14572944322061518, 16, 12778336969128337, 16, 55, 0xaf0f9f1510100e9c42e5e20a0651a3ecb54c50531ded7a07c641dc644660e136dd198ce2d49f3188bf73aa569cce88b52011164e2e0a45, -72⟩,
  ⟨39027761296205203, 16, 14572944322061518, 16, 12778336969128337, 16, 22, 0x67b6cdc73ea17e200d44a462459ad65d4d8d0dde6502, 5⟩,
  ⟨-12227770465519504, 14, 14494654611467515, 16, 12778336969128337, 16, 11, 0xfe51153f082a1ab3b6fa37, -123⟩,
  ⟨-1683677724454362, 14, 14494654611467515, 16, 12778336969128337, 16, 33, 0x0bf8979306ea596d0e8066d9a0823176ac8e48bff0e5d237b0b9dfbf7fe206247c, -17⟩,
  ⟨-2849118623169991, 15, 14472628784554222, 16, 12778336969128337, 16, 33, 0x39fc5ab4b7d16fc56251541026229a808514247a048cde7e1137c8492f8e692255, -3⟩,
  ⟨-15622827271022738, 15, 14472628784554222, 16, 12778336969128337, 16, 33, 0x096617458096eb46868d10d0555bb6701bc3004f73d182b35b3dd32e5cbaf20b09, -14⟩,
  ⟨-30236640629608637, 15, 14583944617019193, 16, 12778336969128337, 16, 11, 0x769cad0d62f23ac6aa6187, -29⟩,
  ⟨18142396931393662, 15, 14583944617019193, 16, 12778336969128337, 16, 11, 0x63421efa77aa5cb6cfa831, 17⟩,
  ⟨-46660090761096896, 15, 14553953625286353, 16, 12778336969128337, 16, 22, 0x6bd87dccf0401228c7d2d1b69dfcbc62b7db5601b531, -46⟩,
  ⟨-5799732604746552, 14, 14553953625286353, 16, 12778336969128337, 16, 66, 0x3a084043b9fc80cc770eff7dc3ca43697d7bf7bb8ceb27dbcb247dd5df08f123bb813f1b0d4f91ab522679cd2d65841bb49adc2a0f14af1b88e2e4a9d38a064fe063, -61⟩,
  ⟨-7814602632890265, 14, 14462060822553982, 16, 12778336969128337, 16, 11, 0x2c8f2b239cf4069de5613f, -76⟩,
  ⟨-6632616135724317, 14, 14462060822553982, 16, 12778336969128337, 16, 44, 0xc3dbf32bf12b4a9b338cfa46aede5d23820c5c38fc9b1037e50b00f0e6eab8df518af84883ea09f666ef0b72, -65⟩,
  ⟨-2962031778497221, 15, 14438781503240847, 16, 12778336969128337, 16, 22, 0x58b584144aefdf5289c2d7ebc5618f248fa00fe782a4, -3⟩,
  ⟨-7866689495593081, 15, 14438781503240847, 16, 12778336969128337, 16, 22, 0x6f3f57eb00c05bacd32fd5a9e922124d24dcdb256949, -7⟩,
  ⟨8680449904807563, 16, 14533606383145887, 16, 12778336969128334, 16, 22, 0x209981a6ab9069510195d7c6726a5c6c5c4cbf75c482, 0⟩,
  ⟨-23370054589727886, 15, 14533606383145887, 16, 12778336969128334, 16, 11, 0x74f9fd4c6cdd9d15fec27b, -25⟩,
  ⟨-36339219587609705, 15, 14505956033757619, 16, 12778336969128337, 16, 11, 0xa47c40009fe3b9e84de91e, -36⟩,
  ⟨-7626581591781886, 15, 14505956033757619, 16, 12778336969128337, 16, 11, 0xd206af5e8936d2f112a715, -7⟩,
  ⟨-2488187161640671, 14, 14420501472762544, 16, 12778336969128337, 16, 44, 0x1a75015b1f909d04a308d0222b8428f3c418d6c4349957fa13395d4b6fd7c160d6f330eeb6faede00e905a50, -25⟩,
  ⟨-1630114610277845, 14, 14420501472762544, 16, 12778336969128337, 16, 77, 0x035a6f27b867ac59deae8b0ec61c25d519d51769982f5e5180b05b81cfe61d81c22e75c2a1eea77d78196aac1d336a599c6c23fca97ed5284516597b7d402b6abac7355f5287470e4137667b3b, -14⟩,
  ⟨27596360504376154, 15, 14398922968886294, 16, 12778336969128337, 16, 55, 0x065064c3140aa8c22d2f502b557eb8ca69d971fd21f6a1c669a6e44a9b26813bfc0175e3a726abb55d46a2e2943ab186504af3f3589287, 26⟩,
  ⟨-3854826009303605, 14, 14398922968886294, 16, 12778336969128337, 16, 11, 0xe92c040ebbe8e1f44ce620, -39⟩,
  ⟨-8904432672218971, 14, 14688601453204337, 16, 12778336969128339, 16, 11, 0xba255fa175fafe0f47230d, -89⟩,
  ⟨2201023585465174, 14, 14688601453204337, 16, 12778336969128339, 16, 11, 0x6aaeccfecb6b235f2a4e39, 21⟩,
  ⟨15224564386445932, 15, 14643155082963577, 16, 12778336969128334, 16, 11, 0xa898de94b4f7ae93d4d50e, 16⟩,
  ⟨-24835680927151834, 15, 14643155082963577, 16, 12778336969128334, 16, 11, 0xff5064091ad80af28ed455, -25⟩,
  ⟨-23571627858417326, 15, 1465255463310803, 15, 12778336969128339, 16, 22, 0x0f75e790d6b670e27c8ef98e6387c35ae19b84377515, -22⟩,
  ⟨-533373812416383, 13, 1465255463310803, 15, 12778336969128339, 16, 22, 0x4801071f0c69c4f24122f134bc1219ea6082257f4028, -56⟩,
  ⟨41947879133100706, 15, 14604862746601888, 16, 12778336969128339, 16, 22, 0xc51d0f27ed7df92efc68fe5b1aa327183a4541c36b85, 43⟩,
  ⟨-20493940123431877, 15, 14604862746601888, 16, 12778336969128339, 16, 11, 0xc6b6e4f1feeef099b2e293, -21⟩,
  ⟨-5452964928212812, 15, 14636699163394395, 16, 12778336969128337, 16, 11, 0xfb29a6434c64e4df1c9d1f, -5⟩,
  ⟨-1110242007884058, 14, 14636699163394395, 16, 12778336969128337, 16, 22, 0x5a2a764dfe92f51b68c9c7bec55f4127b247619645d2, -11⟩,
  ⟨-62512971010396804, 15, 14595174928133843, 16, 12778336969128339, 16, 11, 0x1a276e078d929a22907c1b, -66⟩,
  ⟨-7140805490116335, 14, 14595174928133843, 16, 12778336969128339, 16, 33, 0x3b0136e926ae243b45cc7c1ffc488b7f764d1d2289a9fc1e2f54875f86eaaba7c5, -71⟩,
  ⟨-20329452292624005, 15, 1460556947481507, 15, 12778336969128337, 16, 77, 0x11669b5c993670e4a4644745cc9cc7d0f873d3ba23749b9f5405cd1370ea5d30a890687dbed10c15a3807bb8cf19d4f8bbe75b205f78f85f114e9d4901c9085cf68eb35b92325132fde4a422b6, -21⟩,
  ⟨-17225779178541366, 15, 1460556947481507, 15, 12778336969128337, 16, 11, 0x4bdd3a6081732e5c86ad64, -15⟩,
  ⟨-6358047766109185, 15, 14561655334096837, 16, 12778336969128337, 16, 33, 0x1f29d7643fa8ecbd5f48a60a6293ae0e6bd49ab9748eba9f88e6847c9386e6bd8f, -6⟩,
  ⟨-4340376495761299, 14, 14561655334096837, 16, 12778336969128337, 16, 11, 0xde4208093313cc9c1c10a6, -44⟩,
  ⟨-7004235533102536, 14, 14646698441941015, 16, 12778336969128337, 16, 11, 0x696d2816a0eef5e5969456, -72⟩,
  ⟨9536047570102067, 15, 14646698441941015, 16, 12778336969128337, 16, 22, 0x480ad252069849fdcf09dd7232f14f7b3669a3eafb69, 11⟩,
  ⟨-725044693689539, 13, 14596291810060817, 16, 12778336969128337, 16, 11, 0xc9e36e2fb486307be8312b, -72⟩,
  ⟨16308991347343234, 15, 14596291810060817, 16, 12778336969128337, 16, 22, 0x9a79ce3fefcdee73b5eee5f6b0c0470db1348d81ee08, 16⟩,
  ⟨-3564538530939369, 14, 14607912085310244, 16, 12778336969128337, 16, 11, 0xfab09331dccbf382490ebc, -36⟩,
  ⟨-4699888747063895, 14, 14607912085310244, 16, 12778336969128337, 16, 22, 0xaa6ab154bc132eef0d33e99995587e354c1df8eb0290, -48⟩,
  ⟨5209204847718598, 14, 14554624710401145, 16, 12778336969128337, 16, 11, 0xbea78e7919a8d3e59090c6, 52⟩,
  ⟨-8953287480046265, 14, 14554624710401145, 16, 12778336969128337, 16, 11, 0x8cdbba61f9594e928bb223, -91⟩,
  ⟨-12105708600950749, 16, 14590711578627775, 16, 12778336969128337, 16, 22, 0x17d3602fbd12b68da99e3d9d64014d22aa2e1f950f30, 0⟩,
  ⟨-6331025489512797, 14, 14590711578627775, 16, 12778336969128337, 16, 11, 0xb1534b67136bb406982d64, -63⟩,
  ⟨27602944165875, 12, 14544107675460276, 16, 12778336969128337, 16, 22, 0x232c0e23e8aa27bef4feeb416c039395bd35b8977b27, 30⟩,
  ⟨-3717098899326975, 14, 14544107675460276, 16, 12778336969128337, 16, 11, 0xb12d9f072b0d31a1eb7725, -37⟩,
  ⟨-4891623047654699, 14, 145569750269341, 14, 12778336969128337, 16, 11, 0xf416d1b930f1452fb2d582, -48⟩,
  ⟨-1837843917919769, 14, 145569750269341, 14, 12778336969128337, 16, 11, 0xcba8d1f4ff13738249dbb4, -18⟩,
  ⟨14337018335532854, 15, 14507333633979989, 16, 12778336969128337, 16, 22, 0x2a69e05f175942cd0620cef6b8358f4a732165faf887, 14⟩,
  ⟨-8766936616498144, 14, 14507333633979989, 16, 12778336969128337, 16, 33, 0x807d32c44d9896230837d01af1299cdaff68299df6f29bf4221f3ce32c7ffa2f54, -86⟩,
  ⟨-10788139145203381, 14, 14250910099644485, 16, 12778336969128337, 16, 11, 0xe1a6265c4eed37ca6a9d6f, -107⟩,
  ⟨-10771021697680126, 15, 14250910099644485, 16, 12778336969128337, 16, 22, 0x60c0314ac830890037c2e8d270e013d281e8eaf65ada, -11⟩,
  ⟨-6430126612387387, 14, 1422316001417723, 15, 12778336969128337, 16, 11, 0xad9a296864675675187021, -65⟩,
  ⟨-22175614999117517, 15, 1422316001417723, 15, 12778336969128337, 16, 11, 0xb08083bdc9f382e130cc78, -23⟩,
  ⟨-6834674811522127, 15, 14161033629852835, 16, 12778336969128337, 16, 11, 0xf70da828cda2d4aff42362, -6⟩,
  ⟨-4862926324642504, 14, 14161033629852835, 16, 12778336969128337, 16, 11, 0x038d6768914080a9e97e02, -53⟩,
  ⟨-5467587390057604, 14, 1413636295358971, 15, 12778336969128337, 16, 22, 0x546b64e95321c6c795a4c9388006e2bd6ec1c60e5e52, -57⟩,
  ⟨-39283046225171624, 15, 1413636295358971, 15, 12778336969128337, 16, 22, 0x2f85407bd5f5b0085fecbdca0087eb04950b85190bab, -39⟩,
  ⟨11320914502124568, 15, 14194680582136097, 16, 12778336969128337, 16, 22, 0x128f8a56e0f7e3ab3191e8724baff2573b7e23df071e, 13⟩,
  ⟨-4022329765290823, 14, 14194680582136097, 16, 12778336969128337, 16, 11, 0xecac3fa779301500ba0e2e, -41⟩,
  ⟨-5897302239737793, 14, 14170819608726466, 16, 12778336969128337, 16, 22, 0x1a861a6246f0ec78e8eb9763aba25b053a63137670a7, -60⟩,
  ⟨14415471666953238, 15, 14170819608726466, 16, 12778336969128337, 16, 11, 0xe374e96d9ddfcbfbb237a6, 15⟩,
  ⟨-35123558119603324, 15, 14115309957220463, 16, 12778336969128337, 16, 22, 0x4b08349a8cbb11abf04fb24baa0cafa8a0738b2d931e, -33⟩,
  ⟨-30246958475304517, 15, 14115309957220463, 16, 12778336969128337, 16, 11, 0xff482b0e099ffb41b71f1d, -30⟩,
  ⟨-1872984957335878, 14, 14093621742726146, 16, 12778336969128337, 16, 44, 0x2db9eb5439fdd8ce4e03b84577ac7750dec363c1fc8c935a1b0ccdf487fe4521ab0e9f38e8eb5c6a23cafb05, -15⟩,
  ⟨-45628497221293046, 15, 14093621742726146, 16, 12778336969128337, 16, 11, 0x957c5c273aa0bc03084c39, -47⟩,
  ⟨-7785188755988742, 14, 14181397418960506, 16, 12778336969128337, 16, 22, 0xdcfff757863bf54f7155e5b6d0206916deb6afdd5b35, -77⟩,
  ⟨-8546172040723701, 14, 14181397418960506, 16, 12778336969128337, 16, 11, 0xdf9ea92155e23f8343e681, -86⟩,
  ⟨-3011205798275682, 14, 14151332272875008, 16, 12778336969128337, 16, 33, 0x09ab0f1cb6724cb818a0bcf1a7233cecebb40be472ffb6402cf581140b247a505b, -31⟩,
  ⟨-36698913920261646, 15, 14151332272875008, 16, 12778336969128337, 16, 11, 0x7779de813d45cca3b65e49, -38⟩,
  ⟨2926220824757336, 14, 14081242816865536, 16, 12778336969128337, 16, 11, 0xbd2db7f4869e524b19f0a2, 29⟩,
  ⟨-4429463981440408, 14, 14081242816865536, 16, 12778336969128337, 16, 11, 0x69b21c093167e232615d89, -43⟩,
  ⟨-2646674399341755, 15, 1405432594208996, 15, 12778336969128337, 16, 11, 0xda7dfdf6a236d6e895892c, -2⟩,
  ⟨-19149039190775447, 15, 1405432594208996, 15, 12778336969128337, 16, 11, 0xc01ba9f714f5db7e487499, -20⟩,
  ⟨7579420165038329, 14, 14120720072595465, 16, 12778336969128339, 16, 11, 0x5d4e0002b3046db602b235, 74⟩,
  ⟨-4967542655063887, 14, 14120720072595465, 16, 12778336969128339, 16, 55, 0xf6d63187b983b0759a02ea7659ba446ecdf137ed4efbf1b6620d1fb17ea963f2f40970ab602fa7626c09aa29ecd08f316320d8db078499, -50⟩,
  ⟨19867993630311602, 16, 1409511052278232, 15, 12778336969128337, 16, 11, 0xf01e37b9eef19d99408a3d, 1⟩,
  ⟨-3360838000896625, 14, 1409511052278232, 15, 12778336969128337, 16, 11, 0xbcce806d4f849f4f749a7f, -34⟩,
  ⟨-35925738151599525, 15, 14031300453634241, 16, 12778336969128337, 16, 11, 0xdf9a8878bd9375f09a0682, -36⟩,
  ⟨-5347183467289826, 14, 14031300453634241, 16, 12778336969128337, 16, 22, 0x0345b0ec263a939928346b5687cc7114a999a49e7f29, -52⟩,
  ⟨11692776588660976, 15, 14007886424482423, 16, 12778336969128337, 16, 22, 0x4206a5af8523fc845eda559060e1b8a791bb3241b593, 13⟩,
  ⟨-6544147599006838, 14, 14007886424482423, 16, 12778336969128337, 16, 44, 0x517c7c2eb1c4fbaaac6cf42730e9bdeb628b818473c24b03745abb610119488cf4ed924229fc006c21da711f, -65⟩]

/-- tests/test_samplerz.cpp:1977-2627. -/
def kats512_3 : List Kat := [
  ⟨-40344935162554165, 15, 14276995736277656, 16, 12778336969128337, 16, 11, 0xf9dd09c3955d657984fd8f, -40⟩,
  ⟨-2679452086169223, 14, 14276995736277656, 16, 12778336969128337, 16, 11, 0xded3d0cd66c8697a8ae05b, -27⟩,
  ⟨-6701385835142529, 15, 14198808219483006, 16, 12778336969128339, 16, 22, 0x1ee09d24458a5197fc9cd08e66368ce79bb1ef990888, -8⟩,
  ⟨-2864221366519985, 14, 14198808219483006, 16, 12778336969128339, 16, 11, 0xea2b6a339e6bd29596298e, -28⟩,
  ⟨23513507839245214, 15, 14226452887757235, 16, 12778336969128337, 16, 22, 0x066d8a1370aa178b5e50b9537bf4046c4da3db4ce51c, 26⟩,
  ⟨-472978625711605, 13, 14226452887757235, 16, 12778336969128337, 16, 11, 0xd161e8a93b182a5441a919, -47⟩,
  ⟨-20299876310312108, 15, 14142218325844267, 16, 12778336969128337, 16, 11, 0xbead2fa3ae43b06273f258, -21⟩,
  ⟨-7037284933842503, 14, 14142218325844267, 16, 12778336969128337, 16, 11, 0x645b2a9f33f5d36eca6958, -69⟩,
  ⟨-16792284410637052, 15, 1423910247572967, 15, 12778336969128337, 16, 33, 0x9a310c077912a55d4e2bc2072c061c2434a42511e84162e20697bf9e8151111b36, -15⟩,
  ⟨-5267418213145271, 14, 1423910247572967, 15, 12778336969128337, 16, 11, 0x82ba60e342f8158078a241, -54⟩,
  ⟨-365292662727691, 13, 14161161582651138, 16, 12778336969128337, 16, 11, 0xe4cf1aca401d1aa9c42026, -37⟩,
  ⟨-5568301840091552, 15, 14161161582651138, 16, 12778336969128337, 16, 22, 0x897cedd39c96c288ff69d2b9d8fd3d404f0ef827842b, -6⟩,
  ⟨12198332167738215, 16, 14193896346966004, 16, 12778336969128337, 16, 11, 0x88d2bf1f11e1a8c23dc160, 3⟩,
  ⟨-33449530306280614, 15, 14193896346966004, 16, 12778336969128337, 16, 11, 0xde85e7359f6c2dd021e613, -34⟩,
  ⟨9450742482339802, 15, 1411027228704727, 15, 12778336969128337, 16, 11, 0x3f4d32f4a214f4d59bc903, 12⟩,
  ⟨-3723323216082789, 14, 1411027228704727, 15, 12778336969128337, 16, 11, 0xd73b2318c1895c11e079d7, -37⟩,
  ⟨-613757721581842, 13, 1420698606986877, 15, 12778336969128337, 16, 22, 0xe3d7e751610f0c9373a8d56ffdb1a021bcb39544e50e, -60⟩,
  ⟨-40362200356400926, 15, 1420698606986877, 15, 12778336969128337, 16, 11, 0x6b9abbd51c3cd32adb036d, -39⟩,
  ⟨-5434147008497459, 14, 14122004043087075, 16, 12778336969128337, 16, 11, 0x47bd44e3e47ed1792e5f55, -52⟩,
  ⟨-146831942361797, 13, 14122004043087075, 16, 12778336969128337, 16, 11, 0x557dd8c0f02a76de887345, -13⟩,
  ⟨4479592291446185, 15, 14151083977773593, 16, 12778336969128334, 16, 11, 0xf21434cc28e9af733fb328, 5⟩,
  ⟨-45015043121315045, 15, 14151083977773593, 16, 12778336969128334, 16, 11, 0x83600f1488c4febe21cf44, -44⟩,
  ⟨14579034332405245, 15, 14057411374002395, 16, 12778336969128337, 16, 11, 0xd1be69c09c087648ec4301, 15⟩,
  ⟨-631337895053039, 13, 14057411374002395, 16, 12778336969128337, 16, 22, 0xdc951dfbad85fd75794ecab3f32a1a9bbcbde6b1d22e, -64⟩,
  ⟨9283229190595005, 15, 1416305375259353, 15, 12778336969128339, 16, 11, 0x20ecde8bdca2c5e259d102, 13⟩,
  ⟨-33079184404642575, 15, 1416305375259353, 15, 12778336969128339, 16, 11, 0xc12675e4913c6b4e2615b1, -33⟩,
  ⟨-42591154594945316, 15, 14078850657950286, 16, 12778336969128337, 16, 11, 0xbe079dbcce8def2748b080, -43⟩,
  ⟨-4101538372563103, 16, 14078850657950286, 16, 12778336969128337, 16, 11, 0xbcfe9bb0167c20001837d7, 0⟩,
  ⟨-7390875605338093, 14, 1411336786864687, 15, 12778336969128337, 16, 55, 0x63b58fff94e4a68860ddd120153de9b08c135af4ad2e3e17cf1b360e59f3619d542004d39f1e814df4d9afcaab43449c9ef8e00a1a0ec9, -74⟩,
  ⟨-526496680715028, 14, 1411336786864687, 15, 12778336969128337, 16, 44, 0x01705b83095b3de8f7befbcf59ea1e3e7d52e870d8d30699a4457acccadd1fc0d55a40dbe8f413801135f903, -4⟩,
  ⟨-35147834512350336, 15, 1402099600434422, 15, 12778336969128337, 16, 11, 0x8ed0cbf6564ea96e89a30c, -34⟩,
  ⟨-8664486473248898, 14, 1402099600434422, 15, 12778336969128337, 16, 11, 0x9e73be8867f902252fcf83, -85⟩,
  ⟨-7763144986472308, 14, 13713229712415673, 16, 12778336969128337, 16, 22, 0x17a2487d120b0b8c65f1c858072a6e4cefd8b4b6f092, -79⟩,
  ⟨-4680200541764168, 14, 13713229712415673, 16, 12778336969128337, 16, 11, 0xcf48dae35e04a9030bff64, -46⟩,
  ⟨3297115281471229, 14, 13666032545593816, 16, 12778336969128337, 16, 66, 0x723e0acebd53c503cf55ee40f9b34ac264ff7240e0bbe30252cc3a0d554119dad81d8036709f84e37ff6b9c351332ca3c590828f351a68745d705156af6c4d97ee39, 31⟩,
  ⟨-23689993812448877, 16, 13666032545593816, 16, 12778336969128337, 16, 22, 0x0ea3d362f3250249e758a34ade2cbca3c35539cd5556, 0⟩,
  ⟨14932594872202043, 16, 13625680329247505, 16, 12778336969128337, 16, 22, 0x124318cb591b208fa0a26aa480fae814d93e2f15c66f, 1⟩,
  ⟨7290724428249238, 15, 13625680329247505, 16, 12778336969128337, 16, 22, 0x012d7ccdcad54d0f4776905f47f4da4a10408ae9ca0e, 6⟩,
  ⟨14991934953687947, 15, 13581879477766088, 16, 12778336969128337, 16, 22, 0xdbbc11ca92863decfbb8e85887b86829cdf922836960, 16⟩,
  ⟨-6787845036480319, 14, 13581879477766088, 16, 12778336969128337, 16, 22, 0x3e9f337c3ebcf089eed09be093eceb03eb474dc65466, -68⟩,
  ⟨-10468935766757816, 15, 1368038155741621, 15, 12778336969128337, 16, 11, 0x17a170ddf9fd958750731a, -7⟩,
  ⟨-2074541147777829, 14, 1368038155741621, 15, 12778336969128337, 16, 11, 0x7625ac99847be211a56d3e, -19⟩,
  ⟨15219393806180811, 15, 136331490824169, 14, 12778336969128337, 16, 11, 0x264b5402e26496a3f18041, 13⟩,
  ⟨-9094543929961644, 14, 136331490824169, 14, 12778336969128337, 16, 11, 0xa8601425f7e378967cb702, -90⟩,
  ⟨-48887039370084565, 15, 13598111321582922, 16, 12778336969128337, 16, 11, 0xe3ccaebf9e86d712fbcd1d, -48⟩,
  ⟨-36037925042866576, 15, 13598111321582922, 16, 12778336969128337, 16, 22, 0x049ccb4ba39f418c3c8262fa6b9add78dc6b6bb652a5, -37⟩,
  ⟨-4302663140260013, 14, 13554124615492813, 16, 12778336969128337, 16, 22, 0xfadb7327709a384d9a5addcf29dff272e2df9dd40c05, -44⟩,
  ⟨-16590440553662003, 15, 13554124615492813, 16, 12778336969128337, 16, 22, 0x5aa56cc0c1c06f806475fe1813a993f7b87d32096919, -13⟩,
  ⟨-21756956984177197, 15, 1362975229882641, 15, 12778336969128337, 16, 22, 0x235480880d71da29c2d19b9d106d9c5129769f4d903d, -23⟩,
  ⟨3438361858651131, 14, 1362975229882641, 15, 12778336969128337, 16, 11, 0x247a1c44445a35f3474e0c, 32⟩,
  ⟨-16236989353845857, 15, 1358270663781274, 15, 12778336969128337, 16, 22, 0xf3f17ac255e96e49ffcbf877fffc967d125726bf1520, -15⟩,
  ⟨-28807336126213713, 15, 1358270663781274, 15, 12778336969128337, 16, 11, 0xe803052ccec8206b47df66, -28⟩,
  ⟨-7123614784837716, 14, 1354279829945407, 15, 12778336969128337, 16, 11, 0x94682b72d5916a22572c6c, -73⟩,
  ⟨-7444351888492147, 14, 1354279829945407, 15, 12778336969128337, 16, 11, 0x9f526f62a9f958dbf57391, -73⟩,
  ⟨-5217657808261074, 14, 13498024509572628, 16, 12778336969128337, 16, 11, 0x9d233fde8bdcf5161b0832, -54⟩,
  ⟨-3867668303411929, 14, 13498024509572628, 16, 12778336969128337, 16, 11, 0xdf88364f641b7a4902f593, -38⟩,
  ⟨5997581918380611, 15, 13592876576977457, 16, 12778336969128337, 16, 11, 0x0b41b831205b5a2ab59f47, 9⟩,
  ⟨-3427141170278016, 15, 13592876576977457, 16, 12778336969128337, 16, 11, 0xd2245c88629a8a6eb0cd0d, -3⟩,
  ⟨-14458497200309193, 16, 1354698023183797, 15, 12778336969128337, 16, 22, 0x61aed6f64410045ef1e1f669f98f190993de5bf43671, -3⟩,
  ⟨-11609615330327617, 15, 1354698023183797, 15, 12778336969128337, 16, 11, 0xb0242b1e24847d7eeacb71, -11⟩,
  ⟨6378558997261408, 17, 13512309066925225, 16, 12778336969128337, 16, 22, 0x314d6066bc49333f00c6d7943fb0b04feeebff31628d, -1⟩,
  ⟨-56537079476604674, 15, 13512309066925225, 16, 12778336969128337, 16, 11, 0xfe0695acc8d35b402c74da, -57⟩,
  ⟨17693547881959756, 15, 13468418715768542, 16, 12778336969128337, 16, 22, 0xad0e5af9871217a1b8f6fc5d9dc02f2dae1eca2b218a, 19⟩,
  ⟨-982731502656654, 14, 13468418715768542, 16, 12778336969128337, 16, 11, 0xd181b23403c45567f9fd52, -9⟩,
  ⟨-4777903854643598, 14, 13792269820679146, 16, 12778336969128337, 16, 11, 0xbcf01fa5a07580953c28d0, -48⟩,
  ⟨-3701586344203705, 14, 13792269820679146, 16, 12778336969128337, 16, 11, 0xa1da18e258a0da65611d54, -36⟩,
  ⟨-27732675839341756, 15, 13734679738486477, 16, 12778336969128337, 16, 23, 0x34793fd95ce404a0a3046f869fbf0b418b015b360e9017, -29⟩,
  ⟨5555441353166723, 15, 13734679738486477, 16, 12778336969128337, 16, 44, 0x8eb5116e582c474a28d1a0557184147c23555e085baf0ad3ffbf54eeeb2de96b50401ce3eb09d24cba3ebd40, 8⟩,
  ⟨1623263796505634, 14, 1374070906599807, 15, 12778336969128337, 16, 11, 0x6efc8dfe64c02bcbb65280, 15⟩,
  ⟨-3145279368176398, 14, 1374070906599807, 15, 12778336969128337, 16, 11, 0xe14c717ebafc2cb9b70ca9, -32⟩,
  ⟨-440334921042836, 13, 13676361301600812, 16, 12778336969128337, 16, 22, 0xcb288a6775bf475aba98eda6ea106b655fc15ae02b9a, -44⟩,
  ⟨-9075869754009848, 14, 13676361301600812, 16, 12778336969128337, 16, 22, 0x5131fd55f64876fcfe4684ba532fb1b8bd372ba596e2, -91⟩,
  ⟨-27263048591703168, 15, 1374843991331591, 15, 12778336969128337, 16, 11, 0x83fd9be5f72bddaaa71c78, -29⟩,
  ⟨-12153545511538338, 15, 1374843991331591, 15, 12778336969128337, 16, 11, 0xb3090e77a99fbccd4baa5a, -13⟩,
  ⟨-6362136371316207, 14, 1369254596628861, 15, 12778336969128337, 16, 22, 0x21a842e51138b9b2bbc36a723c994b8d92ff2065ff3c, -62⟩,
  ⟨-366097877711892, 13, 1369254596628861, 15, 12778336969128337, 16, 11, 0xe5c56c143ec53623ac34d2, -37⟩,
  ⟨12666662077307496, 15, 13702614472471273, 16, 12778336969128337, 16, 11, 0xa42853d2f5ff828341e62d, 12⟩,
  ⟨-16241930519316305, 16, 13702614472471273, 16, 12778336969128337, 16, 44, 0x22db94bc47402a412692f1308a398321083b1e21eda41d5ef1daba59b92bc591d5442cc0e6fd07a7a297682d, -4⟩,
  ⟨-4318495946851843, 14, 13640253619579414, 16, 12778336969128337, 16, 33, 0xd967a5165f8091e90b98fb1d27fc4a164b530d782ca52077131560804bb1181d1b, -40⟩,
  ⟨-12188550119371667, 15, 13640253619579414, 16, 12778336969128337, 16, 33, 0x037b5b425b51fb76b648809392439bf1108ad7e593f635f379d2a1cb61eaaa5925, -10⟩,
  ⟨-5113190434842739, 14, 13723623492837926, 16, 12778336969128337, 16, 22, 0x154fc434aadf3f4729ee9ce10a223106546f847235a3, -51⟩,
  ⟨-7719898871937002, 14, 13723623492837926, 16, 12778336969128337, 16, 22, 0xa5ab93e5d4f07e3aa16efad91ab2aef75c9037c5d33a, -77⟩,
  ⟨-4350572530256926, 14, 13658645001488703, 16, 12778336969128339, 16, 11, 0xfe579e83926b989a908e8a, -44⟩,
  ⟨-19843122918337506, 16, 13658645001488703, 16, 12778336969128339, 16, 22, 0x49afc01149f15df86a57afb9b889b27ae2ec4601a097, -2⟩,
  ⟨-11398108473819125, 15, 13663090456705889, 16, 12778336969128337, 16, 22, 0x34a89e623d310e215d7aa37a05aa58cf6a353bad2042, -13⟩,
  ⟨-1766288151713866, 14, 13663090456705889, 16, 12778336969128337, 16, 44, 0xa2c99262f0567b835122b71096581fac1161ecbeebd5360b47c4fa4ad8b09c67a26612db0710121f5697ea1f, -19⟩,
  ⟨-4118153796009135, 14, 13589010166724986, 16, 12778336969128334, 16, 22, 0x86a54710e7e8d7b12728a3e0801da6104c52f287ee2a, -42⟩,
  ⟨-8409471654614006, 14, 13589010166724986, 16, 12778336969128334, 16, 11, 0xf2bd92484aafb66d2af168, -84⟩,
  ⟨8087501443824177, 15, 13676432505785832, 16, 12778336969128337, 16, 44, 0x60d268a06ac70c9cb35f714c8959d366819b69cf6bf23dca727be30067e6a5baf3b21de3bb2bd26277983ee8, 8⟩,
  ⟨-519241728632248, 13, 13676432505785832, 16, 12778336969128337, 16, 11, 0x94bc54316a09da845378c5, -53⟩,
  ⟨-53592068803755595, 15, 1361273040095431, 15, 12778336969128337, 16, 33, 0x6e28679a8c6bb7b690e6f91291adf9224ff2063e71cad1db00b7a4eb4d7eb81837, -54⟩,
  ⟨-5372629090026036, 14, 1361273040095431, 15, 12778336969128337, 16, 11, 0xb0e4a61cff74f6d655d2d9, -54⟩,
  ⟨-13672816058280723, 15, 13622241584968402, 16, 12778336969128337, 16, 44, 0x88ed7f57eb25b9b3b17af15541150bc5a35f0ca909a242cb209deff44bac2387f8fbc5cfbd54262c7581e721, -13⟩,
  ⟨-663374558878728, 13, 13622241584968402, 16, 12778336969128337, 16, 11, 0x5a29b749922d303ed5b810, -68⟩,
  ⟨-12702257438590316, 15, 1354983741037948, 15, 12778336969128337, 16, 11, 0x482feb8d0cdba57ecac830, -15⟩,
  ⟨-36539964165936894, 15, 1354983741037948, 15, 12778336969128337, 16, 44, 0xfd4be07173f97fdf7b7fe89c1b72ad3892c1a74470b45f7f742ca8bc92b21ddcb332b8315e9a3912648fa640, -39⟩,
  ⟨-8907411041610837, 14, 1323577695031867, 15, 12778336969128339, 16, 22, 0x8dfff8d99c17c9cac872afa4cb6d3e25e9e3755ce420, -90⟩,
  ⟨1797021923138196, 15, 1323577695031867, 15, 12778336969128339, 16, 33, 0x19602ab872fedac7bcbbc7184335d21db5baf10e316f997f35e583e55e4d1a8507, 3⟩,
  ⟨-30868154889245666, 15, 13195694982601636, 16, 12778336969128337, 16, 11, 0xe9658a3d9384eb5fc0ccdf, -31⟩,
  ⟨-25456625334718886, 15, 13195694982601636, 16, 12778336969128337, 16, 11, 0x8b3b701d9ee8bd66a8da05, -27⟩,
  ⟨4494869685277635, 15, 13148309386073673, 16, 12778336969128337, 16, 22, 0xceeb81b11af0508a4d95fb7286e6b53ab5d599121471, 3⟩,
  ⟨-5731160485166514, 14, 13148309386073673, 16, 12778336969128337, 16, 22, 0x5c562002f1bd44a42026f66372d459c87bccfea22515, -56⟩,
  ⟨11032665476505044, 16, 13107190861258695, 16, 12778336969128337, 16, 66, 0x9e3fde87d6682a1f780fdf8043da0ca036daffef69ca11784786905467f7f7e04b2642bab56ae92aeec3f6cc37ad7f4450e28638acb75a5958a24469449a0568c881, 0⟩,
  ⟨-369751115238205, 13, 13107190861258695, 16, 12778336969128337, 16, 33, 0x302a9ae3b0c74a134d3b99ac26fb31b297a8d843abdce6bb29990be0073dbf947b, -37⟩,
  ⟨-1776040355804198, 14, 13188499366361621, 16, 12778336969128339, 16, 11, 0xf802a414eafde82d66c097, -18⟩,
  ⟨-19011043539254295, 15, 13188499366361621, 16, 12778336969128339, 16, 33, 0x98c93a8caa21aa753a02c2356c03960e4f994af0dc41f4002ebab5f1d969b337ad, -19⟩,
  ⟨-3526593817035738, 14, 13150639571183445, 16, 12778336969128339, 16, 11, 0x7d52c553090da13aba5591, -34⟩,
  ⟨7266419711603845, 15, 13150639571183445, 16, 12778336969128339, 16, 22, 0x1cc21cdea918e5efb9255ecb0160c1bff29ed929fd31, 8⟩,
  ⟨-563453410558231, 13, 13108539043090162, 16, 12778336969128337, 16, 11, 0x668ae912a4b44c3e24f02a, -58⟩,
  ⟨-44494141519865494, 15, 13108539043090162, 16, 12778336969128337, 16, 33, 0x162796d3066282c1928c70026700fd173478f3f9a5db77be4ed3cfdeed54d5db8c, -43⟩,
  ⟨14097182997107824, 15, 13069339843916408, 16, 12778336969128337, 16, 66, 0x6cf94cda658570694309d2289f0247a86a9b976f5ab149d347d59f67d0636815665fc248f685a7f3d5f2c58e8d086cfb19ddbc830bd7c4c3dad74b311c9f9b692d28, 15⟩,
  ⟨-6507066191351186, 14, 13069339843916408, 16, 12778336969128337, 16, 11, 0xc8b85f5caf80a42b659634, -66⟩,
  ⟨-12751781280123279, 15, 13179060226472132, 16, 12778336969128339, 16, 22, 0x2009d2153a9674c09ff2b1c7770767b719b10ba862dd, -13⟩,
  ⟨-23178436730453004, 15, 13179060226472132, 16, 12778336969128339, 16, 22, 0x9165fdb596f9ae39dc32a5bee5cb4ba1151e6882e586, -23⟩,
  ⟨-4613300456886798, 14, 13135317026313966, 16, 12778336969128337, 16, 22, 0x770d9385c68a063c150e9ca840457fda4ba3603357a5, -46⟩,
  ⟨-10186990985129508, 15, 13135317026313966, 16, 12778336969128337, 16, 11, 0x77bd45b7d1e51f681b7e38, -12⟩,
  ⟨-21693459406857066, 15, 13087996341721235, 16, 12778336969128337, 16, 11, 0xdf8737f85b097c4dc3be8e, -22⟩,
  ⟨-5461834380616269, 14, 13087996341721235, 16, 12778336969128337, 16, 11, 0xaac0453fb3fb1aca122230, -55⟩,
  ⟨-3317287921010943, 14, 13042086982565217, 16, 12778336969128337, 16, 11, 0xf6a1844416dbb5e4a3c472, -34⟩,
  ⟨13332152779972574, 15, 13042086982565217, 16, 12778336969128337, 16, 11, 0xb2ff567251ec0c0122362a, 13⟩,
  ⟨-3158003269733925, 15, 13132682662879973, 16, 12778336969128337, 16, 11, 0xceed99e71a4d901ea93be5, -3⟩,
  ⟨-46869449342767616, 15, 13132682662879973, 16, 12778336969128337, 16, 11, 0xccb1061e8ad98730955e53, -47⟩,
  ⟨-10726779762636209, 15, 13091652153335704, 16, 12778336969128337, 16, 11, 0xa6f98bd84256f8bdd02786, -10⟩,
  ⟨-3740892251393603, 14, 13091652153335704, 16, 12778336969128337, 16, 22, 0x37b9a3e340c5c68bf939dcbbe7bcdc4d480ea830c839, -38⟩,
  ⟨-30387234537576795, 15, 1304950271721027, 15, 12778336969128337, 16, 11, 0x9b75ec98b0324ef23bec65, -32⟩,
  ⟨-7026372190447549, 14, 1304950271721027, 15, 12778336969128337, 16, 11, 0xa921accc52da82045b25e8, -70⟩,
  ⟨94113990562128, 13, 13006109338205123, 16, 12778336969128337, 16, 33, 0x51216cec1ed681eb984af761eb747f36092156206adf19bfde8c16413f547fe605, 6⟩,
  ⟨-56992090000350984, 15, 13006109338205123, 16, 12778336969128337, 16, 11, 0x7b0b72b851cc114aafb056, -58⟩]

/-- tests/test_samplerz.cpp:2628-3278. -/
def kats512_4 : List Kat := [
  ⟨2585573418347715, 13, 17185928305436744, 16, 12778336969128337, 16, 11, 0xda84ac65edcf831ad82a09, 258⟩,
  ⟨-6965468285437063, 14, 17185928305436744, 16, 12778336969128337, 16, 22, 0x95e4750952b910fe8ee4c1fd065bf806165d7322b137, -69⟩,
  ⟨8106804035956897, 14, 17128780112384947, 16, 12778336969128337, 16, 11, 0xea642719140a3764c19c89, 81⟩,
  ⟨-12791221030819757, 14, 17128780112384947, 16, 12778336969128337, 16, 11, 0xb4de3fa83edcc6dde9e2a0, -128⟩,
  ⟨5702070051647675, 13, 17073632876971299, 16, 12778336969128337, 16, 11, 0x6530665d31378bf316a15d, 572⟩,
  ⟨-34968752039668055, 14, 17073632876971299, 16, 12778336969128337, 16, 11, 0xbfd87bc13d3ece1f9a3198, -349⟩,
  ⟨6547701297414964, 14, 1702028963593693, 15, 12778336969128337, 16, 11, 0xe300b64d974675480ef7b5, 66⟩,
  ⟨3380993089070585, 13, 1702028963593693, 15, 12778336969128337, 16, 11, 0x8a47e23354907a7b3c093e, 340⟩,
  ⟨11056834626800043, 14, 17138519541992856, 16, 12778336969128337, 16, 11, 0x3b94b23e42359f2d1e4635, 108⟩,
  ⟨-2325180398096598, 13, 17138519541992856, 16, 12778336969128337, 16, 11, 0x161fe55acb9d6d4ab8651a, -229⟩,
  ⟨6308131076531856, 13, 17078401978653723, 16, 12778336969128334, 16, 11, 0x8a3d0d08a6b992b6996596, 632⟩,
  ⟨2268111493232145, 13, 17078401978653723, 16, 12778336969128334, 16, 33, 0x06daed00701127055ccc4044c0eccd290dcd3ee77ea5c4fe9edb9ec3a89585de85, 226⟩,
  ⟨5975144830676753, 13, 17016876118884918, 16, 12778336969128337, 16, 11, 0x337ff538716146e3712503, 600⟩,
  ⟨-2113004398244641, 14, 17016876118884918, 16, 12778336969128337, 16, 11, 0xa295bda5867f3320b89738, -20⟩,
  ⟨43034933765672076, 14, 16960394654702828, 16, 12778336969128337, 16, 11, 0xaa77d2f0b650f87ce64b7e, 431⟩,
  ⟨4593383684479874, 13, 16960394654702828, 16, 12778336969128337, 16, 22, 0x0a3b0b9bbd861c74f3185b8620267204160656412f21, 461⟩,
  ⟨12463949097411424, 14, 17102781417311677, 16, 12778336969128337, 16, 11, 0xc7521646716936d1ec8606, 124⟩,
  ⟨3690955335115288, 14, 17102781417311677, 16, 12778336969128337, 16, 11, 0xd2113644bc4bf2a6e07e42, 36⟩,
  ⟨10137062228314205, 14, 17051638011246466, 16, 12778336969128334, 16, 22, 0xedde63e8f3d0fca49691e7b2aacdcec19876b2ddc285, 101⟩,
  ⟨4408177113122502, 14, 17051638011246466, 16, 12778336969128334, 16, 99, 0x838fe1fd9fd2f18b3901f17ae287adf103bf77df91ba3b5c7e868a79e19d1411ac96752ade471c73611ec7dc1bccb9bdec61580a7059806440df890ad30070bbf7d2729ab72f86054313258bff307a3a074f56bf9e561cfb859ae4206d9da49ba3dc25, 43⟩,
  ⟨1893416977852795, 13, 16997048805813295, 16, 12778336969128337, 16, 22, 0x44398bc80c39159dd71fe0375331a2731e19e8579548, 192⟩,
  ⟨1556954906007113, 13, 16997048805813295, 16, 12778336969128337, 16, 11, 0xc54863fbfb17a6212d9b5a, 156⟩,
  ⟨-1610124751160346, 13, 16948255931920235, 16, 12778336969128337, 16, 44, 0x893fa5a5f2d994bb7954918c1a212c748325c4cb8afe9de33b76056f21f11ca4f6713e12f82e15cde22b7244, -163⟩,
  ⟨4572753924271371, 14, 16948255931920235, 16, 12778336969128337, 16, 22, 0xe399af5f5585dc795b7ae2dcb4a96d2a9f86c332e033, 45⟩,
  ⟨41601250957869513, 14, 17053391911743292, 16, 12778336969128337, 16, 22, 0x6552a80fce0b191b2407a4b1af68e1c4e725719cc718, 417⟩,
  ⟨-22589906753858986, 14, 17053391911743292, 16, 12778336969128337, 16, 55, 0xf73dd18cdfed98415f73eb4a6e50ff874a8ebe63c5d343ebac040f6b38379a5dd7711adb1ae1903562c73988cd920526928386747fc2b0, -226⟩,
  ⟨6327954210965492, 14, 17000061076735309, 16, 12778336969128337, 16, 11, 0xc88ea795e6c1a8a3bc0981, 64⟩,
  ⟨20660765225987862, 14, 17000061076735309, 16, 12778336969128337, 16, 11, 0x0e6a2def296f3011b92357, 210⟩,
  ⟨2924962312659678, 13, 16939014043123584, 16, 12778336969128337, 16, 11, 0x489bdddbd4a2d17450ea6b, 290⟩,
  ⟨9313083655295583, 14, 16939014043123584, 16, 12778336969128337, 16, 11, 0x3ce7f62cfbd2177cae6d07, 96⟩,
  ⟨20988345756332095, 14, 16887717544505993, 16, 12778336969128337, 16, 11, 0xd035da1e4894ffb140c589, 210⟩,
  ⟨5322850299638934, 13, 16887717544505993, 16, 12778336969128337, 16, 11, 0xdb39af5ac87a4b41e39cb1, 532⟩,
  ⟨35676328649614624, 14, 16496291125075906, 16, 12778336969128337, 16, 22, 0x342efb66ba181130c8f8a69c6d9344c6938293a56265, 355⟩,
  ⟨25587109635141675, 14, 16496291125075906, 16, 12778336969128337, 16, 11, 0x1f6c6cf1598fafc4693f65, 259⟩,
  ⟨9096716618288285, 14, 16408610963537176, 16, 12778336969128339, 16, 44, 0x1f7846cbe1b9e65d22f449838dbb6dd516957e0fc4b8e7e7bd4da5db98c2bc76af8c0f6d28bdc245be6d4434, 89⟩,
  ⟨-8342386875424916, 14, 16408610963537176, 16, 12778336969128339, 16, 11, 0x8d26e6630eee9152eb4f70, -82⟩,
  ⟨5249132223322911, 13, 16420075622991452, 16, 12778336969128337, 16, 22, 0xdd54239d4f32cad95e88b8a3d22189e3d2bdae09e154, 526⟩,
  ⟨-1617020882177985, 13, 16420075622991452, 16, 12778336969128337, 16, 33, 0x55900604f0602b52fe01dc34253ac6038da1ea2ddeb6721929ef882b1c30694264, -163⟩,
  ⟨-3354033310727763, 14, 163435941737367, 14, 12778336969128337, 16, 11, 0x96afb03ac6cf98ba927717, -32⟩,
  ⟨50750416966218955, 14, 163435941737367, 14, 12778336969128337, 16, 11, 0x9728811003e03c36bc8a7e, 506⟩,
  ⟨45266499113960174, 14, 16448737610513864, 16, 12778336969128337, 16, 11, 0xe7430388dfe24d789e6f4a, 453⟩,
  ⟨-10109674007261376, 14, 16448737610513864, 16, 12778336969128337, 16, 11, 0x64cb5c2f257e2f65b71f07, -100⟩,
  ⟨8537850197847604, 14, 16359553742788788, 16, 12778336969128337, 16, 11, 0x83d1295477b29aa21c6291, 84⟩,
  ⟨6704100008577952, 14, 16359553742788788, 16, 12778336969128337, 16, 22, 0x7d9d14d6da26089ca79bc2ba38f7871962c762e5346b, 67⟩,
  ⟨3818225348187794, 13, 16364878258033801, 16, 12778336969128337, 16, 11, 0x00fc3172a5d1c6da75010f, 387⟩,
  ⟨-24458165285273805, 14, 16364878258033801, 16, 12778336969128337, 16, 11, 0xec926691f383094c1f3866, -245⟩,
  ⟨2178837035723212, 13, 1628739397694174, 15, 12778336969128337, 16, 11, 0xc31edd4787b1afccbba601, 217⟩,
  ⟨2973432452884128, 13, 1628739397694174, 15, 12778336969128337, 16, 22, 0x22bc2e7b6e2ca19ca14df81a3029e98c60b6dc056a41, 294⟩,
  ⟨4912486060086633, 14, 16386943296876664, 16, 12778336969128337, 16, 11, 0xcfc6e9e3647f1056d5df17, 50⟩,
  ⟨18925164686823632, 14, 16386943296876664, 16, 12778336969128337, 16, 11, 0x79f2592b05f59ffd4f7f11, 191⟩,
  ⟨37854958771280315, 14, 16312366013662807, 16, 12778336969128337, 16, 44, 0xd535959db3ea4e0890eac6041c05de4f45b30bc925f1371e1d2b9686504fa297b13b6f47c20ee92c46317002, 376⟩,
  ⟨12801968120288526, 15, 16312366013662807, 16, 12778336969128337, 16, 11, 0xfa2cdd71ed3fc90d1207a9, 13⟩,
  ⟨3362851398541752, 13, 16324360945683976, 16, 12778336969128337, 16, 11, 0x8373976b8f4d2863cb622e, 335⟩,
  ⟨-44257775920559766, 15, 16324360945683976, 16, 12778336969128337, 16, 22, 0x02972efe728c31c1bcc2fbc0ae9020cf6f25685cf561, -44⟩,
  ⟨-9989752731765999, 14, 16257994654548007, 16, 12778336969128339, 16, 11, 0x7f670617d51bd88134a32a, -98⟩,
  ⟨23139742239065885, 14, 16257994654548007, 16, 12778336969128339, 16, 11, 0x4a388ec06c830067ed2719, 234⟩,
  ⟨42479482028082936, 14, 16343679264520552, 16, 12778336969128337, 16, 22, 0x297a16558813d46502c1ac69d3b4b19f9bcf268ac249, 423⟩,
  ⟨7768666071477105, 14, 16343679264520552, 16, 12778336969128337, 16, 11, 0xb357b3117c50445dffebb2, 78⟩,
  ⟨478998150154925, 12, 16267141786167263, 16, 12778336969128334, 16, 33, 0x6fbb66fc92327f0507bc7b46822879564815af18c0ea212995d03707f16731c33c, 482⟩,
  ⟨20451561435784377, 15, 16267141786167263, 16, 12778336969128334, 16, 11, 0xa6d113291c1131f0550593, 21⟩,
  ⟨2855132354134822, 13, 16274282828213655, 16, 12778336969128337, 16, 11, 0xc0b218af84e63e2e8cc77a, 286⟩,
  ⟨-14766572685874604, 14, 16274282828213655, 16, 12778336969128337, 16, 22, 0x6cecee1f15625e137ab8be8312c7096f1ab8e04508a0, -149⟩,
  ⟨42579010229937836, 14, 1620632901800772, 15, 12778336969128337, 16, 44, 0xf3667295f1d739bc9507e4024ff2cbb524dd7af569d07f928604039d5cd62d05d0b6b44903fae21b6f365b91, 426⟩,
  ⟨2888559172725148, 13, 1620632901800772, 15, 12778336969128337, 16, 11, 0x9900c49b2f7b0967f2bc2b, 287⟩,
  ⟨23073749141101592, 14, 16596013781288932, 16, 12778336969128339, 16, 22, 0x1c7b97d89371456f83d5b47a86bb050a3d50efc85a03, 229⟩,
  ⟨3657473446885929, 14, 16596013781288932, 16, 12778336969128339, 16, 22, 0x747cd1a9f2f3d59d4471e1fc021d5b9b1dac2fa7ab94, 37⟩,
  ⟨5969224455738223, 15, 1654210701605331, 15, 12778336969128337, 16, 11, 0x75ac7401afb7e540274e13, 4⟩,
  ⟨-6429823610136756, 14, 1654210701605331, 15, 12778336969128337, 16, 22, 0xaaedb18a6a4f1c495140d8a12302f3938b8aac1ed234, -66⟩,
  ⟨12578372116297979, 14, 16499770339499376, 16, 12778336969128337, 16, 22, 0x215e53361d89d44dffd9eec95d03340a50b08e9dca45, 125⟩,
  ⟨-18443788710238172, 14, 16499770339499376, 16, 12778336969128337, 16, 22, 0x4cfcaacd829e48cee3dc8dabe0a6916593d4645be331, -184⟩,
  ⟨27032401409988815, 15, 16444058868131604, 16, 12778336969128337, 16, 11, 0x7787682919fac03ca538a0, 26⟩,
  ⟨50282305758123806, 14, 16444058868131604, 16, 12778336969128337, 16, 11, 0x73dbb4b65e17494db81258, 501⟩,
  ⟨11330661169305844, 14, 16559613035266418, 16, 12778336969128334, 16, 22, 0x7aefb6024b39fbeaa53fa292b973206ecee5d02d3f77, 115⟩,
  ⟨4403132354496987, 14, 16559613035266418, 16, 12778336969128334, 16, 22, 0x188a13597d03a53a1e3bffe75c42783a95549d4f6e70, 44⟩,
  ⟨2747999058670792, 13, 16504865366567194, 16, 12778336969128337, 16, 11, 0xb10cb283d44dce8e87eb0b, 275⟩,
  ⟨-18561564499078403, 14, 16504865366567194, 16, 12778336969128337, 16, 11, 0x5b03fa13ade98850c3ea2c, -187⟩,
  ⟨24923780268480704, 14, 16456371221094035, 16, 12778336969128337, 16, 11, 0x9c8c2d80eb6994c1ec4d24, 251⟩,
  ⟨11672728189664366, 14, 16456371221094035, 16, 12778336969128337, 16, 11, 0x35ffc17924698df71dda15, 114⟩,
  ⟨3410335406873541, 13, 16399568951690409, 16, 12778336969128337, 16, 33, 0x89603d3aa7add759cbeefd1b0c095f187fd80ed6ceb380886d5e2af2d28901eb23, 343⟩,
  ⟨6036101215873454, 13, 16399568951690409, 16, 12778336969128337, 16, 44, 0xe4a027c091f8b729f9f7d14e49c968d43b7364d0306b90ba341d167c9308310bc69532097ceed0780ea42572, 605⟩,
  ⟨-3150649241328956, 13, 1649107330499023, 15, 12778336969128337, 16, 11, 0xefb1349084b5cc4d541b33, -315⟩,
  ⟨19646337020866284, 14, 1649107330499023, 15, 12778336969128337, 16, 11, 0xf8656c4a585b18c2d32777, 197⟩,
  ⟨6201026558385988, 13, 16437728544278813, 16, 12778336969128337, 16, 11, 0x9ba57be852a9b9342ed20b, 619⟩,
  ⟨-2008389794963595, 13, 16437728544278813, 16, 12778336969128337, 16, 22, 0xe60a39e91dcc08b08233d5744ba8bfe3a57a4bdbd176, -199⟩,
  ⟨2961329605359905, 13, 16395482897443552, 16, 12778336969128337, 16, 33, 0x74fc728a27c57129a116c4168bb44a34bbfb2bbedd858989584f9f92795e21ae18, 295⟩,
  ⟨21004793368943268, 14, 16395482897443552, 16, 12778336969128337, 16, 11, 0x36650e5518d2e64841691d, 213⟩,
  ⟨-29430370023083047, 15, 1633887634500165, 15, 12778336969128337, 16, 11, 0x188a40b75b1fb6cd3a5f4a, -26⟩,
  ⟨478461250146464, 12, 1633887634500165, 15, 12778336969128337, 16, 11, 0x36668e38d3aa35d24a4d52, 481⟩,
  ⟨19320348371990073, 14, 16457373442679735, 16, 12778336969128334, 16, 33, 0x3a74ec4dbc7b8d96b649e5f43da17ebf52fe8c670db1fae650abd24992e9a35f53, 194⟩,
  ⟨-212787602846108, 12, 16457373442679735, 16, 12778336969128334, 16, 11, 0x487d8a54ea773eec74006f, -215⟩,
  ⟨2526275864020179, 13, 164044698846541, 14, 12778336969128337, 16, 11, 0x796736ea5767d22dabb38a, 254⟩,
  ⟨14762509171018314, 14, 164044698846541, 14, 12778336969128337, 16, 11, 0x18f307a4619948085ba81f, 144⟩,
  ⟨4667966245776612, 13, 16356031779767144, 16, 12778336969128339, 16, 11, 0x48de5de19ffd2d0b6c0188, 469⟩,
  ⟨17722908444674363, 14, 16356031779767144, 16, 12778336969128339, 16, 11, 0xcea06847554ea4e3c9b368, 178⟩,
  ⟨4434087825150309, 13, 1629973881475144, 15, 12778336969128337, 16, 11, 0x32975a3c74f8acb3aa326f, 441⟩,
  ⟨7333486006518997, 13, 1629973881475144, 15, 12778336969128337, 16, 11, 0x539b57709d0b0c69348849, 731⟩,
  ⟨28531572686948647, 14, 15941953235690893, 16, 12778336969128337, 16, 11, 0xad2dc566a2f77870dca727, 286⟩,
  ⟨-12002202731976293, 14, 15941953235690893, 16, 12778336969128337, 16, 44, 0x0c6138e4085e2ec0b8d1f62e971a9082320ff9fbaa58a6dfe6cbf5d879a585b7e98b02de1c9d3a1aa0722e15, -122⟩,
  ⟨15632822456413288, 14, 15837613296796662, 16, 12778336969128337, 16, 11, 0xa8cd64d595976c6471e935, 157⟩,
  ⟨7772762801761474, 15, 15837613296796662, 16, 12778336969128337, 16, 11, 0x7148440ff9cf269068ae58, 6⟩,
  ⟨28166763830621255, 14, 15876442477415027, 16, 12778336969128337, 16, 22, 0x949bd9abccfea3c769a3c7c40896227986b818a6fe14, 281⟩,
  ⟨13326407263046002, 14, 15876442477415027, 16, 12778336969128337, 16, 22, 0x4ab587b8d6e6c0e5e443c9f255c20429d40ee02db478, 133⟩,
  ⟨-48097350987285614, 14, 1578205283434254, 15, 12778336969128337, 16, 11, 0xc931b2996ee784eaeab538, -480⟩,
  ⟨3071844282837033, 14, 1578205283434254, 15, 12778336969128337, 16, 11, 0x3d7fd81c03aa67a2989b0e, 33⟩,
  ⟨3809706892450373, 13, 15900656007865246, 16, 12778336969128337, 16, 11, 0xd8d874b915ed8f0cbecf17, 381⟩,
  ⟨-10570199053775607, 14, 15900656007865246, 16, 12778336969128337, 16, 22, 0xd0ab1b00027f32d73893c4af16973edfc1a1557c814a, -105⟩,
  ⟨20004611108241758, 14, 1579540217344053, 15, 12778336969128337, 16, 22, 0x0df0d4ffcf2205c20dd2b251c8aa7dfb6ab5bfde1c48, 198⟩,
  ⟨-9210236401010285, 14, 1579540217344053, 15, 12778336969128337, 16, 33, 0xa430b8be0df28c423246ee89e178b2e4f288280f35cb40a3b3ac18cd172f392d44, -90⟩,
  ⟨12955159906861508, 14, 1582792795817685, 15, 12778336969128337, 16, 11, 0xaafbbb650c044b5a3d115c, 130⟩,
  ⟨7039312588757296, 14, 1582792795817685, 15, 12778336969128337, 16, 22, 0xd4fac323f62e00832e8cebe4678ec0aab2ab6f49cb82, 71⟩,
  ⟨2454968660301978, 13, 15733249932096902, 16, 12778336969128337, 16, 22, 0x89b7c4026e3e39da0cbeaea3f837a637d846ca78ab40, 246⟩,
  ⟨10868962512151691, 14, 15733249932096902, 16, 12778336969128337, 16, 11, 0xe640343eefd5d4a495018a, 109⟩,
  ⟨45517989146435234, 15, 15841087831044176, 16, 12778336969128337, 16, 11, 0xf038d384d7c65d226f6a01, 45⟩,
  ⟨-8798728515543539, 14, 15841087831044176, 16, 12778336969128337, 16, 22, 0xe02031d6d17d10780771eea8afc09ea6f5189b018f6f, -87⟩,
  ⟨2387901372252069, 13, 15747759258989025, 16, 12778336969128334, 16, 11, 0xfa7a7790f6d9c41d4c1288, 238⟩,
  ⟨12796896155831391, 14, 15747759258989025, 16, 12778336969128334, 16, 22, 0x7e1e8a8d8f2ff0747db5fd63b9559c7260a59337d37a, 129⟩,
  ⟨6166352663681948, 13, 15784161582684122, 16, 12778336969128337, 16, 11, 0xa2ac44ff7938e9129c3b2f, 618⟩,
  ⟨9869851585602447, 14, 15784161582684122, 16, 12778336969128337, 16, 11, 0xfe43b4f11fd9c11011cdba, 99⟩,
  ⟨16008863392678185, 14, 15697763465081758, 16, 12778336969128337, 16, 11, 0xc0fb20538214064274917f, 161⟩,
  ⟨26510382548116894, 14, 15697763465081758, 16, 12778336969128337, 16, 77, 0x893d34bf953b971c1b4fda48b705df126bbe4b3731625128876d44cb6ea1ae189dceb491fb6a6e438be5afc07b9d9ce36e9e379b8713cbd89fd8c318dcb503e886dce05654e68a149f45424026, 265⟩,
  ⟨6545844019682118, 13, 15805304194080207, 16, 12778336969128337, 16, 33, 0x74351e936feda97d38e1e4bb6f358ef6dc409f0211dc2e7fc42307bde06273f541, 657⟩,
  ⟨12548740447582946, 14, 15805304194080207, 16, 12778336969128337, 16, 11, 0xeb6cfb235f55d454335d05, 126⟩,
  ⟨17264939499054574, 14, 15711721283062718, 16, 12778336969128337, 16, 22, 0x226cd8455ab84bb272f3b2e28c6ccc0da7fceef7d911, 173⟩,
  ⟨-24451116556406754, 14, 15711721283062718, 16, 12778336969128337, 16, 22, 0xc51a00dabc6015d3f0aeefb5a23da4ebfcc6bf6ffe48, -245⟩,
  ⟨42935126777514574, 14, 1574231154924375, 15, 12778336969128337, 16, 11, 0x1e69843c22aa5e6d60a127, 433⟩,
  ⟨16009964722876262, 14, 1574231154924375, 15, 12778336969128337, 16, 11, 0xe4ec7a416aad8ed8f46cc9, 160⟩,
  ⟨26490742540957246, 15, 15656099276621471, 16, 12778336969128334, 16, 11, 0x77137da02e9455eb59c258, 25⟩,
  ⟨15774046644474183, 14, 15656099276621471, 16, 12778336969128334, 16, 33, 0x2d96f4665e2b9f7dd2c3c3694028ae4db91a8b311ffc274934e5cb4cb82acbe50c, 160⟩]

/-- tests/test_samplerz.cpp:3279-3934. -/
def kats512_5 : List Kat := [
  ⟨1984536473450531, 13, 15956872853309378, 16, 12778336969128337, 16, 22, 0x36d367fcd2dcc3ed6ef19c6026361d5cf7bdea2f585d, 197⟩,
  ⟨-1609042817276809, 13, 15956872853309378, 16, 12778336969128337, 16, 11, 0x7b5866ee5c340c9a54fcbb, -162⟩,
  ⟨2766714395358625, 13, 1593024562175705, 15, 12778336969128337, 16, 11, 0xcd88cb8db26fb9b2826916, 277⟩,
  ⟨-15946101647783905, 14, 1593024562175705, 15, 12778336969128337, 16, 11, 0xe05e18b5c39f493c372524, -159⟩,
  ⟨5034432013963373, 13, 15858127700224818, 16, 12778336969128339, 16, 33, 0x3348b5d4209c53937ebedf8ad9a85c15c045ddecabd49c7a37f0f503336975d611, 502⟩,
  ⟨930627025470232, 13, 15858127700224818, 16, 12778336969128339, 16, 22, 0x169cbd62d07748a03218d892f01215492c957ada667a, 92⟩,
  ⟨28208553658562363, 14, 15829367161867407, 16, 12778336969128337, 16, 11, 0xfa661695784b907689473b, 283⟩,
  ⟨16014349728443995, 14, 15829367161867407, 16, 12778336969128337, 16, 22, 0x22721f1fb607c2a8f337c1474abe64ae3ef7dfe2b087, 158⟩,
  ⟨49682368873041366, 14, 15904146775880563, 16, 12778336969128339, 16, 44, 0x097783a02f0974569acfcfc6be7c7e8e658d4cc5e6da95ebdbca7221ac1ef5c8caabd192c0199eeca1af3277, 496⟩,
  ⟨30255653447699933, 14, 15904146775880563, 16, 12778336969128339, 16, 11, 0x31f9c5e928d99e6e4ba733, 305⟩,
  ⟨21076011257343444, 14, 15873745345215224, 16, 12778336969128337, 16, 22, 0x2bbe7c6168b6b73711dfaad5886a9ff7b41742bbe648, 210⟩,
  ⟨19246562641501575, 14, 15873745345215224, 16, 12778336969128337, 16, 11, 0x972fbd72f772997a5e506a, 191⟩,
  ⟨1411884564326073, 13, 1579512503197365, 15, 12778336969128337, 16, 11, 0xd9e2373dbf510395252e50, 141⟩,
  ⟨4191150637791375, 13, 1579512503197365, 15, 12778336969128337, 16, 11, 0xff59f55f06730c06e06c35, 419⟩,
  ⟨4101037559676463, 13, 15761638716944495, 16, 12778336969128337, 16, 11, 0xbb4fc40f71253a4cf5670a, 411⟩,
  ⟨4869372768725126, 13, 15761638716944495, 16, 12778336969128337, 16, 11, 0xf6f9c5baaef8f74730d7b0, 487⟩,
  ⟨24278132776637784, 14, 158598028739083, 14, 12778336969128337, 16, 11, 0x256a62e149159c3a09b505, 245⟩,
  ⟨-1126381439478294, 13, 158598028739083, 14, 12778336969128337, 16, 33, 0xbe362712471290addb2afa94131ff6892769b1b87fc6eec4794eccf8f807f1bcb9, -113⟩,
  ⟨6864473614828954, 14, 15835434241011863, 16, 12778336969128337, 16, 11, 0x805581141d5fc41a401759, 70⟩,
  ⟨-26693231371953925, 14, 15835434241011863, 16, 12778336969128337, 16, 22, 0x2cb0a3abc33ed45c5cc15b6dbb6d03a320692f754d6e, -265⟩,
  ⟨6441495342777619, 13, 1577340399431932, 15, 12778336969128337, 16, 33, 0xd2a31cae65a9f25112fad9275a87fe41564cf358d7bf92d67cabf2ed1626329f24, 646⟩,
  ⟨4656181837860988, 13, 1577340399431932, 15, 12778336969128337, 16, 22, 0xb7f3be0e147b150e2c1ad0ff3be86f37a2b989f0b52d, 466⟩,
  ⟨18862113765289178, 14, 15746889218512288, 16, 12778336969128337, 16, 11, 0x8ba6c276d2e02465b4f835, 187⟩,
  ⟨44176240907908436, 14, 15746889218512288, 16, 12778336969128337, 16, 11, 0x533565ca8dddb9a7c9335c, 444⟩,
  ⟨1569495558474985, 13, 15811850852506912, 16, 12778336969128337, 16, 22, 0x6d50c8b60363957e887ebdad089a19403c004ae10db8, 157⟩,
  ⟨-745431496057181, 13, 15811850852506912, 16, 12778336969128337, 16, 11, 0x4bc2873477366ea8966836, -77⟩,
  ⟨11844391499038065, 14, 15784304201344341, 16, 12778336969128337, 16, 33, 0x15f70ce8515807fa227db866d02be4d60d70811b71f9e4179468a28b2e6d15a427, 118⟩,
  ⟨-9227533305537933, 14, 15784304201344341, 16, 12778336969128337, 16, 22, 0xc6ed770b8c70321e2e77ef6b99e7c0c62efc1bd44419, -94⟩,
  ⟨12180238307984078, 14, 1571535878076773, 15, 12778336969128337, 16, 44, 0x4a15c9b323452f454902771b6fd16e320ece92eb0fe8511af742f352c297962a8cadf9a95bfa54c36d347427, 121⟩,
  ⟨-134662303004544, 12, 1571535878076773, 15, 12778336969128337, 16, 11, 0xd7fa000363ada8b1883cc9, -135⟩,
  ⟨34360581804302336, 14, 15684757047526448, 16, 12778336969128339, 16, 11, 0xb622a166793deb482b8e3f, 343⟩,
  ⟨14272476271333431, 14, 15684757047526448, 16, 12778336969128339, 16, 11, 0xd88dcbba61d2874476763c, 142⟩,
  ⟨-5527353758748702, 14, 15407522033926144, 16, 12778336969128337, 16, 33, 0x7ad740f4cbd1f70e7e309852921ec43d12f407ce74ba1bdc6daa4d4698b7b32d1a, -52⟩,
  ⟨-9140607902026838, 14, 15407522033926144, 16, 12778336969128337, 16, 33, 0x51dcf1da72449756a2386088b5479806fc4feaf621a9db4d6a62f33ad0d46db2b0, -92⟩,
  ⟨35107271904211836, 14, 15354980152503659, 16, 12778336969128337, 16, 77, 0x59eb029d97a981f3bd03a9ce3552d3a81ecf68061ae40bbf72e6816caece25d9780450a5017b1338ce2e2a7202084f9b21bbf225f072a3ea90496d8ac130a8034cf73da48f8c218b01a72f5a09, 349⟩,
  ⟨9518217073452924, 14, 15354980152503659, 16, 12778336969128337, 16, 44, 0x54903f25e569132166d8ed2f48964237ab3351d35ffe47a2b1a5314ec2d7cdd7b25c3ac53719388a54e84a0a, 94⟩,
  ⟨4133592751121907, 13, 15368564892860683, 16, 12778336969128337, 16, 44, 0x1fdb1199dd51de6a4b8e6e1d7a4c13dd3be5d6a03f671c0283dc9f801b8fe517f8d71ccee9c0c607f556fa9e, 413⟩,
  ⟨-17951860980841155, 14, 15368564892860683, 16, 12778336969128337, 16, 22, 0xd12fdce92c5ab9c3512de7d66a24441554408e120553, -179⟩,
  ⟨1650687612792768, 13, 15319476463812485, 16, 12778336969128337, 16, 22, 0x6876373b4c51d88fc049ea4af1512827f51140265282, 163⟩,
  ⟨35641945302469867, 14, 15319476463812485, 16, 12778336969128337, 16, 55, 0x3e08ad0462fdcac2380b74505d48234c37304f4da08ac3e76ae5f63e79c1c59ee09516466ac17d237e18c0e4e78aa8b6f2e7119831631b, 357⟩,
  ⟨-1346987244059464, 13, 15357459712398451, 16, 12778336969128337, 16, 11, 0x67ab0dd650472ae53d4c53, -136⟩,
  ⟨-19627790993545614, 14, 15357459712398451, 16, 12778336969128337, 16, 33, 0x520ebfed11dd05d1520eee4ef7da5f320f96b68da2965b7442e55da8f9bb7d0d95, -195⟩,
  ⟨5748573352937491, 13, 15301438105164866, 16, 12778336969128337, 16, 11, 0xa84b9ae75ef2f73dd15611, 574⟩,
  ⟨459166086044002, 12, 15301438105164866, 16, 12778336969128337, 16, 11, 0x7ab6061f5be3015c7fea39, 458⟩,
  ⟨441447027959823, 12, 15313619755463985, 16, 12778336969128337, 16, 22, 0xca926e65e05b093fb26dd867ae46de2d631531ecf560, 443⟩,
  ⟨-8334061196624512, 14, 15313619755463985, 16, 12778336969128337, 16, 11, 0xa36f6479275f23ebb8af0b, -82⟩,
  ⟨-1595192842147002, 13, 15260917913009404, 16, 12778336969128337, 16, 11, 0xb3b4cab00d9b96ef15ee08, -160⟩,
  ⟨21965683563643734, 14, 15260917913009404, 16, 12778336969128337, 16, 33, 0x53eda2a314b4c77891c47e8bd1c3d39e70dd5c188cbb71d34ba238013c670f391b, 221⟩,
  ⟨-5801676699606335, 14, 15350044860330985, 16, 12778336969128337, 16, 11, 0x32cdd2cbcd6f2cc1d56786, -56⟩,
  ⟨-13038380553445464, 14, 15350044860330985, 16, 12778336969128337, 16, 11, 0xac4ac98564aaeae253f99a, -130⟩,
  ⟨5676533057325958, 13, 15303892327135338, 16, 12778336969128337, 16, 22, 0x0066365e3dcc10f05a54eee1115965b71625fc6a4e26, 567⟩,
  ⟨3473096861660251, 13, 15303892327135338, 16, 12778336969128337, 16, 11, 0xe6538d4014032669b67b4c, 348⟩,
  ⟨4885553214998506, 13, 1531479161570037, 15, 12778336969128337, 16, 11, 0x99eda32a2352c9ae7c4b08, 490⟩,
  ⟨-7493048019720598, 14, 1531479161570037, 15, 12778336969128337, 16, 44, 0xdfd53dc4301be31d592bf1b97accbf4260a053fc14e3b17973f4169a6f98e72bc9e4aabee2b8f7853ca5a230, -75⟩,
  ⟨21858084123224424, 14, 15271343635871213, 16, 12778336969128337, 16, 33, 0x13042f753a954b1c9d38563c85415c34bb3be3e2e3a34788b02b36c8efe912e652, 216⟩,
  ⟨34695079225049653, 14, 15271343635871213, 16, 12778336969128337, 16, 11, 0x6fe70ed89d05cce6d7f983, 348⟩,
  ⟨7135631542539471, 14, 1530463288133751, 15, 12778336969128337, 16, 11, 0x3048e038be3634f5c95b01, 74⟩,
  ⟨-2615757141879323, 13, 1530463288133751, 15, 12778336969128337, 16, 55, 0x5a9da09bb7113dd7969af388e7b41c790ef8110077c106e3299010c9e70cd51551b267d28f8cb0fdcba7bce72b60061e4dffbae6586e4c, -264⟩,
  ⟨11052595022205898, 14, 1525481857709696, 15, 12778336969128337, 16, 11, 0x7374d85570d8aa7226f832, 109⟩,
  ⟨5946507406492369, 13, 1525481857709696, 15, 12778336969128337, 16, 11, 0x8e1b5c5640c3a920c6e395, 596⟩,
  ⟨2570075280663512, 13, 1526461075858705, 15, 12778336969128337, 16, 44, 0xf2c7b46bf42ab7384848f3c22b1571897529cf44f1c4d54a68a9ee3cccee8f12e02a4a36c421602f88917e01, 255⟩,
  ⟨-2704419731740995, 13, 1526461075858705, 15, 12778336969128337, 16, 11, 0x6b54dd5147918d4ca7fd0d, -269⟩,
  ⟨1600085871373056, 13, 15217382221933926, 16, 12778336969128337, 16, 22, 0x0c28649615732bf1e37689359500455f944889ebfc08, 158⟩,
  ⟨4910968768319236, 14, 15217382221933926, 16, 12778336969128337, 16, 11, 0x6e73f81aab8c250383b659, 48⟩,
  ⟨302321498228249, 12, 15523526523619782, 16, 12778336969128337, 16, 11, 0x776753940af61d52085e9c, 301⟩,
  ⟨784098262929679, 13, 15523526523619782, 16, 12778336969128337, 16, 11, 0x60c2a348f3d4f015628c2e, 77⟩,
  ⟨29983339276233716, 14, 15500297478645466, 16, 12778336969128337, 16, 11, 0xfe65f2b4d147cb6afa9533, 300⟩,
  ⟨-11175498518250998, 14, 15500297478645466, 16, 12778336969128337, 16, 22, 0x8832baa7267670135962f717c01b882cc2e2596fd602, -115⟩,
  ⟨31919991398578907, 14, 1540898525398077, 15, 12778336969128337, 16, 11, 0x8037c3e41b6c380c9f228d, 318⟩,
  ⟨-13070764113533437, 14, 1540898525398077, 15, 12778336969128337, 16, 22, 0x5119502ea74abb212c63dc6fa438eeb7893119ce3777, -129⟩,
  ⟨28017348250773637, 14, 15379669486458312, 16, 12778336969128337, 16, 55, 0x705e1296b49909dc8fe382203c4ae05d9ef86afba0bc78aa55b34e1b09e111159e85876adcbc21cb617df3cf94bf0197d53e93afb33a91, 279⟩,
  ⟨19683432266562815, 14, 15379669486458312, 16, 12778336969128337, 16, 22, 0x4bb638acd47f08c958f7c6943abe3289c888e6a55d82, 198⟩,
  ⟨2878187981002326, 13, 1548067352975, 12, 12778336969128337, 16, 11, 0xf52f0380ec1ad458a92454, 287⟩,
  ⟨28899780183268285, 14, 1548067352975, 12, 12778336969128337, 16, 11, 0x126b283d0e7bac9a0c070a, 292⟩,
  ⟨3276447054775155, 13, 1545575456787429, 15, 12778336969128337, 16, 11, 0xb447d1a3ab810d5b37ef92, 328⟩,
  ⟨5523738268892637, 13, 1545575456787429, 15, 12778336969128337, 16, 11, 0x4c54a1dbb26528f1f2104d, 550⟩,
  ⟨4361794442249966, 13, 1535816784730662, 15, 12778336969128337, 16, 77, 0x18dc7ac666607b95fe8d6004d2599b765430941f0caa5f6bb59c477d23d2e6ebb230c0cfb33f806c5f9e57d8c156b1662716d3586d02e648564617f520f269f92de1a85360d4c9862b025023b4, 437⟩,
  ⟨52875032742519664, 15, 1535816784730662, 15, 12778336969128337, 16, 11, 0x6111805b5ce40e45ee196b, 54⟩,
  ⟨25250191940129613, 14, 15326584712768203, 16, 12778336969128337, 16, 22, 0x6f74448b32ed84fa1934d038a097ad942362af14f166, 255⟩,
  ⟨11360122470286584, 14, 15326584712768203, 16, 12778336969128337, 16, 11, 0xc04e612266e66e90ceb730, 114⟩,
  ⟨12019197729301419, 14, 1544446872413506, 15, 12778336969128337, 16, 11, 0xf6fce0e5e19ac1c75dbd25, 121⟩,
  ⟨755399831904299, 13, 1544446872413506, 15, 12778336969128337, 16, 11, 0xf262cd6f4ec7d2e9b22256, 75⟩,
  ⟨3670224173686853, 13, 15420999576093657, 16, 12778336969128337, 16, 22, 0xae6fb2142ecf17f03185dc710f90595a20b5795a8a27, 366⟩,
  ⟨2294713615240031, 13, 15420999576093657, 16, 12778336969128337, 16, 11, 0x92485c9af892c732c7123a, 228⟩,
  ⟨3366966805604025, 13, 1533815388841372, 15, 12778336969128334, 16, 11, 0x6af49c567ad48441827c12, 335⟩,
  ⟨-19157071184875235, 15, 1533815388841372, 15, 12778336969128334, 16, 11, 0x6d26e8a7139586341c4249, -21⟩,
  ⟨-4910762393900271, 14, 15308684041570246, 16, 12778336969128337, 16, 11, 0xe5b98b115936d3f29ce473, -50⟩,
  ⟨4015228956857085, 13, 15308684041570246, 16, 12778336969128337, 16, 22, 0x3bb837110f3a4014559d8cfc5898825b7dfc54734453, 401⟩,
  ⟨-5599990751509978, 15, 15406652291099217, 16, 12778336969128337, 16, 22, 0x089e0caabc82cb4cfba16eff3cd06c9fa92683a5e116, -5⟩,
  ⟨-32120754296368784, 14, 15406652291099217, 16, 12778336969128337, 16, 22, 0x24dedd14ce81f355cbe4d87bdc62a41a8f53c2064b43, -320⟩,
  ⟨-8419232059917262, 14, 15382040936944137, 16, 12778336969128337, 16, 11, 0xf355342202bad556626a37, -85⟩,
  ⟨18475267647040508, 14, 15382040936944137, 16, 12778336969128337, 16, 11, 0xa7234520a918405aff6253, 184⟩,
  ⟨43877009283426526, 14, 15292478396341953, 16, 12778336969128337, 16, 11, 0x773523430fe9542392f566, 440⟩,
  ⟨-320889035244139, 12, 15292478396341953, 16, 12778336969128337, 16, 22, 0x20c70615b761b8df9b48db77984772d6af4fc8144327, -319⟩,
  ⟨6349615840878547, 14, 15261361306617602, 16, 12778336969128337, 16, 55, 0x8613f16a3a928dbc4762b40097d944005780f51a0a97c14f3eef25e623528fa8f221cd8f18dcefccf2d678ab207b41be3a58c9b7bd6c3b, 60⟩,
  ⟨11783162530564715, 14, 15261361306617602, 16, 12778336969128337, 16, 11, 0x37f7c42963dab93e50a20c, 115⟩,
  ⟨5521584232751432, 13, 1501891463788342, 15, 12778336969128337, 16, 11, 0x29b4c7e0f07596162a4340, 555⟩,
  ⟨-5176208908796872, 14, 1501891463788342, 15, 12778336969128337, 16, 22, 0x2ed30a61f5a0696d7b119386b83074c3eff8d4b18aa7, -53⟩,
  ⟨48442059434859493, 14, 1495805096349764, 15, 12778336969128337, 16, 11, 0xf6c87ed69faa56a358db3a, 485⟩,
  ⟨15262228429142792, 14, 1495805096349764, 15, 12778336969128337, 16, 22, 0x38d5b5b238ae82ef2510988c2105db74b6014257874e, 154⟩,
  ⟨3011695549410552, 13, 14972087005708958, 16, 12778336969128337, 16, 11, 0xd31f0cfb59f54b108aadb3, 302⟩,
  ⟨2397154656997838, 13, 14972087005708958, 16, 12778336969128337, 16, 11, 0x912b36cc500ddf3ee01733, 241⟩,
  ⟨-16910871128100855, 15, 1491382189631804, 15, 12778336969128337, 16, 11, 0x7306978f5a8d08a560514c, -15⟩,
  ⟨-5804379649081592, 14, 1491382189631804, 15, 12778336969128337, 16, 11, 0x5993f41d169cb0651b0a2d, -60⟩,
  ⟨24584649775220092, 14, 14978433890626153, 16, 12778336969128334, 16, 22, 0xb52c13363a285f2e4110e7b905298cac70b708269a36, 245⟩,
  ⟨-3284175421158351, 13, 14978433890626153, 16, 12778336969128334, 16, 11, 0xeec066ea4cc1d531632554, -328⟩,
  ⟨24521556019148284, 14, 14915936194476502, 16, 12778336969128337, 16, 11, 0x67e9b87e1315ac7d537d6b, 247⟩,
  ⟨5993463307368145, 14, 14915936194476502, 16, 12778336969128337, 16, 33, 0x270e5bda430e04226e65ed8d701b6502336aeacfe7d7b9029b06f7b0c8b44c4a6a, 59⟩,
  ⟨22168471348623314, 14, 14926326401960162, 16, 12778336969128337, 16, 33, 0x11359376561d7853f4e96a5e6f84a7f962977b3ddadf507036473a08c4d4f1f543, 224⟩,
  ⟨12143443614817757, 14, 14926326401960162, 16, 12778336969128337, 16, 11, 0x92364f92c5fcc34e911d04, 123⟩,
  ⟨4328500862922156, 13, 148663575651481, 14, 12778336969128337, 16, 11, 0xf725b81d00c1772efb1f48, 433⟩,
  ⟨31519665933370356, 14, 148663575651481, 14, 12778336969128337, 16, 22, 0x5c577f830976d60336a99aa45a92d0e55baedb8154a1, 315⟩,
  ⟨3825348470957458, 13, 14967031988852881, 16, 12778336969128334, 16, 44, 0x2a901556d60393487e419603d04beea83ee56a266ae5e1ee61fec16dec364d3ff3ed7f1e75a5fab63b8b7656, 382⟩,
  ⟨22494158733098473, 14, 14967031988852881, 16, 12778336969128334, 16, 22, 0xbb8a6745799fbdd92c7acaaccf3be7335c0dbc648d11, 225⟩,
  ⟨1790950891357847, 13, 14910982820911995, 16, 12778336969128337, 16, 22, 0x06d66242d8ea411e66016d1316def683d2b7bab61220, 176⟩,
  ⟨3152760283582698, 13, 14910982820911995, 16, 12778336969128337, 16, 11, 0xabe6926d6f0b34db93185f, 315⟩,
  ⟨22677273487823842, 14, 14922340975817339, 16, 12778336969128337, 16, 11, 0xc7fd40cf806103ab8f9f4c, 227⟩,
  ⟨14402339019209566, 14, 14922340975817339, 16, 12778336969128337, 16, 22, 0x4fca3c61294b70b1cd05e4949cd5818c9b443784db2f, 146⟩,
  ⟨7090951310917679, 14, 14868106972559303, 16, 12778336969128339, 16, 22, 0x32da261b100921cc2a38a5ca9fd7748d7943014b0b8c, 71⟩,
  ⟨17761790286520215, 14, 14868106972559303, 16, 12778336969128339, 16, 11, 0xff7f4179d44b131bcad39a, 178⟩,
  ⟨-4143489062717459, 14, 14930734162992305, 16, 12778336969128337, 16, 33, 0x11d8ccb535b1d56626348b00a2b1c241b0c28b1b521e7192a21662c9937c424390, -40⟩,
  ⟨-7973439558235631, 14, 14930734162992305, 16, 12778336969128337, 16, 22, 0x6b751dfe1e8534fda7f3988eb511e4edef873bd0db1f, -78⟩,
  ⟨-21915150900477954, 14, 1487303579491656, 15, 12778336969128339, 16, 33, 0x78c9352daaa97d686276a8c29b6a4df446f0667beefb88a3c7a0debe36c837fb59, -218⟩,
  ⟨36924781715477565, 15, 1487303579491656, 15, 12778336969128339, 16, 22, 0x318faec37ab1f2cc279aa4f314b72e02c3046b1c5322, 37⟩,
  ⟨-28952835302342027, 15, 1488109974834471, 15, 12778336969128337, 16, 55, 0x2ed7529b1563f31f52fcc38adbd38276e9ab271a23861cfb2c47bee88d41d2d088526049548283224d47c5600ee148604e61a5e5754a21, -32⟩,
  ⟨-14198500206329232, 15, 1488109974834471, 15, 12778336969128337, 16, 11, 0x8be19838ded066e0640a79, -16⟩,
  ⟨33420118096494315, 14, 14825157159201028, 16, 12778336969128337, 16, 11, 0xce5b129b644fde6caae511, 335⟩,
  ⟨2817973864640248, 13, 14825157159201028, 16, 12778336969128337, 16, 11, 0x87d100a16821ba0df4d00a, 280⟩]

/-- tests/test_samplerz.cpp:3935-4584. -/
def kats512_6 : List Kat := [
  ⟨4617605155562361, 13, 14498084602512353, 16, 12778336969128337, 16, 11, 0x70d1becd27c6eb183c8b77, 463⟩,
  ⟨-14787660609782301, 14, 14498084602512353, 16, 12778336969128337, 16, 77, 0x3d4e05278a07ae8baf014f12fbbd6f8c163ca2460cf32fed7e6f699148515855ace6ce15967d78698863abe9184e1ef95b9654041db564c0fed2889c50b2f8dcb4fdc1d1af38b97df329ec341e, -148⟩,
  ⟨1612251309934228, 13, 14497594439606374, 16, 12778336969128337, 16, 22, 0x1b48f6b0ad5969554462b9b8cf2e575797cb0682474a, 162⟩,
  ⟨-14846493372811162, 14, 14497594439606374, 16, 12778336969128337, 16, 11, 0xe9edb1490bf8eb80b38788, -148⟩,
  ⟨3207369311039426, 13, 14446136016169133, 16, 12778336969128337, 16, 11, 0x8356e6cf29860dc1f55744, 322⟩,
  ⟨349361527856002, 13, 14446136016169133, 16, 12778336969128337, 16, 11, 0xa8fc4b62cf77b5475eab52, 35⟩,
  ⟨2510289539410108, 13, 14446113502215565, 16, 12778336969128337, 16, 22, 0x0754d5b9a281502d842279e31ff547d0db405aa06298, 251⟩,
  ⟨10416584356251299, 14, 14446113502215565, 16, 12778336969128337, 16, 11, 0x6ed269f607bc10497ca82b, 103⟩,
  ⟨202025194256258, 12, 14472813295269769, 16, 12778336969128337, 16, 11, 0x571f545ebb6769b7b72a31, 201⟩,
  ⟨24175954458006171, 14, 14472813295269769, 16, 12778336969128337, 16, 11, 0xa66ac46bc8e98ae4e57421, 241⟩,
  ⟨4975560444912667, 13, 1447240830809332, 15, 12778336969128337, 16, 22, 0x2bb3ba964abadc6034007aefc635128ce1dadd932034, 497⟩,
  ⟨-1557345976333768, 13, 1447240830809332, 15, 12778336969128337, 16, 11, 0xe30cf11ce0e605eb8622bd, -156⟩,
  ⟨4305598355564954, 13, 14422723010901197, 16, 12778336969128337, 16, 33, 0xc4b8c4a2608585468ccdfadf3a9f0cd684dd750e4cdea8cd6de4c922162a3b1e7e, 430⟩,
  ⟨-2301788039851253, 13, 14422723010901197, 16, 12778336969128337, 16, 11, 0x54fbe11cbc3f9beb979858, -232⟩,
  ⟨12794366738072458, 14, 14422710114670487, 16, 12778336969128337, 16, 88, 0x7f246c02985857aec0da77448b9b6d0f5458fea9e84331626574e7f318a10cd8381f38c515b63735f71eb1b848b75a483755131b9c6d9b201ee4c921ed98508a201a846ce7548aef1b9dd76e986df4061d21ec2184aa9128, 129⟩,
  ⟨2341723962945972, 13, 14422710114670487, 16, 12778336969128337, 16, 11, 0x3e8dcdab6b2d55bba1362c, 232⟩,
  ⟨2242431599727307, 13, 1436721103640884, 15, 12778336969128337, 16, 55, 0x3e5b1f6a53cf021ee081ed053ae3267d3f2d4d3cc6c331946f461e12208058f69421aee861b29c55c775b7de635cb288171bf878555369, 226⟩,
  ⟨6001501664736478, 13, 1436721103640884, 15, 12778336969128337, 16, 55, 0x79f93adc2e5dfc481076ed95e5d0300d54d198ff66c8496d7f3e2a0f574809e3f60ad7026b4574e4842f23bbfcb79254be639228bba5b2, 601⟩,
  ⟨819319286745383, 13, 14367110868525477, 16, 12778336969128334, 16, 11, 0xf85fa3992361455551a24f, 81⟩,
  ⟨-7988447396610789, 14, 14367110868525477, 16, 12778336969128334, 16, 44, 0x92a406dfe3f421ed900fee4f546b5ce98a3918aa6f769b0b11df6e44f809d446d9fe9bf8a1c932d4924c2d4b, -79⟩,
  ⟨3771612306578182, 13, 14319932067585075, 16, 12778336969128337, 16, 22, 0x240941acb68d05a59d796b5584760d2cee03d57a74a3, 376⟩,
  ⟨13018219391374032, 14, 14319932067585075, 16, 12778336969128337, 16, 11, 0x86da3f0eb237d5771bbd08, 132⟩,
  ⟨3411544261979151, 13, 1431990763407633, 15, 12778336969128337, 16, 33, 0x46dabb4e78c42b1425cf956324aed808508223ae3bd2d19f99d17a2e1ef9b678e0, 341⟩,
  ⟨16198691743815672, 14, 1431990763407633, 15, 12778336969128337, 16, 33, 0x499d9de7f7b0a20dfcea65496c77d0df4c4590bfaed0c588aca80e7f239a00c679, 161⟩,
  ⟨22877954367476647, 14, 14346599903496136, 16, 12778336969128337, 16, 11, 0xbebfb470412f445cc5df8e, 229⟩,
  ⟨6431430783727458, 14, 14346599903496136, 16, 12778336969128337, 16, 11, 0x92541bc9471eb83a55b249, 63⟩,
  ⟨3288779396037517, 13, 1434651953746752, 15, 12778336969128337, 16, 11, 0xaa280d6ca756b63f96bcad, 328⟩,
  ⟨-52848906124840894, 15, 1434651953746752, 15, 12778336969128337, 16, 22, 0x0ee25a92fb810139a935cffa81a1ebaef5825f473e52, -53⟩,
  ⟨24783247438780717, 14, 14300764391754635, 16, 12778336969128337, 16, 11, 0x9689e3dee29fe6cf7039b8, 249⟩,
  ⟨-10814714130140331, 15, 14300764391754635, 16, 12778336969128337, 16, 33, 0x14abd5d42f7587471878811b19662c63537712ace98429a39b7023d377856b863f, -13⟩,
  ⟨46908078818134817, 14, 14300737583170748, 16, 12778336969128337, 16, 11, 0x7440ebabce65dd2c384f3b, 471⟩,
  ⟨371090323160876, 12, 14300737583170748, 16, 12778336969128337, 16, 11, 0xcd0530dd5cb7f290555456, 371⟩,
  ⟨2086674824993144, 14, 1411389764579748, 15, 12778336969128337, 16, 11, 0x35c45663aac07876ecb57c, 23⟩,
  ⟨6999826089031342, 14, 1411389764579748, 15, 12778336969128337, 16, 22, 0x10aa16d0b8069c74e53241a2127c4b8c2f52da4deb47, 71⟩,
  ⟨4401108099889726, 13, 1410308939930931, 15, 12778336969128337, 16, 11, 0x85ba46d4b7b258d99df15e, 442⟩,
  ⟨-644181690434404, 13, 1410308939930931, 15, 12778336969128337, 16, 11, 0x9f35c942a5da64223b9b43, -63⟩,
  ⟨7721789884738685, 13, 14072333351112545, 16, 12778336969128337, 16, 11, 0xe0a8b8af9bc2937b2eaf7c, 773⟩,
  ⟨-8737836320946485, 15, 14072333351112545, 16, 12778336969128337, 16, 33, 0x4c9df6fe342050fa6d56ca86cda30e7c0289e9c29dd5e37d3555b635d060d74b6f, -8⟩,
  ⟨-15213898764247836, 14, 14064174473177609, 16, 12778336969128337, 16, 11, 0xfdd8634fe1287bed11c9bc, -152⟩,
  ⟨4925782669608721, 13, 14064174473177609, 16, 12778336969128337, 16, 33, 0x09409b35c8d6fa33b79e5311a6bb708c0ab7404f619bc5ee14bbacaaed7782bc5e, 492⟩,
  ⟨2688014326699299, 13, 14085828929371884, 16, 12778336969128334, 16, 11, 0x8d50760db625c02f964dad, 270⟩,
  ⟨9663589882580573, 14, 14085828929371884, 16, 12778336969128334, 16, 22, 0x548131062aea35916b48b3a4fb42a8e1591b1bfb3618, 96⟩,
  ⟨-7829613034853125, 14, 14075634583937866, 16, 12778336969128337, 16, 11, 0xe49aea611fd94d1eaa6222, -79⟩,
  ⟨17869882500458988, 14, 14075634583937866, 16, 12778336969128337, 16, 33, 0xc201d04f9d518745f2afe72bf09ba85d1a1f779114e757ec8913af19ee60797e3c, 177⟩,
  ⟨5210314011168035, 13, 14046796242915625, 16, 12778336969128337, 16, 11, 0x2b24234c30947a6fb29423, 519⟩,
  ⟨-63238728381262035, 15, 14046796242915625, 16, 12778336969128337, 16, 44, 0x78eba1d80dc0adeb425ef00c15879cf2c4f390e6a9bdbcd722f49a5d354cde8efbf12013bffc0ba1f44fcb0b, -63⟩,
  ⟨2398971378665882, 13, 14039066119273025, 16, 12778336969128337, 16, 22, 0x1ab92890be99870ce464471265fb2f6b2d5151d83318, 243⟩,
  ⟨37427331191560704, 15, 14039066119273025, 16, 12778336969128337, 16, 11, 0x7fb7015bfc96aa69b99606, 36⟩,
  ⟨11365679882002028, 14, 13996230683017292, 16, 12778336969128337, 16, 22, 0x4947c49fbf263281b08bc18e5794466de94ea7b9ee26, 112⟩,
  ⟨-3165006070858539, 13, 13996230683017292, 16, 12778336969128337, 16, 11, 0xd61b831dba5d248e917a60, -317⟩,
  ⟨9412964350196906, 14, 13989229081863672, 16, 12778336969128339, 16, 11, 0xea3e2dce943cd187057a90, 94⟩,
  ⟨27738087228953026, 14, 13989229081863672, 16, 12778336969128339, 16, 11, 0x1765f4989887540736030c, 281⟩,
  ⟨14580316817045053, 14, 13962042428401993, 16, 12778336969128337, 16, 11, 0xfe5cb7d1237da982d2196f, 146⟩,
  ⟨2129307122949895, 14, 13962042428401993, 16, 12778336969128337, 16, 11, 0xcdfd9c913f7507bb78934e, 22⟩,
  ⟨3863902549486302, 13, 13956855206724017, 16, 12778336969128337, 16, 33, 0x806890d7dff38a9473f2ca9e8ab4c01f0371e7a6d8ef287e7636610cd0c326512d, 389⟩,
  ⟨2610087848099768, 13, 13956855206724017, 16, 12778336969128337, 16, 11, 0x95c4d04077188dbf019838, 260⟩,
  ⟨3084586132370746, 13, 1397574425248007, 15, 12778336969128337, 16, 22, 0x52fc4ec7aed06c7e51937fcd7be6a36a1a1db6590943, 309⟩,
  ⟨-5620610616228826, 13, 1397574425248007, 15, 12778336969128337, 16, 22, 0x10e597cd783daca1d20245d2d7ca151e99b019116412, -563⟩,
  ⟨3284982643522673, 13, 13968783120548662, 16, 12778336969128337, 16, 11, 0xf2a63f611097284eb9f4d9, 328⟩,
  ⟨2727913637410306, 13, 13968783120548662, 16, 12778336969128337, 16, 12, 0x0aeff29ac9eb7c7fb3141689, 269⟩,
  ⟨3650786917332051, 13, 13943093666935336, 16, 12778336969128337, 16, 22, 0x37631a7025bd5d4c181f7ee7ddd7773d3465e704fb31, 366⟩,
  ⟨-933573302421951, 13, 13943093666935336, 16, 12778336969128337, 16, 11, 0xaccfeb8163a290357abbc6, -93⟩,
  ⟨5124723937178718, 13, 13937894973188165, 16, 12778336969128337, 16, 44, 0x1b8d1bf2448cf110bf317533f3f6f59cab2536d9fd57902ee2cb4c22f594c639d6b8fb9b59c815337402ad44, 513⟩,
  ⟨-2920759529334845, 14, 13937894973188165, 16, 12778336969128337, 16, 11, 0xd078fab81f3dc23f08e800, -30⟩,
  ⟨24173688859652597, 14, 14221725584894684, 16, 12778336969128337, 16, 11, 0x11eaeddc0c377344bce90c, 245⟩,
  ⟨7604790998963747, 14, 14221725584894684, 16, 12778336969128337, 16, 11, 0xcda5cb71bfc0e07aa62ca0, 76⟩,
  ⟨2923333767832768, 13, 14219804818801354, 16, 12778336969128337, 16, 11, 0xf17be28e2ff3edf64674b3, 292⟩,
  ⟨-22622614264858407, 14, 14219804818801354, 16, 12778336969128337, 16, 11, 0x8c231116b6be02677fbd6b, -225⟩,
  ⟨5255109026234516, 13, 1414068446668921, 15, 12778336969128337, 16, 11, 0x6d7eb6ffd6f8402da8e094, 524⟩,
  ⟨26083146891930727, 14, 1414068446668921, 15, 12778336969128337, 16, 22, 0xe21f61819804418866a9fa9ab1598374964c99254e44, 259⟩,
  ⟨19755154458854815, 14, 14140167610132266, 16, 12778336969128337, 16, 11, 0x7b80194cb79a0af3f5720e, 196⟩,
  ⟨1706728114015197, 13, 14140167610132266, 16, 12778336969128337, 16, 22, 0xa4537c9655e5ff894b38d4bad0311576665547799b58, 171⟩,
  ⟨1503231339346696, 13, 14194448906272132, 16, 12778336969128337, 16, 11, 0xdb99f7f5085e2a76eb4aaf, 150⟩,
  ⟨13350303454414308, 14, 14194448906272132, 16, 12778336969128337, 16, 33, 0x1108bc83b218f7407eccba459e4d75313c2e81212eaafe71a959fcc424a188b4bf, 133⟩,
  ⟨28634369966752905, 14, 14192676176880128, 16, 12778336969128337, 16, 22, 0x4c357e44152c57e43cfcbaeae372cb74e011bb217381, 287⟩,
  ⟨21735366572158565, 15, 14192676176880128, 16, 12778336969128337, 16, 11, 0xe5371a75a98deb5959d822, 21⟩,
  ⟨19804680347781277, 14, 14116793854314686, 16, 12778336969128337, 16, 11, 0x75dad4920e369707281676, 197⟩,
  ⟨5988731384072996, 14, 14116793854314686, 16, 12778336969128337, 16, 11, 0x35ec743af0c23af9ad7117, 62⟩,
  ⟨-9378630631618609, 14, 1411628748312594, 15, 12778336969128337, 16, 22, 0x0b45feebfd8c9b24538d9cc6208b7cd41e5417177ad1, -94⟩,
  ⟨17905589041124597, 14, 1411628748312594, 15, 12778336969128337, 16, 11, 0x42a7f5ba2f0314f7c5f087, 177⟩,
  ⟨3515796197625347, 13, 14082495115779847, 16, 12778336969128337, 16, 11, 0xa9b31f6391cbb43a541872, 351⟩,
  ⟨25685469861712846, 14, 14082495115779847, 16, 12778336969128337, 16, 33, 0xf4c8b8abd7a406d68b98f71e3be0b75fddd53de1d258d54d2f724edf46fa8dca1c, 256⟩,
  ⟨5714783342839863, 13, 140819122317662, 14, 12778336969128337, 16, 22, 0x9b4154f3937a3410534df1d696ac2eeb25aef995069b, 571⟩,
  ⟨14087437780260584, 14, 140819122317662, 14, 12778336969128337, 16, 11, 0x5ad3f5a4a21eefa56b2d52, 142⟩,
  ⟨35961014789452764, 14, 14004756809944494, 16, 12778336969128337, 16, 11, 0xf053a1d5eae8deab73871f, 360⟩,
  ⟨2595179464590016, 13, 14004756809944494, 16, 12778336969128337, 16, 11, 0x6226d0a134af217124ce83, 258⟩,
  ⟨-19873826046835308, 14, 14004728479228858, 16, 12778336969128337, 16, 11, 0x7fea15e795f2efabb88f30, -197⟩,
  ⟨4869812597157954, 13, 14004728479228858, 16, 12778336969128337, 16, 55, 0x2d20817f3a4aed3ca45ee05f4d7affbda06e6bbaa47f2307e63c3ff3de6a47003a4a2f8e0eb329296785404ceb565e92b3520669faaa49, 486⟩,
  ⟨4116959714012433, 13, 14060227410536543, 16, 12778336969128337, 16, 11, 0x45da1db15ed9d3ac509b18, 414⟩,
  ⟨9325443104589942, 14, 14060227410536543, 16, 12778336969128337, 16, 11, 0x5947d18f3430ff04866417, 92⟩,
  ⟨4804962029079728, 13, 14059711635253336, 16, 12778336969128337, 16, 11, 0xf86b03b7f62ab60212a348, 481⟩,
  ⟨12591284632208719, 14, 14059711635253336, 16, 12778336969128337, 16, 11, 0xc7d4b15be61c095c183d27, 126⟩,
  ⟨4551598338847505, 13, 13985251797708795, 16, 12778336969128337, 16, 33, 0x7964055d7dece64ddfada71a5bca09f663cc564688ac38b1fd5fce4fde039e5714, 458⟩,
  ⟨-7520940304838092, 14, 13985251797708795, 16, 12778336969128337, 16, 11, 0x4a8b3ce78d6fd057d3ad75, -73⟩,
  ⟨43881393300124006, 14, 13985224743543039, 16, 12778336969128337, 16, 11, 0xd7c5a17a4cc6eb227626ba, 438⟩,
  ⟨35807600579175386, 14, 13985224743543039, 16, 12778336969128337, 16, 11, 0x5c8e1f68dd8e62a315ff5b, 360⟩,
  ⟨5205529441679221, 13, 138291795066115, 14, 12778336969128339, 16, 22, 0x4b09c598d417d80c062c578d48be0c6c8e683f5e7f53, 522⟩,
  ⟨2650219262083339, 13, 138291795066115, 14, 12778336969128339, 16, 33, 0x79db90da0d832afc3d9dd8698e05753e75e825d487a3c98cf66915b2442f9c597d, 266⟩,
  ⟨5300829030735599, 13, 13813365401098001, 16, 12778336969128337, 16, 11, 0xf9b844e634c1fd9a5420df, 530⟩,
  ⟨-7672798468399917, 14, 13813365401098001, 16, 12778336969128337, 16, 33, 0x3248252b66e168c6bfbe9f0d832c5c799c91d2097c8b30bc8b57c70f2ea1183918, -74⟩,
  ⟨24341441469881954, 14, 1377010082239759, 15, 12778336969128339, 16, 22, 0x09993f0f01c4faedd101a678b2129667aaf41b05a02b, 242⟩,
  ⟨9113619149802247, 14, 1377010082239759, 15, 12778336969128339, 16, 33, 0x65814fb407618c82f61dca12153c8594fe7fa44eb14b5c246c84951983f131a768, 93⟩,
  ⟨1581954752721889, 13, 13759265597622017, 16, 12778336969128337, 16, 22, 0x8c225db17118383e2e6dd2575e072313d8874ad3e609, 157⟩,
  ⟨4661072479244565, 13, 13759265597622017, 16, 12778336969128337, 16, 11, 0x35abaca9c81cbc875cf435, 464⟩,
  ⟨3118987882992902, 13, 13797277919258388, 16, 12778336969128337, 16, 11, 0xb38577ce2b075b5f528783, 312⟩,
  ⟨-22673590528597873, 14, 13797277919258388, 16, 12778336969128337, 16, 11, 0xc43e6211ce5025dcf2631a, -226⟩,
  ⟨2431230833235551, 13, 1378193535503007, 15, 12778336969128337, 16, 33, 0x6a5ca7b3d03481c9c071af105ab9f0562e4f7f2819b1b2ca7413415d08bc6c4b2b, 244⟩,
  ⟨-20795866208796642, 14, 1378193535503007, 15, 12778336969128337, 16, 11, 0xc4c32f2137220e126024be, -208⟩,
  ⟨22500408787259892, 14, 1374167539494609, 15, 12778336969128337, 16, 11, 0xd8c26c7f5318ddb052a66a, 225⟩,
  ⟨-4014879812498674, 14, 1374167539494609, 15, 12778336969128337, 16, 11, 0x49a6cf2b8007c668bf901f, -43⟩,
  ⟨3146601858326675, 13, 13730937787610908, 16, 12778336969128337, 16, 11, 0xeafdecb72db609da0bab3a, 315⟩,
  ⟨4272524133801291, 13, 13730937787610908, 16, 12778336969128337, 16, 11, 0xebea4dabe6e60464073f0a, 428⟩,
  ⟨13406114841782687, 14, 13702753379021755, 16, 12778336969128337, 16, 11, 0x1503e774f468c14fe36e0e, 131⟩,
  ⟨18038504881154012, 16, 13702753379021755, 16, 12778336969128337, 16, 11, 0xc86477961e6c44bab0a25b, 1⟩,
  ⟨46426362262654555, 14, 13693340518504513, 16, 12778336969128337, 16, 33, 0x14fa4fd2d3606bbba99acc53ba5e5e7c32aca23284d2e1a7f3008dfb8453ebfe4b, 464⟩,
  ⟨6496095064777278, 14, 13693340518504513, 16, 12778336969128337, 16, 11, 0xc627d2524c1c3fbe9bc48f, 64⟩,
  ⟨10702833323777332, 14, 13649760114415515, 16, 12778336969128339, 16, 11, 0xd1fe5d4f756266e8d50231, 107⟩,
  ⟨43822561637782206, 14, 13649760114415515, 16, 12778336969128339, 16, 11, 0xca25a1d26a89fd807fc193, 439⟩,
  ⟨-692243495529618, 13, 1364374537656099, 15, 12778336969128337, 16, 11, 0xe5089f530f4b3b83c99914, -69⟩,
  ⟨36991371047862316, 14, 1364374537656099, 15, 12778336969128337, 16, 22, 0x1d556dfa57c1d21c5d3f58c89ddd45dd6ff02818464c, 369⟩,
  ⟨3345888077909111, 13, 13680669019463794, 16, 12778336969128337, 16, 33, 0x3aebb3b36fb0d098d708ae0f05e7ce8d00f9bb19ac5ae9207edbce52589842b1af, 335⟩,
  ⟨-3483337510245826, 13, 13680669019463794, 16, 12778336969128337, 16, 11, 0x2d2e4a3ccb7deda84b3b38, -346⟩,
  ⟨17940787886214835, 16, 13671219425560073, 16, 12778336969128339, 16, 11, 0xbb310f0cef43e0a1fafd38, 2⟩,
  ⟨-24516846548879897, 15, 13671219425560073, 16, 12778336969128339, 16, 11, 0x7565a22434f80b98e89873, -26⟩,
  ⟨758815256694395, 13, 1362979459990464, 15, 12778336969128337, 16, 11, 0xaa659045d3e3a4b2a4d60a, 75⟩,
  ⟨-2134465510312239, 15, 1362979459990464, 15, 12778336969128337, 16, 22, 0x9759770a5eaac518b414cf3b18130b88ce92e5658c26, -5⟩,
  ⟨11128125627128998, 14, 13623595840519662, 16, 12778336969128337, 16, 33, 0x014124bcbe28480d493088807fe1aea1e25842d10bc7f322b07ce7731c7ebebc50, 111⟩,
  ⟨15896964359771846, 14, 13623595840519662, 16, 12778336969128337, 16, 11, 0xf633b56b767bb8016ea4a1, 158⟩]

/-- tests/test_samplerz.cpp:4585-5230. -/
def kats512_7 : List Kat := [
  ⟨3473096451774699, 13, 1380670571899916, 15, 12778336969128339, 16, 22, 0x29477ea4f4dda8edfeafd05fd1e3ed9cf313b51b3e62, 346⟩,
  ⟨-305529321780658, 12, 1380670571899916, 15, 12778336969128339, 16, 22, 0x649fe28403a335f62164d163b2748b556eb0b8a8ab15, -304⟩,
  ⟨13220989760754105, 14, 13806704023468706, 16, 12778336969128337, 16, 11, 0x4ddda86cb7486bd444af14, 135⟩,
  ⟨-33484312793229367, 14, 13806704023468706, 16, 12778336969128337, 16, 33, 0x543ba7c0730defd62edecb1a7f34c8d0c65e23e0eb4d696a35f4ac6d260a24fab2, -336⟩,
  ⟨14956152271086168, 14, 13755765042145895, 16, 12778336969128339, 16, 22, 0x1ae8d6415dbeee2723ef5f6ca5d2247cafdca00d8433, 148⟩,
  ⟨-1780280605586067, 13, 13755765042145895, 16, 12778336969128339, 16, 11, 0x8c8ef294725a201d315c23, -180⟩,
  ⟨-41490945134239024, 14, 137556507525943, 14, 12778336969128334, 16, 22, 0x903fa50c878bd8d5e28dc3edc459f6055c781c1c7a39, -415⟩,
  ⟨4250145193811073, 13, 137556507525943, 14, 12778336969128334, 16, 11, 0x6327f61535732259a04a5c, 424⟩,
  ⟨-43704318487817304, 15, 1378340805126669, 15, 12778336969128339, 16, 11, 0x68619f7f3b2a8b40980841, -45⟩,
  ⟨2882617689683826, 16, 1378340805126669, 15, 12778336969128339, 16, 11, 0xf3bb5bff081a39ec1c5517, 1⟩,
  ⟨5035226748396518, 13, 13783373896762532, 16, 12778336969128337, 16, 11, 0x6d60e700a17c447834153f, 505⟩,
  ⟨3949537893385207, 13, 13783373896762532, 16, 12778336969128337, 16, 22, 0x7827360979fd466e550cba5a416b8089a6af95935bbe, 396⟩,
  ⟨43032122695352996, 14, 1372974356740069, 15, 12778336969128337, 16, 22, 0x4a88e344b5791af98bcfeefb6dc7466aa7e82801e151, 431⟩,
  ⟨-990239328795216, 13, 1372974356740069, 15, 12778336969128337, 16, 22, 0x4a40be6fe8ecb8c282624634085aee91a9b194a7f333, -97⟩,
  ⟨1179064516442393, 13, 13729710583523735, 16, 12778336969128337, 16, 11, 0x844c0d4e3b3c50e53e314d, 119⟩,
  ⟨7086309715930626, 13, 13729710583523735, 16, 12778336969128337, 16, 11, 0xee87873d7f91a09ed6b479, 708⟩,
  ⟨-13748754819437931, 14, 1372589049436569, 15, 12778336969128337, 16, 33, 0x2c83b22cc7ef95cf30725a000a856a730223aa3c7298961852c30ab6c487ecb94c, -136⟩,
  ⟨-3737866339052771, 13, 1372589049436569, 15, 12778336969128337, 16, 33, 0x0932237c531b11855a17b830c4553d3a87bbe77ba7fed5781504e2f5836225670c, -373⟩,
  ⟨40268876270917644, 14, 13725678005657147, 16, 12778336969128337, 16, 22, 0x8123559eeee94cbf8e9fbf9349aaacdc2f0a89ef1313, 404⟩,
  ⟨9904669849322534, 14, 13725678005657147, 16, 12778336969128337, 16, 11, 0xa7dc2b3dde01e738a52365, 100⟩,
  ⟨4601990951296099, 13, 13675454623433814, 16, 12778336969128337, 16, 11, 0x55ed5f6f340ca8ba26da4c, 459⟩,
  ⟨-14942956328320864, 14, 13675454623433814, 16, 12778336969128337, 16, 44, 0x01812b9419a394e5da6ca36c0fdaa9bcd1b045929ac7500974ebcdfefe807c217cb78ed138b7c43b21d4aa0c, -150⟩,
  ⟨3677119446517511, 14, 13674761932711474, 16, 12778336969128337, 16, 11, 0xbeff1979b201f5031bd5df, 37⟩,
  ⟨37033016982658944, 14, 13674761932711474, 16, 12778336969128337, 16, 22, 0x12a2b29d080294d7aab794a3e852714af379b4255008, 369⟩,
  ⟨7880552398321656, 14, 13706075806853304, 16, 12778336969128337, 16, 11, 0x849e5423bd9602ed3de12e, 80⟩,
  ⟨10442575348757724, 14, 13706075806853304, 16, 12778336969128337, 16, 11, 0x813e2fff458ad85e627079, 103⟩,
  ⟨-29302470167527638, 15, 13705984377563534, 16, 12778336969128337, 16, 11, 0xc5125cd1b71d7f990ca016, -30⟩,
  ⟨21877804600500662, 14, 13705984377563534, 16, 12778336969128337, 16, 11, 0xb88bba614d0310c7d4ad84, 219⟩,
  ⟨31521394848938263, 14, 13653524842938563, 16, 12778336969128337, 16, 22, 0x1683c826756272124797878185b872b2946595ce4610, 314⟩,
  ⟨-3670235827233009, 13, 13653524842938563, 16, 12778336969128337, 16, 33, 0x0e60c0d1283b0d389d1e6d7f8a5e03de872f418df29dae26667fe12b76f27943b5, -367⟩,
  ⟨15517750666218524, 14, 1365309586837855, 15, 12778336969128337, 16, 33, 0x4d3d57ac4170b7d6ae09916631923df5b05cc1f6f7756c959ca30c437fee7054a6, 154⟩,
  ⟨6230808558942969, 13, 1365309586837855, 15, 12778336969128337, 16, 11, 0x665ef109599d0bf2d64536, 625⟩,
  ⟨-14145089826740548, 14, 13485098111792864, 16, 12778336969128337, 16, 11, 0xebde86f49a957048f7709f, -142⟩,
  ⟨-9720282806103751, 14, 13485098111792864, 16, 12778336969128337, 16, 11, 0xa7c1d8292b12560e62af61, -97⟩,
  ⟨-5899493346485119, 14, 13483008126450735, 16, 12778336969128337, 16, 11, 0xeca1a88509b7ad83b85ce2, -59⟩,
  ⟨-32195457742349765, 14, 13483008126450735, 16, 12778336969128337, 16, 11, 0x8eced3e3dc8bf0e14e1d61, -320⟩,
  ⟨4128312185176025, 13, 13455419555787191, 16, 12778336969128337, 16, 33, 0x19bdd682bdd704f14405b5a3cf3a2e0c223f6cfc1680c4b3637752b257d8f52667, 412⟩,
  ⟨10288164106480946, 14, 13455419555787191, 16, 12778336969128337, 16, 11, 0xdfba887392349058944808, 102⟩,
  ⟨-9216804288935569, 14, 13454235077457046, 16, 12778336969128337, 16, 11, 0x37022e47f024479febf51d, -90⟩,
  ⟨42905568264618296, 15, 13454235077457046, 16, 12778336969128337, 16, 11, 0xc6371bf4b2b40de276bd2d, 43⟩,
  ⟨3856794795478691, 13, 13457688200602818, 16, 12778336969128337, 16, 33, 0x1a8605bc679eb2fa88e3fc1eb533656a6b7a9e93d1d17a43863d6b25e8b0722d13, 387⟩,
  ⟨-1311100170464062, 13, 13457688200602818, 16, 12778336969128337, 16, 11, 0xd9f87340a555d8a2f16570, -131⟩,
  ⟨38452207129891985, 14, 13455296816156004, 16, 12778336969128337, 16, 11, 0xeddc21a5a82caedab93a6f, 384⟩,
  ⟨-4870809608387827, 14, 13455296816156004, 16, 12778336969128337, 16, 11, 0xdacb06a9339618a75826c8, -49⟩,
  ⟨1986886506132612, 13, 13427313902711941, 16, 12778336969128337, 16, 22, 0x925ed8b04c2c982e33cfed64389159f0ef3f3b59b661, 197⟩,
  ⟨-10966073298097102, 14, 13427313902711941, 16, 12778336969128337, 16, 22, 0xe4af34ab0286cb1e108ef091aa5ace0c596a2e6900a1, -111⟩,
  ⟨24874131654795906, 14, 13425913354249428, 16, 12778336969128337, 16, 11, 0xdf5639ce7da0d190b8a46d, 248⟩,
  ⟨3116456255064965, 13, 13425913354249428, 16, 12778336969128337, 16, 11, 0x40c394e7d3c9bd55924f5b, 314⟩,
  ⟨6426825940592198, 13, 13418627242965206, 16, 12778336969128337, 16, 22, 0x3d9de0869302771f468ca8553cf358ee52a32f981d88, 644⟩,
  ⟨-204015841136507, 13, 13418627242965206, 16, 12778336969128337, 16, 11, 0x81976f3aa7fd9488271d72, -19⟩,
  ⟨14814388315854424, 14, 13417684825126255, 16, 12778336969128337, 16, 11, 0xec90d4b87b0a665363cb62, 149⟩,
  ⟨12813261148058041, 15, 13417684825126255, 16, 12778336969128337, 16, 22, 0xe07ef68186ccc7bbb256de7dd42e145a84164292125b, 11⟩,
  ⟨813484322570106, 12, 13388131045221898, 16, 12778336969128337, 16, 11, 0xe26755ff2e86969ba5ea24, 813⟩,
  ⟨25884615861249506, 14, 13388131045221898, 16, 12778336969128337, 16, 22, 0x4987017e677f17c6b58bc5d58b0cfe123310996606a8, 258⟩,
  ⟨4916139588436343, 14, 13387769133840997, 16, 12778336969128339, 16, 11, 0xd53fdee09d02519482897b, 50⟩,
  ⟨-1630032297212589, 14, 13387769133840997, 16, 12778336969128339, 16, 11, 0x300832cf10d2d28dab0c1c, -19⟩,
  ⟨4675657860246849, 13, 1339562946525494, 15, 12778336969128337, 16, 11, 0xf9d9e6d00fa5331c5a779d, 468⟩,
  ⟨2654802867711307, 13, 1339562946525494, 15, 12778336969128337, 16, 22, 0x1f623645c6aaebab173373dfdad9053532a0dd1122d9, 265⟩,
  ⟨31405487154917967, 14, 13394386895878667, 16, 12778336969128337, 16, 22, 0x10d0ec98914128ce1854b8a6e2eca770cdc9359da721, 315⟩,
  ⟨-3049411913214635, 14, 13394386895878667, 16, 12778336969128337, 16, 33, 0x504f6c5b20dc875da3f68f9ca14560d9764c021822ee6ef8bce320a677119d0611, -32⟩,
  ⟨15820004703431485, 14, 1336474065096403, 15, 12778336969128337, 16, 11, 0xe6acf8a68ec1f3ad13f8c9, 158⟩,
  ⟨15386553407434937, 14, 1336474065096403, 15, 12778336969128337, 16, 44, 0x66ed3fe0dde5305a344ece7c309a3c58947660272ce850a7b3ecfa54a6688b32ea5a5e280922885862e8b431, 152⟩,
  ⟨-15936527237008647, 14, 13364186185737428, 16, 12778336969128337, 16, 11, 0xc4c0943fd319b7f5f6afe4, -159⟩,
  ⟨3752262831476258, 13, 13364186185737428, 16, 12778336969128337, 16, 11, 0x853b136aa0adf6d192f652, 374⟩,
  ⟨16571699580346987, 14, 13576546340785784, 16, 12778336969128337, 16, 11, 0xa3ac57199cd156584c330c, 167⟩,
  ⟨-22883203580686475, 14, 13576546340785784, 16, 12778336969128337, 16, 22, 0x1f6be1aa27d6f64b002f58d494da28a3dd6c6383965c, -229⟩,
  ⟨18756680555742142, 14, 1357600918119893, 15, 12778336969128337, 16, 11, 0xa350e5862e369c340c1950, 189⟩,
  ⟨-8733864385947037, 14, 1357600918119893, 15, 12778336969128337, 16, 33, 0xcb5400959cdf85b7529af1388087dd62c97b8604909299ce9eb54ad9583e8ac337, -86⟩,
  ⟨3194912716490044, 13, 13508017337849962, 16, 12778336969128337, 16, 11, 0xe8793325f13a19a8e7672c, 320⟩,
  ⟨-9809318772159342, 14, 13508017337849962, 16, 12778336969128337, 16, 11, 0x6c691e0063049aa15d91b1, -97⟩,
  ⟨22240679039913356, 15, 1350787267088265, 15, 12778336969128337, 16, 11, 0xd019af8026373322d8d051, 22⟩,
  ⟨30432395081514227, 14, 1350787267088265, 15, 12778336969128337, 16, 11, 0x91cf239314cfd2f5139c53, 303⟩,
  ⟨32194374520291547, 14, 13557705373587223, 16, 12778336969128337, 16, 22, 0x40cb28d3ff12f12e26f871aa629fc4bbf64bc628371f, 322⟩,
  ⟨-13979758472177087, 14, 13557705373587223, 16, 12778336969128337, 16, 22, 0x14422ff0f91f69c2967dd7645d37cc9bb66ebdbb035d, -138⟩,
  ⟨7054428751035009, 13, 13556923930645284, 16, 12778336969128337, 16, 11, 0xaad8e05a900e66ac2ac6df, 705⟩,
  ⟨2657365145574238, 13, 13556923930645284, 16, 12778336969128337, 16, 11, 0x63b3d8f4cef3f9da8f7745, 267⟩,
  ⟨50186946830944214, 14, 13486573355775653, 16, 12778336969128337, 16, 66, 0x6b814b65bc0c65fec2dab6137a28b5a837818e6081fb4a472b2922a2c8cb1dcaa50fa87f40f403eac2afaaf696f4f9eb29775b5ce4a0c67a4db1f30b79cb8fcef3c2, 503⟩,
  ⟨-2826005075231066, 14, 13486573355775653, 16, 12778336969128337, 16, 11, 0x86bdf6ff0a6bc4540f390b, -27⟩,
  ⟨802737626489158, 13, 13486261999743683, 16, 12778336969128339, 16, 33, 0x2c40eb82b4120db63199c1451f0f265f343a08d52bbefe39d6b6bf5d78ad92df93, 81⟩,
  ⟨37982438532990517, 14, 13486261999743683, 16, 12778336969128339, 16, 33, 0x104901adf8526c204759978bd2cead569e75f5714a8874cd154508647eb9cb8300, 381⟩,
  ⟨18530007233258485, 14, 1348206336839049, 15, 12778336969128339, 16, 22, 0x47d569d40758f5a55cde86aa60270beca7e0fcf0e516, 186⟩,
  ⟨2428330873369628, 13, 1348206336839049, 15, 12778336969128339, 16, 44, 0x2aad0729962dbbae495bdf484da570b7327af24fb9bb464804d085a213f17e5076bf925f6b903ec4f9a738bc, 242⟩,
  ⟨3320936125130148, 13, 134820623325825, 14, 12778336969128334, 16, 22, 0x4a142bbee07cf5d15e8f50c585ed7ac705cdc3a39339, 333⟩,
  ⟨11719176798010444, 14, 134820623325825, 14, 12778336969128334, 16, 22, 0xcf8844d2f516ca6a6cc3dbddde0fd743e8594cfc7ed2, 117⟩,
  ⟨366875094212845, 12, 13412069211398212, 16, 12778336969128337, 16, 11, 0xeff125f6a873b89068cb69, 367⟩,
  ⟨10733758864938238, 15, 13412069211398212, 16, 12778336969128337, 16, 11, 0xef496ce8aad7f5475c2a42, 10⟩,
  ⟨-9908292153304814, 14, 1341196279945353, 15, 12778336969128334, 16, 11, 0xa328247683253b53f3e504, -98⟩,
  ⟨314358977848452, 12, 1341196279945353, 15, 12778336969128334, 16, 11, 0x827b7e7f47ed5f1bbfc474, 313⟩,
  ⟨38101034009512296, 14, 13466653277541765, 16, 12778336969128337, 16, 11, 0x77febbf18031ea6a83d358, 383⟩,
  ⟨383118894759271, 13, 13466653277541765, 16, 12778336969128337, 16, 11, 0x8da96cd12c080dc482c936, 40⟩,
  ⟨3778602042389527, 13, 13466618559285828, 16, 12778336969128337, 16, 22, 0x2b8d61bf2161f11cfb797f66a8eb0158c1268ab2c95c, 379⟩,
  ⟨35389312342190146, 14, 13466618559285828, 16, 12778336969128337, 16, 33, 0x3f77638f2520ead1186a97eef606954968212b46b2f473bfb43d8276719b10153f, 355⟩,
  ⟨-7191073463284567, 14, 1339466729689269, 15, 12778336969128339, 16, 11, 0xdc812b48b704291260e2c3, -72⟩,
  ⟨-2921298735750622, 13, 1339466729689269, 15, 12778336969128339, 16, 11, 0x61ce90851987c17c75b18c, -291⟩,
  ⟨-15920442139396016, 14, 13394646871336484, 16, 12778336969128337, 16, 11, 0xa6ebf80f20b89153f3c095, -160⟩,
  ⟨3265550455256404, 13, 13394646871336484, 16, 12778336969128337, 16, 22, 0x1c181cde883b929b2493b9c6f16eaa7057b2a0769a32, 326⟩,
  ⟨4756646129052822, 14, 13262393407439446, 16, 12778336969128339, 16, 44, 0x16b2b79c3d40d3440313672dd6af949334458957b06cbd2c4a29f6c3e0c8539affacf5b72edc27776476c292, 47⟩,
  ⟨-9492478131462953, 15, 13262393407439446, 16, 12778336969128339, 16, 22, 0x837cb72b2769cc1c6f9e98f9ecf8a33dec2b157b3438, -10⟩,
  ⟨24141848955836373, 15, 13257427290709187, 16, 12778336969128337, 16, 11, 0x4416f8ae901e2e53615210, 22⟩,
  ⟨4457900732849537, 14, 13257427290709187, 16, 12778336969128337, 16, 11, 0xa80514aab9226f21497a7b, 44⟩,
  ⟨4364328540893459, 13, 13223297497438962, 16, 12778336969128337, 16, 11, 0xa55e8e283cc7bbb8108b27, 437⟩,
  ⟨4688474606814994, 13, 13223297497438962, 16, 12778336969128337, 16, 11, 0xe76ca18abe09f5c7cc57bd, 469⟩,
  ⟨9650252505817055, 14, 13220041885984546, 16, 12778336969128337, 16, 22, 0x566093ed09454e85a63899c7cdb55065a5d1edf94daf, 97⟩,
  ⟨11414678797573097, 14, 13220041885984546, 16, 12778336969128337, 16, 11, 0xd48149eebe464c495870ad, 114⟩,
  ⟨23544914267157782, 14, 13237235174757498, 16, 12778336969128334, 16, 22, 0x117da9dfa5521a55752f225b8d3ab8fc0e8c7caf3c66, 234⟩,
  ⟨18101538279493934, 14, 13237235174757498, 16, 12778336969128334, 16, 22, 0x5aa832208751bc9917fdfe0793c90492ed536b1a7417, 177⟩,
  ⟨2911159249134327, 13, 13231630565141044, 16, 12778336969128337, 16, 11, 0xa1f3bf327d4ff1c9d06827, 290⟩,
  ⟨8765045086509794, 14, 13231630565141044, 16, 12778336969128337, 16, 11, 0x3496a56df6c2761df12826, 85⟩,
  ⟨19143981745425654, 14, 13197233789258969, 16, 12778336969128334, 16, 11, 0x8cc39f5841f9d4008c4e5f, 190⟩,
  ⟨13618255411910346, 14, 13197233789258969, 16, 12778336969128334, 16, 11, 0xd93fd87b7b18e117712b37, 137⟩,
  ⟨4506404739129238, 13, 13193413751827998, 16, 12778336969128337, 16, 33, 0x2cdfd3ace22a2a56ae55df4f743c4ea9e6d8f6041c7e8dfee34163ae869a7c5077, 449⟩,
  ⟨4512912128803157, 13, 13193413751827998, 16, 12778336969128337, 16, 11, 0xc340a5feb62197858b08d4, 451⟩,
  ⟨26503555908063225, 14, 13183051853987087, 16, 12778336969128337, 16, 55, 0x22a5e83bd27c9c701f058306f76976aef8fbbfe0de2446cbc9220149a2eeea37f2315461a1c075b452472ee226a4e9523b83449618c445, 263⟩,
  ⟨-1428896385163989, 13, 13183051853987087, 16, 12778336969128337, 16, 22, 0x1423fa45cc557a382e6b78ab58c9734df390246d3d59, -142⟩,
  ⟨28467876921091766, 14, 1318060559218472, 15, 12778336969128337, 16, 33, 0x005ce29161f0a63b51d71a4d716c3f8fb29dce643672d327f272c4d9770097d86d, 284⟩,
  ⟨1404807638406917, 13, 1318060559218472, 15, 12778336969128337, 16, 22, 0x78934437a69bb05f3c27e2b4a899d30cc2019d63c74d, 141⟩,
  ⟨3929004394842842, 13, 13141100248457707, 16, 12778336969128337, 16, 11, 0xc7116b4297ae8d0f836d8b, 393⟩,
  ⟨2859575522346099, 13, 13141100248457707, 16, 12778336969128337, 16, 22, 0x1389e89fbc4619e03cf178c70d4a63f64ed7bbeee39c, 286⟩,
  ⟨3153580670424571, 13, 13139867173513151, 16, 12778336969128337, 16, 11, 0xd454ca599292d4d88cf931, 316⟩,
  ⟨4975653062194701, 13, 13139867173513151, 16, 12778336969128337, 16, 22, 0x90170ecfe0efea35e833ed3603bc4f9041be3e698309, 500⟩,
  ⟨3391752062156745, 13, 13163237188240566, 16, 12778336969128337, 16, 11, 0xc2e8ddc4a0884c4d0ee57f, 340⟩,
  ⟨-7025263508343707, 14, 13163237188240566, 16, 12778336969128337, 16, 11, 0x70a2e00d81999439b91e6b, -72⟩,
  ⟨21123584546466196, 14, 13160241275130078, 16, 12778336969128337, 16, 22, 0x323db9d2521590c2166b7a81153b9d8f827b74ae188d, 210⟩,
  ⟨-3565415069095019, 13, 13160241275130078, 16, 12778336969128337, 16, 11, 0x6f963d07e9e3fdb5147d8d, -355⟩,
  ⟨-35111461072313965, 15, 13120708140676998, 16, 12778336969128337, 16, 11, 0xefec535dc2b3564128882e, -36⟩,
  ⟨12008918450243618, 14, 13120708140676998, 16, 12778336969128337, 16, 11, 0x8ffc17ba572572cdc4cec3, 119⟩,
  ⟨6687919799498738, 14, 13119039110709527, 16, 12778336969128339, 16, 11, 0x5a67b5fa40f908883edc0b, 65⟩,
  ⟨6287067669172933, 13, 13119039110709527, 16, 12778336969128339, 16, 11, 0xe9b83518bdca1edb6b7f27, 629⟩]

/-- tests/test_samplerz.cpp:18-5231 `falcon512_samplerz_kats`. -/
def kats512 : List Kat :=
  kats512_0 ++ kats512_1 ++ kats512_2 ++ kats512_3 ++ kats512_4 ++ kats512_5 ++ kats512_6 ++ kats512_7

end Falcon
