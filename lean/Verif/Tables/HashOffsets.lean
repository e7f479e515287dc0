import Verif.Tables.Packed
/-! Generated by tools/gen_tables.py - do not edit. -/
namespace Pokers

def PERF_HASH_OFFSETS.c0 : Nat := 0xfffc1040fffc2b7efffc47b0fffc404bfffc9bd9fffc604bfffc7041fffc8070fffc9041fffcb753fffcc39ffffcd753fffce273fffd2a37fffcf8d6fffd0071fffd112ffffd3612fffd312ffffd53f8fffd6366fffda879fffdb6defffd8072fffd9369fffdadc4fffdc2defffdc87afffde237fffde0fafffe2e5ffffe2c3afffe21fcfffe212ffffe3f92fffe412ffffe5ecefffe6bd7fffe9647fffea14dfffe9a88fffea369fffeb996fffec925fffed885fffee820fffef000ffff18c4ffff1000ffff26d5ffff3000ffff4626ffff5000ffff6476ffff7000ffff821bffff9000ffffa158ffffb000ffffc0d1ffffd000ffffe000fffff00000000000
def PERF_HASH_OFFSETS.c1 : Nat := 0xfff81005fff874e9fff83005fff86d46fff85000fff862fefff87040fff8a58afff8b57afff8b2a8fff8d57afff8cd79fff8d041fff8e000fff8f041fff92400fff9348afff94400fff94768fff96400fff9515afff96071fff97000fff99f5bfff9912ffff9c389fff9d33ffffa13fbfff9f33ffff9e072fff9f369fffa1f5cfffa2f49fffa3673fffa4ec0fffa415afffaa24ffffa615afffa8cb3fffa812ffffaae0cfffaab2efffacd6cfffb107afffaf672fffb2f34fffb0cb4fffb0fe0fffb2c22fffb6ed2fffb3cfdfffb8ec6fffb5812fffb6280fffb7000fffbce70fffb9005fffbee27fffbb005fffbe27cfffbd005fffbe8d6fffbf040fffc1af7
def PERF_HASH_OFFSETS.c2 : Nat := 0xfff472b8fff4485efff46124fff45d01fff4b24efff47d01fff47072fff4b58efff4b21ffff4bfb7fff4d84cfff4d8d3fff4f18afff4ee39fff50c82fff5620afff52619fff53706fff5312ffff56e4dfff565b0fff5c157fff573fcfff59566fff599acfff5b43efff5c347fff5ed48fff5fb18fff640adfff64ceefff6143ffff61ab3fff6343ffff63772fff642fefff67a12fff68948fff67363fff6a948fff69422fff6baeffff6b3b6fff6c15afff72c3bfff6e000fff718c1fff70025fff738e8fff72025fff78bb0fff74025fff752fefff762fcfff798c2fff7d995fff7b822fff7f995fff7cbbdfff816a3fff7d000fff83601fff7f000fff8550a
def PERF_HASH_OFFSETS.c3 : Nat := 0xfff010c8fff05600fff07534fff04286fff084fafff0944afff0d8b9fff0b44afff090c9fff0a0c7fff0e3c3fff10300fff0d072fff148a5fff1121ffff167edfff142c0fff154d5fff15ff1fff18231fff15286fff1c792fff172a7fff1af13fff1912ffff1a0c9fff21789fff22707fff1ff66fff2124bfff231f4fff2408bfff276aefff25219fff294b8fff2736efff2b4b0fff262a7fff2d3fafff282a7fff2b85bfff2a005fff313effff2f6bdfff310b4fff2e2a8fff325b4fff363e6fff34521fff351c4fff35eb4fff371c4fff371d7fff36041fff3a14dfff39cc8fff3f3bffff3a0c9fff3e0affff3eae0fff400affff3e286fff3f6d0fff4636f
def PERF_HASH_OFFSETS.c4 : Nat := 0xffec7c64ffec20b7ffec6afaffec40b7ffecbc46ffec9d5effec71fcffeccee6ffecde2cffecd9ebffecea9effecf9ebffed09caffed4c1affecf0c9ffed01fbffed487cffed6da1ffed3000ffed78f9ffed887dffedcbb4ffeda87dffedcc52ffedc87dffedebb3ffedb286ffedf85cffedd000ffee4a6affedf000ffee00c9ffee1025ffee5830ffee3025ffee42feffee84faffee9752ffeea661ffeeb739ffeef9edffeed6f3ffeee661ffeec000ffeed2fdffef14f9ffef59b7ffef0000ffef7976ffef2005ffef98e0ffef74faffef52feffef94faffefb8c2ffef80c9ffefc648ffefd5ffffefedd4ffefc000fff004f9ffefe041fff024f9fff037b6
def PERF_HASH_OFFSETS.c5 : Nat := 0xffe810c8ffe82abbffe88592ffe880b4ffe85148ffe8a05fffe8e098ffe8c03cffe890c9ffe8a0b7ffe8ef98ffe8c0b7ffe8d1fcffe8e2a8ffe92ecbffe93d4fffe94dc6ffe98fc4ffe96d7affe97d4fffe95000ffe961fbffe972a7ffe9ef23ffe99000ffea0e24ffe9b7e3ffea2dd0ffe9d2a8ffe9e1fcffe9f2a8ffea548dffea17e4ffea5c66ffea37e4ffea7e99ffea5000ffea60c9ffea77e5ffeabba1ffea9c13ffeadb5effeab7e5ffeb10deffead286ffeb1ba2ffeaf0caffeb6d8affeb10caffeb5b5fffeb30b7ffeb7b5fffeb5732ffeb61fcffebdd68ffebbb54ffebfcd3ffebdb54ffebfef4ffebf0c8ffec1ef4ffebe286ffec5c67ffec017e
def PERF_HASH_OFFSETS.c6 : Nat := 0xffe41029ffe490cfffe475a5ffe4b09affe45000ffe49bc8ffe4702affe4801affe4e653ffe4e495ffe4d4b9ffe50428ffe4ee57ffe5291affe5071cffe5477dffe5103cffe520b7ffe5303cffe5547effe564d5ffe5747effe5884fffe5947effe5901affe5d347ffe5b000ffe5c4f3ffe5d12affe5e57cffe63365ffe60016ffe65365ffe65348ffe63364ffe644f4ffe65148ffe670d3ffe6b332ffe68a61ffe6bd30ffe6a1b8ffe6f225ffe6c12affe7127cffe6f553ffe70696ffe7423effe7292affe73453ffe77226ffe75373ffe79198ffe76148ffe7b2daffe7933dffe7d17affe7aeaaffe7b0b7ffe8006bffe7d147ffe7f06bffe7f147ffe80ea3
def PERF_HASH_OFFSETS.c7 : Nat := 0xffe0660affe06250ffe08490ffe0b2faffe09dd7ffe0a250ffe07029ffe082f8ffe10281ffe1124cffe0fbbcffe13160ffe0d02affe12a0cffe0f02affe102f9ffe15869ffe121d3ffe157edffe18778ffe165e3ffe1b10bffe17095ffe18008ffe1903cffe1a008ffe1c5e4ffe1d47effe1e82bffe1f47effe1f6a8ffe20094ffe21007ffe224f3ffe23007ffe290ceffe25073ffe277d3ffe27640ffe2b54dffe29008ffe2f01effe2dddbffe2c096ffe31f7affe319f5ffe33649ffe306a8ffe35494ffe34793ffe37a89ffe36793ffe39d27ffe36b8effe3b6ecffe38073ffe3db0dffe3c30cffe3fa8affe3cc78ffe419e2ffe450d9ffe3f029ffe441ec
def PERF_HASH_OFFSETS.c8 : Nat := 0xffdc61bcffdc203cffdc81bcffdc88b1ffdc647effdc7ea1ffdccf0bffdc80dfffdcec19ffdca0c5ffdd25b9ffdcc0c5ffdce97fffdce7e4ffdd097fffdd5e72ffdd4c8bffdd9462ffdd34f4ffddb3eeffdd6297ffddbd38ffddaafcffdddd38ffdd90dfffde1397ffddb179ffde3373ffddd12affde30fcffddf7e4ffde5275ffde6b00ffde6fdbffde39a7ffde9c67ffde5148ffdeb0b5ffdec065ffded046ffdee224ffdeb937ffdeffdaffded937ffdf2b3cffdee147ffdf1d8fffdf1938ffdf60b9ffdf7ae7ffdf8839ffdf5938ffdfa794ffdf8e22ffdfbf20ffdf80c9ffe0036effdfe24fffe00659ffdfc020ffe01f00ffdfe6c2ffdff2f9ffe04250
def PERF_HASH_OFFSETS.c9 : Nat := 0xffd811d3ffd820a1ffd883e9ffd8404fffd8a3c2ffd86000ffd87000ffd88000ffd8c47affd8bea1ffd8b000ffd8dea1ffd8d04effd8e0dfffd8f03bffd90000ffd9103bffd95479ffd9304fffd94000ffd9504fffd9604dffd970deffd9b47affd994f4ffd9d47affda120affd9c04effda08c3ffd9ebc6ffd9f0dfffda003bffda17e3ffda4c77ffda37e3ffda438cffda57e4ffda604fffda77e4ffdacfdbffdac80fffdb01b4ffdafa99ffdb2102ffdb47b6ffdb3340ffdb432fffdb038effdb5fdaffdb42f9ffdba7b2ffdb438effdbc600ffdba7bbffdbc61dffdba187ffdbdfdbffdbc187ffdc1041ffdbf03fffdc22e9ffdbfea0ffdc4d29ffdc00de
def PERF_HASH_OFFSETS.c10 : Nat := 0xffd4684cffd457a7ffd4884cffd477a7ffd4a782ffd49d63ffd4d326ffd4b160ffd4e84dffd4a000ffd52876ffd4c000ffd527e3ffd4e0b2ffd547e3ffd500b2ffd511f7ffd5217affd5863bffd59782ffd5a7c1ffd5b782ffd5c7a9ffd5d782ffd59000ffd5a1f6ffd5b04fffd6163affd5d000ffd635d4ffd5f000ffd65706ffd62938ffd621f7ffd64938ffd6a094ffd65148ffd6b576ffd67000ffd6d4daffd690a0ffd6a04fffd6b000ffd6c04fffd6d020ffd6e000ffd6f0a1ffd701d3ffd710a1ffd7822fffd77250ffd79457ffd79250ffd76000ffd77000ffd780a0ffd791d2ffd7a0a0ffd827f5ffd7c000ffd82447ffd7e0a1ffd7f2f9ffd83c10
def PERF_HASH_OFFSETS.c11 : Nat := 0xffd06b4fffd06eb7ffd08b1affd09b22ffd05000ffd060a0ffd07000ffd0dabdffd0903affd0d7a7ffd0b000ffd1176affd0d04effd0e0a1ffd0f03bffd15a93ffd1103bffd17a4cffd1304fffd19a3affd1504fffd160b2ffd17000ffd18000ffd1e63bffd1a000ffd20937ffd21782ffd22937ffd23782ffd1f000ffd20000ffd21000ffd2763affd23000ffd2b938ffd25000ffd2b8e7ffd27000ffd281f7ffd292a3ffd2f63bffd2b000ffd318b4ffd2d7dfffd33882ffd2f000ffd30000ffd31000ffd3204fffd337e0ffd34000ffd357e0ffd397a5ffd370a1ffd3d84dffd39000ffd3f84dffd3b0c5ffd3f7a6ffd3d000ffd417a6ffd3f0b2ffd400a0
def PERF_HASH_OFFSETS.c12 : Nat := 0xffcc6db5ffcc3242ffcc30a1ffcc9222ffccb573ffccb222ffccd4e4ffccf9caffcceda1ffccf222ffccb024ffccc0a0ffcd2d6dffcd59a8ffcd4d6dffcd794affcd61d1ffcd83a9ffcd3025ffcd40a1ffcdad51ffcdbcf5ffcdaae3ffcddcc3ffcd91daffce0277ffcdb04fffcdc000ffcdd1dbffcde000ffcdf1dbffce4325ffce5b46ffce6325ffce6b0dffce776cffce5000ffcea326ffce7000ffcec326ffce9132ffcee326ffceb132ffcef76dffced000ffcf208effcf4c9effcf408effcf6c9effcf5b0dffcf8c9effcf7b0dffcf50a0ffcf6000ffcfcb82ffcf8132ffcfec8fffcfa132ffd00c68ffcfc132ffcfd0a1ffcfe09fffd04b83ffd04eb7
def PERF_HASH_OFFSETS.c13 : Nat := 0xffc82294ffc89ae7ffc83902ffc87887ffc898f0ffc86007ffc8acfdffc8bbc8ffc8ee92ffc8e7dcffc8b33bffc90462ffc93a96ffc918a7ffc8f33bffc9338dffc91000ffc99aa2ffc97461ffc96ba1ffc99461ffc99100ffc97000ffc98237ffc99025ffc9a0a1ffc9f462ffca1e5fffca1462ffca3e5fffc9f1daffca5dd3ffca1000ffca2000ffca3000ffca4003ffca51dbffca6000ffca71dbffcacd6bffca9091ffcaa000ffcab000ffcac000ffcad002ffcb2d6cffcaf000ffcb4d6cffcb1132ffcb2090ffcb3003ffcb8d6dffcb5003ffcbc998ffcbc222ffcbcd6dffcbe222ffcba6a3ffcbb000ffcc1221ffcc2cf4ffcc3221ffcc55faffcc0132
def PERF_HASH_OFFSETS.c14 : Nat := 0xffc45026ffc4200fffc48ad9ffc4412fffc4a659ffc49293ffc4bc40ffc49a52ffc4c1eeffc4a369ffc50adaffc53ba1ffc51dd7ffc50cdaffc55aecffc5275bffc51394ffc525faffc53110ffc5bb2effc57210ffc56295ffc5c5e4ffc5cc77ffc59395ffc5a3e8ffc5b0d9ffc60ab6ffc622f3ffc5e9b9ffc642f3ffc62bbbffc61396ffc6465cffc630daffc64468ffc6ae9affc66468ffc6b63dffc6d25effc6cb86ffc6cc25ffc6b132ffc711f9ffc72806ffc73134ffc73f1effc72474ffc75f1effc74248ffc74a1fffc77b2fffc79cb4ffc76593ffc7bb7dffc7c5c6ffc7b44fffc7a36dffc7b003ffc812d9ffc8182fffc832d9ffc7f339ffc8660c
def PERF_HASH_OFFSETS.c15 : Nat := 0xffc08c37ffc02c69ffc09663ffc09010ffc08508ffc0636dffc0c2cdffc08000ffc10c00ffc0a00fffc112d1ffc10cddffc132d1ffc0e025ffc13b9dffc10000ffc11005ffc12047ffc18eb7ffc16886ffc1aeb2ffc186b4ffc17000ffc182fdffc19000ffc21beeffc1b036ffc23bdaffc1d005ffc25bcdffc1f04affc202feffc21000ffc22005ffc27a52ffc24035ffc2b1faffc2cb04ffc27396ffc28049ffc290daffc2a036ffc2fa53ffc2e361ffc31a53ffc34090ffc2f36dffc3004affc31132ffc35b2effc3300fffc39ff3ffc38293ffc3815effc3cf9effc3c769ffc3aa1fffc3db2fffc3b007ffc40a15ffc42e7cffc3ee04ffc42915ffc4036d
def PERF_HASH_OFFSETS.c16 : Nat := 0xffbc30f7ffbc5434ffbc3173ffbc543bffbc5050ffbc98d2ffbc9a97ffbcb036ffbc9962ffbcaecbffbcb1f3ffbcdce1ffbcd43dffbce017ffbd124dffbd0fcdffbd465bffbd40c9ffbd4190ffbd6f7fffbd5804ffbd6435ffbdbb4dffbd88a0ffbdc65cffbdb6cbffbe2c74ffbddf29ffbe34f0ffbdfd83ffbe54f0ffbe1deeffbe66baffbe2114ffbe6b2fffbe4fc2ffbeaf4dffbea9c5ffbec3b1ffbec9c5ffbe936dffbebb3bffbeb17effbf2053ffbf281affbf4479ffbf0d83ffbf4fa8ffbf7b25ffbf6fc1ffbf39acffbfa80effbf5007ffbfb998ffbfcef9ffbfdeccffc00c40ffbfac68ffc0031cffc023b9ffc03739ffc01509ffc0437cffc00c69
def PERF_HASH_OFFSETS.c17 : Nat := 0xffb83ff8ffb8360fffb85886ffb84cf7ffb859caffb86b37ffb8c04affb8df7effb89004ffb8c4faffb8b00fffb8e4faffb8e3acffb8e208ffb9355cffb928b1ffb96029ffb98604ffb975f9ffb944bbffb99e06ffb98457ffb9b55dffb9e5b3ffb9b627ffb9e1feffb9bbc1ffb9e971ffb9d468ffba1772ffba4aa4ffba7ca7ffba2feaffba3a78ffba5f4dffba8ce9ffbab8bfffba88f2ffba90b5ffbac4aeffbadfedffbaa359ffbafbe9ffbadeefffbaebe9ffbb3752ffbaf36dffbb22e3ffbb6f71ffbb4a34ffbb8617ffbb42aaffbb8cb6ffbb7ee5ffbb8d83ffbb822affbb9ecbffbbd3faffbbdcffffbbfa7dffbbebc3ffbbf51fffbc0ac0ffbc022b
def PERF_HASH_OFFSETS.c18 : Nat := 0xffb47b45ffb42047ffb4f8b3ffb4c7aaffb58a9dffb51040ffb52865ffb59b36ffb49012ffb5df94ffb50329ffb5028bffb60bd3ffb4fa43ffb62badffb568f6ffb645f1ffb5ad8cffb59440ffb59845ffb68b24ffb5ad9dffb6abcfffb5eb66ffb59608ffb68794ffb69b05ffb64445ffb61bb5ffb6a06fffb6a7ccffb69ba1ffb6ebf7ffb62de7ffb63c85ffb774a4ffb6799dffb75e16ffb67a71ffb76b19ffb6badbffb6c0b9ffb6bc68ffb75929ffb70c6effb7059dffb70852ffb70032ffb73b36ffb73ab8ffb74b6dffb74047ffb78cfdffb760deffb77ca9ffb780cdffb7de48ffb7d4d6ffb7e297ffb7ebccffb7daa7ffb82264ffb86cb2ffb802af
def PERF_HASH_OFFSETS.c19 : Nat := 0xffb06deeffb14109ffb04db7ffb0bfd4ffb05295ffb0b85fffb0c04affb0eb27ffb0aa9dffb0a9b5ffb0b7e5ffb0d0fbffb0d8e9ffb0ff69ffb19e0dffb10002ffb11341ffb1bf38ffb15389ffb1f765ffb18841ffb19023ffb1c639ffb2c0f4ffb29334ffb27f2cffb2530fffb1fc4cffb2bd27ffb2b456ffb20feaffb333b7ffb2501affb34a4affb236cdffb380d2ffb2be2fffb260b7ffb27ae0ffb28483ffb2a07cffb3a4c5ffb3ac5dffb3939dffb2d6beffb31d25ffb35f20ffb32cccffb351b3ffb44b7fffb3e445ffb3efc5ffb35166ffb3fa74ffb3eaf8ffb48c79ffb4d07affb4d4ecffb3e6eaffb42c44ffb412adffb49ed9ffb4ba46ffb42163
def PERF_HASH_OFFSETS.c20 : Nat := 0xffac121dffad4acdffad21eeffad6ab1ffac7d9cffad7fc5ffad447fffacc37fffad7800ffaddc55ffadb676ffae0457ffadee66fface00affadcd6affad09e2ffae43deffae60e7ffad8172ffae338cffad5d57ffaea127ffae8d72ffaebfb3ffae5e07ffae58cdffae5288ffadf8beffade330ffaee763ffaf2b45ffae5e83ffaeb4eaffaece1effae339effae5f59ffaed025ffaea34bffaeb64bffaeea91ffaec084ffaf29c4ffaf2a02ffaf8b11ffaf42a7ffb01be1ffaf6209ffaf1a7bffafa066ffaf74a6ffb01a67ffb002c6ffaf59e9ffb02669ffb00f33ffb043e3ffafbd43ffb018abffb06cd0ffb015e8ffb0377effb031a6ffb03ce0ffb13b9d
def PERF_HASH_OFFSETS.c21 : Nat := 0xffa86590ffa8efb5ffa86eb0ffa864e1ffa8ac12ffa88762ffa8780dffa89facffa96e40ffa8a8d3ffa92163ffa927ceffa90a20ffa91938ffa9513cffa9456dffa9fefcffa925bbffa94839ffaa5064ffaa0c7fffa9c465ffa9e467ffaa21efffaad34cffaa6c32ffa9ed4bffab0146ffaa2e45ffa9fa0fffab3085ffaa1625ffaa3d55ffaa66a6ffaa5242ffab3acbffaac484ffaac795ffaa7403ffaac23effabcbe9ffab91f6ffab1d1bffab286fffab63baffaae16cffab9594ffab2a9cffab364dffab8e6fffabcc2dffac5af2ffabcb0fffab8be1ffac2655ffabb9d7ffac0e1bffac4b37ffabc079ffac91e0ffabd518ffacfec2ffac361bffac2ec7
def PERF_HASH_OFFSETS.c22 : Nat := 0xffa4156effa5612bffa4380bffa48f7effa5917cffa48e3dffa497c0ffa4e67fffa4e72dffa500bbffa5ab8bffa52cbaffa55f40ffa56365ffa60fb1ffa51379ffa513d7ffa54299ffa56ae1ffa564e3ffa56addffa58691ffa6b092ffa5a640ffa5b724ffa5a753ffa5c93cffa64c48ffa67c82ffa627f7ffa64f23ffa6ee4dffa6177effa679fcffa661abffa6704effa6f855ffa6aa01ffa69544ffa6809bffa72370ffa6f199ffa77fa8ffa6ce59ffa70b2affa6f524ffa72ed5ffa71d0cffa85381ffa74285ffa75f34ffa7d902ffa7504affa7605affa7c0ddffa7e5aaffa7c6a9ffa82e67ffa7b0bdffa81197ffa88143ffa81d1affa8a006ffa8570e
def PERF_HASH_OFFSETS.c23 : Nat := 0xffa08f38ffa07c3bffa08498ffa09da4ffa0544cffa0a792ffa0c042ffa0a71cffa0bc60ffa0ab72ffa15f0effa0ebadffa0d226ffa14002ffa2173cffa12eabffa17764ffa14f6bffa170f8ffa1cca3ffa15780ffa188b2ffa1ba3affa180c1ffa1a47cffa28ad7ffa1b18dffa27aabffa212a5ffa1f604ffa238f4ffa235c5ffa215f9ffa3640fffa2ae76ffa2981cffa2e0aaffa36fd9ffa294acffa2d84effa31aceffa2b090ffa382a5ffa31a7cffa2f5c5ffa3653effa35304ffa365bcffa3b817ffa381bfffa34bd1ffa37b32ffa37ea3ffa398baffa4333cffa4010fffa43749ffa3c5f4ffa3de17ffa4f9b4ffa4e268ffa4acffffa4abddffa4fdd7
def PERF_HASH_OFFSETS.c24 : Nat := 0xff9c536dff9c86ecff9c4713ff9d600eff9ca59cff9c8529ff9d587bff9d4eedff9cc9a3ff9cb998ff9d02aaff9d4472ff9e10feff9d3ab3ff9d61d4ff9dc6f6ff9d3ed2ff9e4876ff9df60dff9e7bdaff9d67d8ff9dc97fff9dedd2ff9ddc10ff9e57e1ff9e4d76ff9e85d2ff9de43aff9ea30dff9e7ce0ff9e170bff9e57f8ff9ee64bff9e3f19ff9eb90eff9ede17ff9f03ecff9edaacff9ed911ff9f655fff9fcd87ff9eb91aff9ec3c8ff9f6d17ff9eecb2ffa015b6ff9fec7eff9f623eff9f7f7fff9fcd8dff9f3d2eff9f972aff9fc315ffa01de4ffa05c96ff9fd4e0ff9fde45ffa07c43ff9ffb45ff9fc336ffa03214ffa00678ffa007abffa0816b
def PERF_HASH_OFFSETS.c25 : Nat := 0xff984344ff982c67ff985f56ff98c2e6ff985f9aff990f65ff98ec5cff98ea41ff98d42bff9955a2ff98eecfff993660ff992c79ff9900a4ff9980f1ff991c4aff993b1dff9983edff99630dff996a75ff99c816ff9968f6ff9a00f6ff9992c4ff9a476aff9a2b24ff9a24c4ff9a565aff99f992ff9a4e63ff9a14c8ff9a547bff9a257eff9a8bf2ff9a668fff9a4476ff9a6582ff9adc76ff9ae705ff9ab47cff9b941cff9b84f8ff9ab796ff9ad569ff9b1b84ff9c1ff0ff9c1945ff9b0dc3ff9be7f2ff9bed38ff9ba475ff9b98e8ff9b583dff9ca3d3ff9bf101ff9ba0d3ff9bb8e3ff9c50b4ff9bcf8aff9c3783ff9cc4b0ff9ca7b3ff9caf7bff9d12c9
def PERF_HASH_OFFSETS.c26 : Nat := 0xff95542cff94873cff945c83ff947765ff94cedaff9544c6ff947b25ff94bdc8ff94da37ff9556c0ff953663ff95a43fff94da2fff954f5bff950118ff95ea08ff95142fff9620b2ff95ed85ff963e93ff95db57ff958032ff9605abff95e174ff9593bbff969f81ff96b136ff95f621ff971070ff96c8d8ff96b1f5ff96d7caff96d8ebff967b4eff9774e6ff96a046ff969f07ff969b6dff96bea3ff970859ff97d3a5ff973ca1ff96b827ff96f815ff970208ff970923ff97807dff975341ff979a7bff97c297ff975328ff975b5bff975a63ff97bd40ff97b4afff984067ff97aaadff97a3c3ff988f31ff987465ff984a74ff97e47cff980b1cff982ca9
def PERF_HASH_OFFSETS.c27 : Nat := 0xff903c7eff90597eff90396dff9089fcff90567aff90c887ff909492ff90dd18ff90e81eff9169dfff90caf7ff9108e4ff90eaf7ff90e09fff91422bff9130fcff911ce3ff91782fff920272ff918ffbff918886ff9172ebff91f7a5ff92817cff91bd22ff91b61bff9274acff91c5b1ff923b85ff91f9a0ff91f721ff92bd12ff92130dff92c994ff92d0a1ff930caaff92b439ff936f28ff92ac17ff928dc5ff93d35eff92cb51ff93476eff93278dff92d104ff942579ff93260cff93255bff934763ff9320d8ff9417c0ff93ba3fff949461ff93671aff93fb74ff9394dfff93bc37ff93df4fff93e4d5ff94232eff947342ff93e725ff941f2dff94b6ef
def PERF_HASH_OFFSETS.c28 : Nat := 0xff8cb582ff8c3e4dff8c48b4ff8c4119ff8c5c39ff8c86a4ff8cd7afff8c839aff8cbcd1ff8d1c50ff8cd552ff8cd20fff8cd59cff8d7efaff8d3fddff8db2cfff8d1b8fff8db940ff8d3541ff8d6107ff8d5f2fff8d6e4aff8e10e8ff8da7e4ff8de8eaff8e16abff8db244ff8df6a9ff8e4c5cff8dec19ff8e61b0ff8e6e37ff8e47aaff8e361bff8e5e1eff8e4243ff8ec045ff8e88daff8e8eb9ff8ec0f6ff8f04daff8eb6e3ff8ec97eff8eee5bff8ed434ff8f8f76ff8f3e59ff8f45cfff8f60afff8f2168ff8f3999ff8f5e64ff8f547dff8f76ffff8fa0d0ff8ff1e2ff903e67ff8fa9dcff8fbac5ff8ffe78ff8ff029ff903b21ff8ff0d6ff90149a
def PERF_HASH_OFFSETS.c29 : Nat := 0xff88fc00ff88b17dff88c1b6ff88c509ff88734dff891780ff8891f0ff8881bfff88aec2ff88a0bdff88fa7aff890667ff88f39aff88e0b9ff891f31ff894051ff892927ff89321bff897d89ff89a7cfff899c0dff896c07ff899b47ff89c207ff89ba89ff89c812ff89b8bbff89d2d9ff89da12ff89fe6bff8a36e4ff8a02d4ff8a28a0ff8a5cd5ff8a46dbff8a6abfff8ab9b2ff8adbb0ff8aa705ff8a811fff8aa900ff8acb40ff8adf96ff8ae71dff8b0b90ff8b233eff8b2372ff8b2477ff8b1779ff8b31d7ff8b5abfff8b84bcff8b7b71ff8bd38eff8b8ef7ff8b90d9ff8bccddff8c0ba9ff8bfac4ff8c2ae3ff8beec4ff8bf7c8ff8c5279ff8c11c7
def PERF_HASH_OFFSETS.c30 : Nat := 0xff848352ff84336aff8474eeff847527ff84a49aff85563dff84b45cff84e1d6ff84f228ff850bfcff84bd9aff84c9b5ff84e8d3ff850611ff85259bff85dddcff8574deff856063ff8530f7ff85dc90ff85b0bfff856054ff85a9f6ff8580bcff85a803ff85aab2ff85dbd0ff86aecfff8673cdff867ab4ff872c39ff86a984ff8697e2ff8666caff86e824ff8685abff86cd60ff8671afff8795e5ff86d275ff86c7e3ff87191eff86bd6aff86c5daff870975ff87155cff87043cff873717ff874265ff87ec12ff8799d4ff876339ff87eb48ff88a689ff877f73ff881725ff87f221ff882d0aff883722ff889699ff8809d0ff8879c3ff8830e9ff88ad2b
def PERF_HASH_OFFSETS.c31 : Nat := 0xff80640cff815c4dff804487ff80b05aff808cb3ff8195c6ff80f07bff81c1d1ff80d821ff81081bff813983ff81a103ff815c4aff818924ff810c72ff814e26ff813352ff8192eeff815480ff81a6ecff81642aff816037ff818460ff819270ff820cb4ff81ed28ff81b2beff823404ff81f193ff81e6a6ff81f58bff822a17ff82181aff8263aeff828a92ff82ec52ff8304acff82c116ff82c247ff828f6cff82a450ff830b3cff830161ff82f2a2ff82dc18ff82f3a3ff8386e9ff832396ff831b61ff83920bff833b81ff8386e6ff83b152ff83c5dfff83c615ff8401d0ff83925dff83d5f1ff84196dff842b88ff841e35ff846592ff84245dff849143
def PERF_HASH_OFFSETS.c32 : Nat := 0xff7d5213ff7d61e2ff7ca47eff7c6877ff7cf6cdff7ceebeff7cea93ff7d691dff7c9672ff7cfb9eff7ce517ff7cd403ff7d9fafff7d3ccfff7dc4bdff7e343bff7d1b26ff7dbd0eff7df7efff7e4690ff7e63d6ff7d93bcff7e37eeff7ddfb2ff7d9dc8ff7eafccff7e2868ff7ea99cff7e644bff7e0790ff7e404fff7e9206ff7ea001ff7e67b5ff7f13c3ff7f7c8dff7f856cff7f8a08ff7fa5caff7f443cff7f0546ff7f5ee9ff7fcb59ff7f9a5eff7f4e58ff7fc188ff7ef91dff8044a9ff7f2e6bff805b86ff7f32b3ff7f6073ff7f5dcfff801d52ff80b1d4ff7fef63ff7fe538ff80dd05ff80ed44ff7fd4b3ff811621ff811cf0ff80afb5ff804403
def PERF_HASH_OFFSETS.c33 : Nat := 0xff78bb20ff79626fff783e6eff785dbfff7860ceff790bdcff78bf51ff788cbbff78a16dff79807aff78be6eff79337bff79a98dff792f96ff7917aaff794d75ff79d332ff7a0894ff79ae98ff7972cbff79b422ff7a66a6ff797f6cff7a6bf5ff79e420ff79b29bff7a1663ff79d4c5ff7a09c5ff7a37bfff79fdc8ff7a51b7ff7aa738ff7a5212ff7ab787ff7a4123ff7aea32ff7aa4f6ff7ab551ff7b1812ff7b7293ff7b224dff7becddff7b1bcdff7bdd6aff7b3d77ff7bc821ff7b4575ff7b296aff7c48a0ff7bce58ff7c81edff7c91a9ff7b600cff7ba18cff7c5d78ff7bbb05ff7c3fc4ff7cf482ff7c103aff7c5556ff7c0d5eff7ca1abff7c808d
def PERF_HASH_OFFSETS.c34 : Nat := 0xff744663ff754a29ff756debff74630fff745179ff74daf3ff759c49ff74f5b7ff74a030ff752c2fff75eb51ff7581b4ff75428eff760c77ff754b71ff7554b3ff75aa1aff764bc3ff760ca7ff765fddff76228dff7605a4ff75a2b4ff759caeff75c687ff75df4fff764b08ff75d235ff7681feff761451ff773409ff768fd1ff7667d1ff773f00ff776d22ff764a7bff77952cff77106aff7672b5ff77bdb0ff772a22ff772efdff76b893ff7764e3ff781208ff776406ff77cac5ff77a879ff771462ff779e95ff773f54ff77462fff780af8ff77972dff787212ff77d071ff78c628ff77ec83ff783686ff77d9baff791547ff78dd00ff78b225ff793cf5
def PERF_HASH_OFFSETS.c35 : Nat := 0xff70b002ff70616dff703600ff71763fff710590ff7170aaff717b05ff708fc5ff70b20fff70e897ff713c8dff70c721ff71e01fff71f1e1ff7148cfff715b85ff72502bff7178eaff7131a0ff725ddfff728de7ff72263fff71ffabff728e8bff72d1e7ff72cc1aff71ee0fff7223a5ff7299c1ff731bb6ff72a5e5ff7262aaff72abdcff72b509ff72b717ff72c96aff731b41ff72e5e1ff732a88ff72e9e6ff73c58dff735a0dff72d02fff732f63ff72d010ff7404b4ff73507cff73a148ff732164ff73f434ff7374f9ff748249ff735304ff736a38ff748fc1ff74c194ff74522eff74cc17ff74e300ff73f3ceff7450d8ff73fdd7ff74ffd9ff74bbe2
def PERF_HASH_OFFSETS.c36 : Nat := 0xff6c8d49ff6c6fc6ff6c4199ff6cabd5ff6c9620ff6cdd57ff6cfc0fff6cdd37ff6d2afcff6ca040ff6d1b25ff6d2a4aff6d396bff6d4b8dff6daf5aff6d00d7ff6d7a0fff6d46a0ff6dacc4ff6d411eff6ddd80ff6dde42ff6debe3ff6ddd3eff6da6b8ff6da0baff6e57ebff6e1ec1ff6e4a58ff6e9fe7ff6eaf92ff6e5e51ff6e1746ff6e8be0ff6e72efff6edd73ff6e7e66ff6e8350ff6f4597ff6eddd2ff6e9029ff6f8a73ff6f2ef3ff6fbfdfff6fcf4dff6fa0bcff6f3ae8ff6f7e4fff6f1bf3ff704aecff701c01ff7051b3ff6f9d05ff705fbaff6fb6e1ff709f23ff707905ff6fa1ceff707ecfff70df7eff6fd796ff70fe75ff703190ff711e8f
def PERF_HASH_OFFSETS.c37 : Nat := 0xff6852caff68be98ff68db1bff69011dff687c8cff692065ff6945b6ff692cfdff6966ebff693f5eff692fdaff691766ff692947ff69a026ff6a00acff6919b0ff699e88ff69bdf8ff69cdeeff69bea4ff6a2617ff69cd49ff6a4585ff69fe7cff6a0f46ff6a2df3ff6a7124ff6a4e6dff6a8a38ff6a79b4ff6a397dff6a8dc8ff6abb91ff6a9e5bff6b04cbff6aea75ff6b2464ff6aec6aff6b2aa9ff6ade7dff6b1b2fff6aa6fcff6b5977ff6b5d31ff6b9090ff6b4ac0ff6b69ffff6b8e05ff6b8cd2ff6bbc4bff6b4e26ff6bcd12ff6bebbcff6bb129ff6bdc0eff6c0cfcff6bfbbdff6c3ad3ff6c4b57ff6c1fdcff6c2bfcff6c5cabff6c011bff6c8c38
def PERF_HASH_OFFSETS.c38 : Nat := 0xff646b4cff648ddfff64b0c3ff64ddfdff646208ff650f69ff650e92ff64b3feff652cd0ff652006ff652fb9ff6581eaff64f856ff658fdfff659e09ff6500dfff657020ff65e21aff65df17ff65b253ff65cd6bff660e71ff661bffff662e99ff6610caff662c79ff667160ff664fb1ff6691a6ff665eb0ff669e4cff668daaff66fbabff66655fff671a07ff664035ff6667daff66869bff670da6ff670f55ff671eacff677717ff679a7fff670a64ff66e5dcff6700bbff679ceeff67a1f3ff680f2fff683130ff681959ff681575ff67fde8ff67d62bff67bff7ff686acbff6850ccff68730aff688644ff681d0eff687d58ff68277eff689d4eff68fe24
def PERF_HASH_OFFSETS.c39 : Nat := 0xff61208dff60f4caff6098fbff6168c1ff607aceff60a80eff618182ff617e9eff60b862ff61a09dff6185d4ff61d002ff61edf5ff6115f4ff622518ff61eadeff618eecff623fdfff615237ff61bfcdff62104aff625e66ff626eaaff619dffff621657ff61a7f3ff62db9eff61df26ff62a149ff628eccff62db50ff630640ff62f7ccff633174ff62525cff627bc1ff635f62ff6321fbff6330eeff630ae0ff63bbfcff638a4cff638644ff636f54ff637f81ff63a2c3ff63c80bff639fd6ff63fae3ff63d0d0ff633b6cff63ae4dff63ee37ff63ff4dff643107ff64913aff64401cff63a3b7ff645ee8ff645ebcff647ca5ff648ff3ff645cebff6454c1
def PERF_HASH_OFFSETS.c40 : Nat := 0xff5d1f8dff5d0be3ff5d4080ff5d52beff5cf7b3ff5cb97bff5d80d7ff5d9210ff5d8680ff5d8c53ff5d34f5ff5daaf4ff5db7cbff5d2daeff5d4e90ff5e11b5ff5d7963ff5e1df4ff5e5b0aff5e2c3fff5e4facff5e16f3ff5e907bff5e606cff5eb00bff5e09f3ff5ecea4ff5e94e8ff5e3ca5ff5df503ff5ee791ff5e4630ff5e2ce2ff5f4bcaff5f5c0fff5ee534ff5f035eff5f8098ff5f6d3cff5f0da8ff5f8d98ff5f38e8ff5f6651ff5fab07ff5fe993ff600c0cff5f29efff602a81ff60503bff5f4627ff5f50dbff5f7d42ff605f48ff607d66ff601211ff5fb9abff6042bdff608bb6ff5fe5c4ff609c34ff60f048ff60a1ddff611c1cff60c4df
def PERF_HASH_OFFSETS.c41 : Nat := 0xff58aee0ff590ccaff58a12bff594e96ff598c34ff58cc8cff599cbdff596b98ff59bcb3ff59c1beff58c980ff59d280ff5929dfff592436ff59770eff59ff2dff5a431aff5a0d9fff5a1732ff5a3db4ff5a622eff5a8051ff5a7e0dff59acf9ff5a78dfff5ac0e6ff59df5fff5ad245ff5af0e5ff5a3776ff5aa907ff5a3e9bff5a4eadff5ab76cff5b30a6ff5b3fcbff5b7170ff5ad901ff5b9d18ff5b8069ff5bc9ebff5bc0bdff5bb0ccff5b131bff5bc8dfff5bf167ff5c0d6fff5b8b94ff5bacd8ff5c20d6ff5c1cbfff5c2b65ff5b6794ff5c5d78ff5c9ca8ff5c1695ff5b93a5ff5c61b1ff5cb099ff5bc023ff5bf752ff5cdeefff5c3f25ff5cfadb
def PERF_HASH_OFFSETS.c42 : Nat := 0xff54e793ff5520f9ff551e93ff550936ff55600bff54c306ff552163ff54bad0ff554152ff556368ff559db9ff55adedff54f197ff55ce4bff54f7e2ff550b81ff559cf5ff55f650ff55bb01ff56027fff562828ff566114ff55e886ff568147ff56768eff560df0ff56af95ff566bdeff5658c9ff56cceaff56de27ff56ec9eff562a40ff563c18ff570826ff56bbb1ff5726f0ff56a989ff579145ff5780a5ff56f9cdff578bc2ff576e72ff579807ff57cdeaff57e167ff57ed89ff577bacff58317bff5780dfff581c55ff585044ff5792f2ff57bbefff5890a5ff587c39ff587e2aff587780ff589de1ff589181ff58f074ff590b22ff58dd3eff58231a
def PERF_HASH_OFFSETS.c43 : Nat := 0xff51316cff507c3bff5143a0ff515d82ff51249cff5061c4ff518300ff51b47eff51b0fcff51d546ff5144a4ff51e0fcff51882cff51f13eff516f15ff51842aff522d5dff523374ff52663cff52425fff525dceff5280c6ff520683ff528b45ff51ab02ff524ab1ff5224f1ff52c170ff521fbaff52f2fcff52ab5bff52ac62ff5322d9ff52d173ff530752ff532fe0ff533d09ff526ea3ff5270c2ff533c26ff534f94ff530b92ff53732fff52c44fff53b57eff5400a3ff532274ff536352ff540ebfff5431fdff5341a0ff544269ff546fb0ff546fd9ff549120ff5457f6ff53f0a9ff54c092ff54c1cdff54e018ff544fb7ff54b805ff53f256ff55009b
def PERF_HASH_OFFSETS.c44 : Nat := 0xff4d441bff4d5d5dff4c9e7bff4d0c0dff4d4b57ff4d8dd5ff4d9d53ff4cbdd3ff4dbb17ff4d53e4ff4dc2c5ff4d6fa3ff4d9149ff4e023dff4dffd6ff4e2d26ff4e3082ff4da31aff4d3deeff4e186bff4e51ccff4e8e4dff4e7d51ff4e2a42ff4ebc89ff4eb11cff4eeb77ff4ee209ff4e40ebff4e9259ff4e0b3cff4efed8ff4e666aff4f4d59ff4e557aff4e6857ff4e7cb9ff4f47ebff4f9cd1ff4f81baff4f58dbff4fc1baff4f259fff4fdd11ff4f66c0ff5015a3ff502c15ff4f07c1ff503d5cff4fdc63ff505b8dff4fafb4ff5062afff507099ff50a661ff4fbad4ff50a3e2ff4fc108ff5031f4ff507d17ff502dabff50610dff511240ff50111b
def PERF_HASH_OFFSETS.c45 : Nat := 0xff495108ff4860e5ff48f91dff488b07ff496aa7ff49554fff4870a8ff4905cdff49d4c4ff48e34bff495239ff49504bff4a06bbff491041ff4a0d25ff4a12b4ff495bf5ff4a53c1ff4a4465ff4a6293ff4a637fff49e0fcff49e2e8ff499dc5ff4ac5fbff4a1d0eff4aed90ff4ad25eff4b0539ff49f8e5ff4aa6d9ff4a59dfff4b2156ff4aa045ff4a7763ff4b6332ff4a67a2ff4b127fff4ba4f5ff4bae18ff4b5363ff4b5e63ff4bed43ff4b8de4ff4aececff4bd803ff4b1bfcff4c223eff4b18f1ff4baa6bff4b5425ff4b42bcff4c9161ff4c8dcbff4caad7ff4cae17ff4cb28aff4cccceff4bf3cfff4cba11ff4c9e1fff4c5419ff4d1241ff4c3232
def PERF_HASH_OFFSETS.c46 : Nat := 0xff4436f8ff44621bff4566a2ff4459b2ff457badff459739ff45a637ff449771ff4505afff457df2ff45e5c4ff45fd06ff44e8d6ff452583ff456c86ff45045dff464f34ff461707ff45e815ff4566e6ff4628c7ff46824eff459375ff45ac07ff4638e6ff45a0f6ff46e4dbff464882ff46b881ff46c5d4ff4644eeff46af04ff46e076ff46440dff46e7c3ff46acffff4662b5ff474824ff479230ff47b601ff46f476ff47506cff473e39ff473ac1ff47710aff46e61bff47b790ff471489ff485560ff47f956ff474d76ff476578ff47d672ff47dce9ff485776ff48b4f6ff4821deff47c0e6ff48cc70ff4868c5ff47fdd4ff48a4cdff47f0f3ff48a70a
def PERF_HASH_OFFSETS.c47 : Nat := 0xff40a3c2ff408a42ff416678ff417560ff4102d6ff41616bff41add6ff411bc7ff4166d5ff419c61ff419ed7ff418b0bff40d162ff4216b0ff41c988ff415cc6ff41b463ff423e94ff41f920ff41fd48ff41af14ff423175ff41ad18ff42c23fff41cba9ff41f6d7ff42f263ff42c2deff41d32fff431e16ff42461eff42e71cff434da2ff4253adff4231a3ff4259abff42d1e3ff43a47fff43776fff435c0fff42baf0ff4339fcff42ddd9ff4401b7ff435f71ff43308cff43256cff43b3b0ff4327acff43af5eff43a8ceff44130fff43cc71ff43bb65ff43b647ff449022ff43c7daff43e6b8ff441bbbff44094cff447a28ff44d4e3ff4439a1ff45149b
def PERF_HASH_OFFSETS.c48 : Nat := 0xff3c1b7dff3d340eff3cd3e4ff3d7e5dff3d022aff3d19f6ff3db19eff3dba52ff3cc289ff3db349ff3dc2f8ff3d0d52ff3df363ff3d20feff3d58cfff3d8f54ff3d8d70ff3d519aff3d9836ff3e62f9ff3e5286ff3d83cfff3eadaeff3eae35ff3e8dffff3e34e7ff3edd75ff3dfb49ff3efdceff3f039bff3f1e57ff3f22f4ff3e3fd3ff3f5708ff3f6c2dff3f18eaff3f347cff3f1d90ff3f7278ff3f8206ff3e9056ff3ea8beff3f2251ff3fadc5ff3fcf05ff3ff483ff3f30e1ff3fc357ff3f4e00ff403306ff3faba0ff40541fff3feef7ff3f7bccff3f8aabff40a19eff4045ecff404a6fff400322ff40d49aff40cb10ff3ff949ff40ac86ff413e5a
def PERF_HASH_OFFSETS.c49 : Nat := 0xff393f94ff38d187ff38d40aff3964aaff3973b7ff397da3ff399f46ff3994dbff39b49aff394c52ff39b169ff3968ecff39e864ff395984ff3a0580ff39ef55ff39d3a8ff39ae38ff3a1fb8ff3a1ef2ff3a3ca1ff3a9750ff3ab289ff3a3bb7ff3a7dfdff3ad750ff39c8c7ff3a4076ff3aa748ff3a1adfff3a4fdeff3a4c26ff3a77c0ff3b444fff3a7411ff3b1480ff3aba5cff3b831aff3a93adff3ae937ff3b9e77ff3bce7aff3b0f06ff3bdfd7ff3b4b23ff3c03cdff3c1d90ff3c2e89ff3baef0ff3c59feff3c198cff3c6347ff3c8687ff3c8f70ff3be9a6ff3c5552ff3c3327ff3ba028ff3c6dfeff3c9df1ff3cf37fff3c24a2ff3c0135ff3c9ba7
def PERF_HASH_OFFSETS.c50 : Nat := 0xff34ea14ff3471b1ff351f0eff3505aeff357989ff357629ff3583e5ff3544c2ff35a356ff3569a8ff35b36aff35c3a6ff35e4feff34fae9ff351f0cff3601a6ff35fed0ff3622adff360866ff364333ff363e7eff362483ff35ff29ff3644dbff35abe0ff3679b3ff360e76ff36c25dff35f97eff368049ff368cb8ff36da2dff368870ff370ebfff369204ff3719b7ff369854ff370034ff371f1eff375895ff36c838ff371121ff376ef9ff371aa3ff36ff8bff373c9bff37b453ff37c3eaff3824ccff375c79ff3830e2ff37dfcaff37fee7ff37fc09ff37d68eff385713ff38be7aff386243ff38c3a6ff3883ccff38a98cff38b944ff385fafff38c399
def PERF_HASH_OFFSETS.c51 : Nat := 0xff303952ff30bcefff30c7b2ff315683ff318dafff312281ff31866bff31460eff3194a4ff31c395ff30bab3ff317e0aff312cffff31f4f8ff31d0d0ff31b9beff31494bff324e5aff320f04ff327da9ff31eddeff32492fff325f38ff32ae07ff320361ff320094ff327ebbff32661dff32d360ff324662ff32b5f7ff32c18aff32bba9ff32ecabff3235f8ff3316c5ff332b02ff33397dff32f8c0ff32f291ff339c01ff33b522ff33b3b7ff32c001ff337170ff33a4f0ff341f06ff33a151ff34247bff33fa21ff340aaeff34035dff33c353ff344b70ff34ac8eff3458f1ff3493c6ff347a6aff33bbccff345fa9ff344908ff34ba83ff34fa08ff34f03e
def PERF_HASH_OFFSETS.c52 : Nat := 0xff2c9f90ff2c7ac5ff2d160cff2d052cff2d64f0ff2d019fff2d20c4ff2d0fe6ff2d3030ff2d0d84ff2d386cff2d614cff2dc012ff2d3cefff2d5eefff2d1fb1ff2dd4ceff2db7f9ff2e09a8ff2e1c63ff2e28b6ff2e0144ff2e1194ff2e83e7ff2e41e5ff2db6cfff2e7674ff2e28ebff2e3e4fff2ea5c3ff2e703dff2e4ca5ff2eeafaff2efc11ff2f322fff2ee01dff2ebd16ff2f3b56ff2f743eff2f9546ff2f931dff2f7b2dff2f8a0eff2f843bff2f94c6ff2f1573ff301ff6ff2fdaa1ff301336ff2f4d9fff2f4950ff302ec1ff303ff5ff3063ddff302ca4ff304446ff2f91e3ff303f7dff30c3c1ff30001eff2fe095ff30a119ff3098fdff30da74
def PERF_HASH_OFFSETS.c53 : Nat := 0xff289223ff28b0d9ff29203fff28c1beff291661ff28e2dcff28d7d3ff290208ff298092ff294c8bff28e5acff299c24ff28d7fdff2961cfff298064ff298177ff29206cff29d2e5ff296117ff29ce9dff2a015fff2995aeff2a12c0ff2a7045ff29c7afff2a769dff2a89e9ff29e0c9ff2a824cff2abbf9ff2acafcff2b1566ff2aecd3ff2ae698ff2ad2e5ff2ad08dff2a9eabff2b2706ff2b3512ff2b5cb5ff2b801fff2b0e7fff2b4094ff2b862aff2b5fa1ff2ba3b3ff2b7661ff2bb038ff2bc21dff2be684ff2b9e7bff2c05b7ff2b6990ff2bcd44ff2c5f19ff2b9396ff2c3125ff2c7ab9ff2c3f5bff2c71aaff2cd3bdff2c7fb9ff2c0379ff2c7fea
def PERF_HASH_OFFSETS.c54 : Nat := 0xff241039ff2441d8ff245157ff244003ff2472caff24600aff247004ff248424ff24a4e7ff24ad35ff24d792ff24c000ff24e536ff24ea00ff2504c2ff251354ff2545b7ff253959ff254aadff25481cff256402ff257381ff257053ff2591bcff25c512ff25b9d5ff25d2dcff25cd8aff25e2acff261519ff2620d3ff2600a4ff263ff3ff2642a0ff265965ff266ef7ff2683a3ff26bf11ff26c1c0ff26d226ff26cd84ff26c87aff26df40ff2704deff270ce0ff273149ff2742f6ff2736a5ff27607dff2753b7ff277681ff2791b3ff27d300ff27bda9ff27df96ff27bc9aff27e0bfff282010ff284f07ff27f548ff28733bff281d0cff285ec3ff281edd
def PERF_HASH_OFFSETS.c55 : Nat := 0xff207f49ff206cd2ff20b0d9ff20691aff206642ff20b26bff208ad0ff20c676ff20fdf8ff20d716ff210f9cff20eb55ff210db1ff211e3fff213629ff213a81ff217d7fff213d89ff21667dff217d4aff21867aff21a37fff2194ceff21b683ff21d3f6ff21b63bff21b6b2ff21fe19ff220110ff21fc55ff2235beff223139ff22362bff223cbbff22599aff226f9cff227fadff229c60ff22aa3eff22ae09ff22b58bff22ae1aff22d4b1ff22cb45ff22e98aff230135ff22f2a6ff23052fff231a6fff233a9eff234891ff2368a6ff23734fff2368aeff2397dcff238d04ff239a47ff23c771ff23d2c7ff23c132ff23d065ff23e460ff2409e3ff241519
def PERF_HASH_OFFSETS.c56 : Nat := 0xff1c801cff1c8ddeff1c78a9ff1c7849ff1ca0adff1ca05bff1caf22ff1cd449ff1ce482ff1cdf2eff1d125eff1ce74dff1d0a0cff1d1470ff1d4430ff1d2cfaff1d8039ff1d4813ff1d4da6ff1d6e1cff1dd03cff1db42aff1ddf9dff1d8ca3ff1df050ff1da114ff1e0247ff1e4f1dff1dd3d5ff1e62cbff1e70e2ff1e3ec7ff1e7127ff1e713cff1e6084ff1ec28aff1ea39eff1ee259ff1ef07aff1ec785ff1ec180ff1eff3fff1f1ef3ff1f2111ff1f220cff1f4a01ff1f3831ff1f5eb8ff1f4c47ff1f715dff1f8f22ff1f74a2ff1f9598ff1f8df9ff1fb6cfff1fc56bff1f9f11ff2021e4ff203235ff1fc9bdff203cd7ff201e55ff201ae8ff203a35
def PERF_HASH_OFFSETS.c57 : Nat := 0xff18ff4aff193509ff19512dff18f1ccff18939eff195c46ff19927eff19708aff196b35ff191b37ff199ec7ff19b013ff1995c3ff19bc87ff19ddf1ff19b297ff19ec4aff19380cff19c1caff1a053bff1a2cd0ff1a4d30ff1a5f72ff1a217bff1a2ad7ff1a306bff1a125eff1a632fff1aa81bff1a8e22ff1a9f28ff1a53e1ff1a5942ff1ad0a6ff1a9101ff1aceffff1aff5fff1af029ff1b20d1ff1ae012ff1ae4a0ff1b23d6ff1adbc0ff1ae832ff1b2454ff1b4c7dff1b4fb7ff1b442dff1b7d67ff1b74f1ff1b9eadff1bc3aaff1ba4d2ff1b9659ff1b9a9cff1bc65aff1bd789ff1be872ff1be107ff1beab8ff1c1003ff1c17caff1c2f3cff1c4664
def PERF_HASH_OFFSETS.c58 : Nat := 0xff14ec22ff14d3e3ff143f01ff14d127ff14f289ff1526edff1583b6ff14bee5ff1541deff157d0bff158d5fff157301ff156c79ff1592a6ff15f338ff15970cff15c122ff15e722ff15aee5ff155dceff15ab35ff1570d4ff166032ff15dbbcff16816fff16906dff164a12ff169de4ff16fdcdff16f55eff167e9cff164fefff170042ff17117eff17218cff171c9cff172d54ff17515aff17372cff178452ff17221fff177d32ff17b2ccff16fca5ff17d49bff1793adff17b8cbff1787b9ff17450dff1810c6ff1843cdff1843b5ff182c09ff183d22ff1836a0ff18472dff18c605ff186792ff18b42aff1883b8ff18ac74ff18e227ff189cb2ff18f048
def PERF_HASH_OFFSETS.c59 : Nat := 0xff11153fff10fe64ff110bf5ff107b80ff1116daff1151fbff11858dff10f24dff11570aff10d2ffff11534eff119e6fff11f2a0ff11d035ff11cdc3ff110322ff11832bff11fed4ff120d99ff122584ff124bbbff126415ff127415ff123309ff12582fff127df8ff126494ff12c36fff128849ff1271eeff127af9ff12900aff12c395ff124c08ff13358aff134407ff133d69ff1327cdff13372fff1370f7ff12be0cff12f2afff138976ff13c25fff136f41ff12ee57ff1381daff13a727ff13d6caff13d45aff1421a0ff13f39cff13f426ff1397caff143793ff14328cff140ba9ff14541aff145182ff146088ff144233ff14826fff14deddff14714a
def PERF_HASH_OFFSETS.c60 : Nat := 0xff0c4a21ff0cd4daff0cd18aff0cf518ff0ce1d4ff0ce3b9ff0d4d2fff0c9dd4ff0d6b57ff0d7d98ff0cf95fff0d8852ff0d851dff0d50faff0dcecbff0d6f9cff0d6fbaff0dc1e7ff0dd1aaff0e06fbff0e19cdff0db1f2ff0e2493ff0e34e7ff0de105ff0e5402ff0ea221ff0e6329ff0ee591ff0e524dff0e73e8ff0e538bff0e81feff0e91b1ff0ef7b4ff0ed298ff0f03efff0f0315ff0ef3aeff0f009dff0e94faff0f66c6ff0fb502ff0f747dff0f4198ff0f9417ff0f811fff0fdd50ff1024b3ff0fd430ff103327ff0fe24cff0f5f39ff0f9543ff106160ff102395ff0f936dff10689fff10a1e4ff10733bff10ae7cff10a930ff10a4b4ff10923a
def PERF_HASH_OFFSETS.c61 : Nat := 0xff092cdcff09121dff086247ff094565ff097efcff098466ff090232ff08a3b2ff0982b4ff0969a7ff09186cff08c018ff09cc5eff09be62ff09cdd6ff09a4afff09d5abff09cafaff0a5d39ff0a6293ff0a65b3ff0a0192ff09bd89ff0a7231ff099f5aff0aa507ff0ab528ff09e488ff0a1cf8ff0a95afff0ae09dff0acd72ff0affc7ff0b42b4ff0ab146ff0ad26bff0b2e33ff0b51a3ff0b25d0ff0b745fff0b6e31ff0b689bff0afd85ff0b5299ff0b604aff0b5d14ff0bf0f6ff0b2a62ff0bfe7dff0c1135ff0be47bff0bf617ff0bc257ff0c0443ff0bb405ff0bc8b8ff0c812fff0c32afff0c5274ff0c4479ff0c708aff0ca936ff0ccd1fff0cc796
def PERF_HASH_OFFSETS.c62 : Nat := 0xff05158eff04e338ff054607ff04d7cdff04897cff050876ff058486ff056f79ff05b17dff0584c3ff058411ff05d6ecff05e5d2ff053039ff061ee9ff053898ff060223ff0549b6ff065dc9ff064682ff067e66ff063f5aff0662eaff06739eff06bd07ff06d8ceff06cd31ff06d4e4ff066cf3ff06d218ff06e2e7ff073564ff073dddff07573aff07665aff0647bfff07666fff078e66ff06de88ff07bd4dff07bca6ff07c43cff0712a0ff0751a9ff07c2abff07873cff0721a3ff0723c9ff0845aaff07b469ff0806d1ff07aac9ff07a98cff07731dff07bb13ff08b61dff08bf9bff087e47ff083b74ff088f0eff08d60fff08f663ff08f551ff08c726
def PERF_HASH_OFFSETS.c63 : Nat := 0xff0102f8ff015284ff016f08ff0145f3ff017a44ff0153cdff019392ff0082f1ff01a6f4ff0108e2ff01f053ff017a25ff01652fff020fb8ff01f686ff01c71eff01ac24ff0223feff026f72ff027c7dff0265d5ff028d8eff0183e4ff02973bff019ab4ff02c4edff02d2eeff027e3dff01ffebff021008ff029441ff023f08ff029d1cff03569eff035469ff02e40bff0370cdff038eecff037ed3ff033a76ff02a2e3ff03a601ff037b27ff03d630ff03b08cff0403c6ff042d04ff0441eeff03b802ff043644ff035a6bff03be2aff042d26ff042f91ff03a5deff04889aff04a330ff044382ff048d10ff0425ceff04a8b3ff04e5fbff05189aff04f0c1
def PERF_HASH_OFFSETS.c64 : Nat := 0xfefc3730fefc64f8fefcd44bfefd76dcfefc9ee5fefc7bf6fefd729cfefcceb8fefdb45efefdc1f5fefded51fefd9f78fefcdfd0fefdd46dfefdd018fefddfe5fefe4ed3fefe2460fefda182fefd69eefefe5726fefe7609fefe10abfefe5ee6fefdcee6fefea63cfefed55efefe8067fefee740feff0405fefe2cb6fefe8ca0feff0fbcfeff2615feff54d6feff6cedfefea438feff906cfefeb85bfefed2c2fefeeae1fefef883feff3512feff2205feff9afbff000ed1feff4e50ff0040f1ff0034aeff004412ff0036f1ff0074dfff0066e5feffc91afeff711fff00b0a3ff005f77ff00c859ff00e6f2ff00bf0bff002c94ff00cff0ff004fc2ff00f485
def PERF_HASH_OFFSETS.c65 : Nat := 0xfef91707fef95098fef95ff9fef91b1cfef8ac50fef9675cfef93987fef88b90fef89098fef8ef13fef96bc3fef8cb43fef9ff44fefa048afefa07dcfefa0570fef9c744fef9d30efef9cb52fef95aa8fefa6784fefa7810fef9b5cffef9b69cfefa4605fefa1bcdfef9c885fefa6014fefaf5cffefb1e51fefa04a8fefa8328fefa4528fefb3755fefb5667fefa6130fefa804dfefae48dfefbb3d5fefb332cfefb0722fefabbf4fefbe117fefad57dfefbca06fefb1743fefbb9d8fefc238ffefb80d1fefb93eafefc35adfefc7afdfefbd2befefbb7b5fefb81ccfefcbd54fefc5996fefbc887fefcd468fefcb8eefefbd830fefd16e4fefbf3f6fefccf61
def PERF_HASH_OFFSETS.c66 : Nat := 0xfef5027dfef45076fef55d69fef53394fef5449efef529f7fef4e019fef5abeefef5970afef5477efef5de8bfef5a08ffef5c246fef5e7bcfef5c8e8fef5818efef616acfef5402efef53caefef5e4a0fef5a64bfef6506cfef608e3fef64740fef69776fef61ad3fef5e946fef6754dfef6c3dcfef6a96efef725a0fef6c9cdfef7160cfef6ff8afef6e4cbfef746d1fef77fdafef7539afef7950afef7138afef7a71dfef7b7b8fef73cbdfef7a152fef7f4e0fef7c122fef7e348fef7df6cfef7f016fef83787fef7cf97fef7f08cfef86832fef867b2fef81594fef89839fef8216efef8a65cfef8c772fef8d7aefef8e7f4fef845b8fef8d117fef88dd3
def PERF_HASH_OFFSETS.c67 : Nat := 0xfef117d6fef1012bfef110cdfef0e41bfef0c2c0fef154c0fef1263afef17521fef1852efef0ce47fef1b80efef1a166fef12eb3fef1c22afef1760efef1e1c3fef11d92fef145d9fef238a8fef1e6ecfef2319dfef22b71fef27872fef21402fef2990efef245e1fef27a65fef2a056fef26299fef27ae1fef30838fef2e1aafef328effef31428fef337d1fef357eefef39049fef385a6fef36597fef348a7fef397f2fef393fefef3b83afef3ad3dfef3c40afef3e6a9fef42758fef389b1fef435c1fef4512efef466d3fef3d6c5fef36badfef3b576fef49e98fef3fec3fef4b2ddfef4d9b9fef4ea52fef42c49fef500b4fef3f07bfef49553fef52f11
def PERF_HASH_OFFSETS.c68 : Nat := 0xfeed1817feec36e9feecb520feece381feeca62afeeca2e1feed251ffeed4b80feed3402feed028bfeed2411feed33e7feed7518feed79e8feeda4defeedb723feedc631feedb405feedb250feed8710feee41e3feedcfddfeee0a4ffeedc885feee43f7feee32bbfeee0fe9feee5447feee9a7efeee5321feeea675feee56dffeee721ffeee8f37feeec135feeed25dfeef1afdfeeeb5f2feeef542feeef24bfeef138cfeef060ffeef787cfeef4481feefb0fafeef3360feef74dcfeefb7e8feefa30efeefa2c9feefe637feefc441fef0195cfeeff403fef002dbfef09772fef04632fef081eafef0b8ccfef052f0fef041adfef0aa0efef0745dfef1170d
def PERF_HASH_OFFSETS.c69 : Nat := 0xfee85fbcfee8d889fee925e4fee8671dfee92fcdfee98f9bfee97921fee98b4afee8efe3fee94674fee936c4fee9c7cbfee975b0fee91438fee9e488fee994d4fee9dc78fee92034fee93d95feea357cfeea44d5feea51d1feea8677feea37defeea478afeea9452feea2389feea65aefeea6e46feea5417feeabcb2feea8448feeaa3a0feead7fefeeb37b9feeaf6bcfeeb56f5feeb05b9feeaab01feeb3761feeb5b5efeeab2e2feeb030cfeeb74e0feebb22cfeebaa78feeb2ef0feeb27dbfeec34e1feebec67feec24d1feebc498feeba80afeec182bfeec27d9feec264dfeec84d4feec566ffeec7b2bfeec65d2feec55eafeecc167feecd1f5feecc8dd
def PERF_HASH_OFFSETS.c70 : Nat := 0xfee4c94afee49476fee49303fee5205cfee4c2fcfee4d4ecfee5516afee5263afee4f307fee53545fee4f5e3fee4f769fee519a9fee56599fee595defee561ebfee566c7fee5c586fee59814fee5d54dfee5c49bfee6053efee63cb0fee5e30afee5f282fee625b2fee67d80fee6545dfee69c98fee673cffee6a946fee6b7e2fee66579fee66dabfee6da6efee6a242fee7070afee6a092fee6e46cfee7145afee75c43fee759a9fee70ea0fee754d0fee7d7e5fee79924fee7bcdefee7e151fee728e7fee72fe8fee838a7fee75836fee753a0fee842e9fee83caffee87568fee898c8fee7f307fee8c81cfee877edfee88754fee84866fee90850fee883fa
def PERF_HASH_OFFSETS.c71 : Nat := 0xfee06823fee031e3fee07140fee0b6abfee0a8bcfee0b8a8fee0c936fee0ca88fee0f50cfee135dcfee1461dfee1479efee15787fee1ae1dfee166cffee176affee19534fee1b495fee146cbfee1d5fafee1d691fee1c4a1fee1e64efee1b270fee1f3c3fee2375ffee21370fee266e2fee1fc37fee23708fee285f1fee2745ffee2dcf8fee2b530fee2d68afee2a1fcfee256c3fee3058afee2e4b6fee34858fee35c0dfee2dadafee344bbfee2fff6fee344d3fee2e2a6fee364e6fee39555fee3f27efee37801fee34df9fee3982dfee3b25cfee3f53efee44fa1fee413c9fee45ac2fee3e961fee4127ffee479b6fee419aefee4366afee4a8adfee42434
def PERF_HASH_OFFSETS.c72 : Nat := 0xfedc22dcfedc2e5dfedc30c8fedc4df0fedc6db1fedc661cfedcade3fedc85bffedc9007fedcc4c5fedcb165fedcce36fedcd262fedce09dfedcfcfefedd068afedd1036fedd4c7ffedd4625fedd4cb1fedd6cf7fedd6a00fedd7904feddac46feddab37feddbca5feddd419feddcbe4feddfcdefeddf6cefeddf7fefede050dfede42cdfede3b4bfede4d10fede6ccefede7c00fede7660fede9b8bfedea529fedea4dcfedeadbffedee7a1feded559fedf1a34fedf21c1fedf3266fedf4267fedf5018fedf3cc0fedf33c7fedf803afedfa398fedfab1bfedff81cfedfe3b1fedff4dffedfe0d9fedfde51fee009cbfee05648fee056b7fee08768fee063af
def PERF_HASH_OFFSETS.c73 : Nat := 0xfed8532dfed87c1cfed892f1fed8b647fed8c3f8fed8a22bfed8adaafed8f36cfed8c0e6fed8e888fed8faa4fed90a35fed8f010fed900dffed920dbfed954fafed94721fed96a31fed9a61efed9728efed9910ffed99795fed9884ffed9b801feda0398fed9c02ffed9dd57fed9f4b2fed9f063feda16b2feda2170feda269ffeda3cf1feda3f09feda4c42feda4f17feda5f86feda7ed1feda93e1feda97c8feda9fd3fedaaa51fedaceeafedade22fedadd2ffedb072bfedb14fafedb1a80fedb3b94fedb2004fedb3eadfedb410efedb5368fedb74d5fedb8045fedb8002fedba6a4fedba000fedbb61afedbd6bffedbd9d3fedbfb42fedc13b1fedc0002
def PERF_HASH_OFFSETS.c74 : Nat := 0xfed4748ffed4857ffed4a724fed4f956fed48f6efed4abfcfed514f0fed4aa5efed5174cfed5462cfed524f7fed57668fed5888efed52a6ffed53cbefed5973dfed52f98fed5daadfed5855efed5993efed5c792fed5abe3fed5927bfed6155ffed62632fed68233fed5ee29fed60b0bfed645f3fed657fafed676dafed6768bfed6807dfed677b5fed6e722fed696d1fed69871fed6e670fed6e37efed6f4e3fed7240ffed716a1fed6bcadfed74663fed75573fed76581fed7754dfed763e2fed7746efed783defed786dbfed75447fed7e681fed7e7d0fed7e688fed7b8adfed7f4d1fed7f656fed7fa82fed7f29efed84510fed82814fed87511fed8422b
def PERF_HASH_OFFSETS.c75 : Nat := 0xfed0de36fed06649fed15fc9fed05be7fed16733fed12ceafed165b0fed1b8cdfed1bf0bfed17ec6fed1dddcfed1d005fed1c36dfed1e69efed1d0b0fed204ddfed11deefed17a3ffed1fc3ffed1f8ebfed209eefed276e2fed23a81fed19651fed28532fed26bfdfed2b5d7fed278fefed265a2fed2bf71fed3065dfed2a3e4fed3037ffed2a68dfed2b689fed27320fed2c5e8fed2e734fed315e0fed2e55cfed2f90efed2ec80fed2f27efed32404fed2db0cfed385cffed31128fed3971afed3b63cfed3b6f1fed388f4fed3c73afed41adcfed3abe4fed3f3c8fed3812bfed3da68fed3d7acfed40993fed448adfed465cbfed44583fed477abfed4583e
def PERF_HASH_OFFSETS.c76 : Nat := 0xfecca6eefecce90afecd483ffeccf92dfecd45f1fecd52d5fecd52d3fecd88f2fecd1ff1fecda839fecda68cfecda331fecdb469fecdd63efece0899fece16cefecd3865fecd5611fece1134fece6502fecd9e0cfecd6ca8fecea550fece73d5feceb585fece1992fecdbc15feceb4dbfeced96dfeced626fecf1483fecf2ff3fecec390fece2253fecf54f0fecf4956fecf9151fecf2cacfecef6d9fecfb5dffecfb32bfecfb604fecfa298fecf0488fecf8013fed005bcfed00831fecff5a9fed01953fecfb84bfed05499fecfd4c5fecfd7c6fed09569fecf7b1efed0ae05fed0a859fed0b623fed018eefed0c676fed0f31dfed0e87efed1133ffed04337
def PERF_HASH_OFFSETS.c77 : Nat := 0xfec902adfec944f1fec96719fec90ecbfec8fe33fec888f6fec93c5efec95221fec8f747fec9c401fec947b7fec9a2e0fec9b2e0fec93661fec9e74afeca36a6feca06b5feca02d0feca3a47feca365efeca599afeca838bfec9dc51fecaa3b2fecabe95feca83a7feca7cacfecacc63fecac401feca7018feca625efecacd72fecb3251fecaa88efecaeac9feca83b0fecb57e6fecb42d6fecb794dfecb3a31fecaaf68fecb59c2fecbc7c5fecba2e4fecbe7b0fecbc10ffecc0751fecbb9f9fecbdbe3fecc154afecb924afecc47d3fecbe774fecc2b34fecbded4fecc83f0fecc5942fecc35c3fecc9909feccb457fecc9fdcfecce831feccd284fecd141a
def PERF_HASH_OFFSETS.c78 : Nat := 0xfec51731fec4ebb3fec526e5fec4e6bffec51db6fec5437dfec5770bfec4c7c7fec5b342fec56bd1fec5b961fec5b5a1fec58b88fec5c2b8fec5e5d2fec6144ffec62764fec52655fec5e886fec65776fec5e698fec62d3dfec6771ffec5aa0bfec68599fec696a4fec61d39fec6c68afec60682fec6ae58fec722a1fec6f612fec6bc16fec75417fec6fb57fec7232ffec75a01fec742d2fec73adefec7394afec6aba7fec76edafec7a6b9fec748eefec75c17fec79a77fec72a42fec808ecfec7a85afec72282fec73c29fec7e763fec7cf0cfec856d2fec82969fec87799fec8b4acfec83220fec8d404fec88db2fec8f49bfec8d692fec8d43bfec92516
def PERF_HASH_OFFSETS.c79 : Nat := 0xfec0ca4afec12a17fec0f708fec0d293fec16802fec18faafec134b2fec1074bfec15ef6fec1c102fec13571fec15d3bfec1e6e8fec215c7fec22479fec187a0fec240defec229b2fec2293efec1b84cfec247adfec21f40fec288ddfec1c875fec2a988fec23892fec1e46afec2df77fec2f457fec24f64fec31f7ffec2b492fec319dafec2de64fec23813fec37538fec2f747fec357ecfec39e99fec327cefec35d90fec36bdefec2bfe4fec3f587fec2dde6fec33f70fec33487fec3cbdffec434ccfec40341fec3ef01fec3544cfec446b4fec476e2fec477a7fec488dffec48748fec4b7cefec4a5cbfec4796bfec4b172fec4d68efec4e609fec4f6d1
def PERF_HASH_OFFSETS.c80 : Nat := 0xfebcf38dfebd453ffebd48f8febd7949febd7fc7febca6a9febca920febda62ffebd4822febdb9a3febdd582febcd8bbfebdac9efebd69a9febe2f09febd30ebfebd535efebe56c7febd4a2bfebe6f13febe3823febdb211febe4a84febeb5eefebec677febe29fffebe17f7febe37a2febf0625febeb065febe16dafebe6411febf450afebe957ffebe3b0afebee4d5febe71d9febf8472febf19a6febfbd4bfebfb4e2febfda18febf1e05febf60a7febf4ce0febfd8adfec0152bfebf4e72fec04cbdfebf8d0afec06ef5fec05cddfebffc01fec09ca6febfce7dfec06e48febfbae2fec0b846fec0578cfec09e99fec0da0efec05352fec120a0fec094c0
def PERF_HASH_OFFSETS.c81 : Nat := 0xfeb8c6d8feb95ebbfeb84c83feb9788dfeb8f9b3feb98fe4feb97e81feb98b11feb9c72afeb8e3cafeb9627efeb9d458feb9dbf7feb9e0f3feb9fbf7feba1b26feba41edfeba59d7feb9d49ffeb99fc9feb9b3b5feba5739feba9f8bfeba6386febaa87cfeba038efebac566febae5e8febaaac9feba571afebac1eefebb11fafeba9357febaba22febb100afebb80b8febb9102febabf64febb88d0febb3280febac176febb8d07febaf59dfebbf56bfebbb931febc1a5efebc15ecfebbb877febc43b7febc5760febc606afebb6c9efebc6937febc6aa3febbcc5bfebc77fffebc8405febce2d3febcd6b1febca9c9febce7eafebc3422febbf71efebd18a5
def PERF_HASH_OFFSETS.c82 : Nat := 0xfeb54a86feb4629afeb4878afeb4bca3feb4f9f0feb50aa8feb4ccacfeb58200feb4b0d2feb518e7feb5c923feb5bcdffeb4d93cfeb5e9eefeb5e52dfeb5272ffeb52333feb56378feb5807efeb5f281feb68c94feb67994feb66a52feb6afb9feb6c685feb5fffdfeb681c8feb64518feb6932afeb7064bfeb6d549feb705cafeb73f8afeb6ae71feb76f1efeb6578dfeb719d5feb702cdfeb6a9e9feb6cddffeb7c5b3feb6bfd9feb74059feb7453dfeb6eafcfeb80fb2feb70a55feb83d54feb7dbe5feb7ef50feb86b48feb82326feb7b713feb88e12feb8affffeb8bfd1feb8c6c4feb8040afeb8e4d0feb8e700feb7d692feb87e8afeb9031bfeb8aed5
def PERF_HASH_OFFSETS.c83 : Nat := 0xfeb129d5feb07918feb0ddbefeb122e9feb18ce4feb12452feb1a1ddfeb10354feb1bf30feb1dcdcfeb0f41efeb0e780feb210e3feb10686feb1b0e5feb15d64feb24cd1feb15695feb1f9c0feb27e3ffeb1d34afeb26be2feb2100efeb1a4bdfeb260d0feb2138ffeb1b85ffeb294f3feb29a3efeb2b4a1feb32099feb2688cfeb22d80feb2b9a0feb25fa3feb2eec6feb30278feb29a31feb290d9feb2ab34feb2e744feb349ebfeb2d498feb3f134feb3fd85feb32a57feb3c685feb34ba2feb3ae7bfeb45134feb344b2feb36fd5feb42555feb41b54feb38367feb3affffeb3a864feb3c708feb4c9d9feb44461feb4dc97feb4c075feb44b4afeb4ead7
def PERF_HASH_OFFSETS.c84 : Nat := 0xfead29bdfead3899fead097dfead7e46fead8695fead8d41fead9f62feada6c4feace477feacf54afeadebb9feadd707fead55b4feade9defead6101fead0db5feae347dfeae4fe0feae5efffeae36cdfeae87a0feae67f8feadd891feae9a9bfeaeb60cfeadf01cfeaee64afeae22fbfeaed91dfeaf065efeae3a92feaf2598feaec007feaea922feae8f19feaf591afeaf1de2feaf0090feaf8870feaedb48feafc026feaedf3bfeafc887feafe5cbfeafdabefeaf1a03feb01592feb026ccfeafe2c5feb05017feaf58c5feaf6dbbfeaf582ffeb07954feb01767feaf8155feb0b5f3feb0b8d7feb0c8a8feb02869feafd588feb107c7feb09906feb00c7d
def PERF_HASH_OFFSETS.c85 : Nat := 0xfea8df10fea913bdfea96152fea90eddfea98071fea91a5bfea89e56fea9781dfea9aad4fea96f40fea9ba5dfea97b73fea9c975fea9eb73fea9e860fea93e0efea96951fea94122feaa6774fea9feb2feaa5bb9feaa9802feaa8994feaab115feaa7b07feaaac42feaae7affea9dddefeaae9c2feaafa74feab178ffeab3839feab1b4dfeab2b74feaa8238feaa63d6feaa5a4ffeab5c94feaad29bfeabc25cfeaaa1e9feaadd82feabd6defeab093afeab8f01feab34cdfeabf474feac31ddfeab61e3feac1906feac6ba4feac780dfeac75c2feac51e5feabe70ffeac9b4afeac3a04feabc96afeac0d18feacf422feacfceafeac12c5fead31b6fead0a22
def PERF_HASH_OFFSETS.c86 : Nat := 0xfea53669fea4ef1cfea5112afea54981fea4fcc0fea4e129fea53f86fea54d32fea5aa5ffea5aa70fea56ac4fea555bafea54378fea57757fea5bea1fea566c4fea53f6bfea5c741fea5eac4fea5574dfea61d34fea62eb0fea601eefea66437fea69a72fea64615fea6a71ffea6b7c0fea62c24fea69a61fea64610fea6cf73fea70714fea69845fea6eaeafea73815fea733bffea75823fea7680ffea74f4dfea7874cfea76efafea6bea9fea7d921fea7d018fea7d88dfea81594fea7ce37fea731e1fea844e3fea7eb4cfea82c9cfea84720fea82f20fea88a08fea84f81fea83727fea8987ffea81f56fea8a3befea85c53fea88816fea8facdfea89756
def PERF_HASH_OFFSETS.c87 : Nat := 0xfea04e6afea02c0dfea14be7fea1394dfea05117fea18620fea18b46fea12e07fea1aa08fea1b91bfea0b22ffea18f38fea0d1bdfea0f23afea1fc93fea22f48fea158a7fea1dbaafea25682fea24c1bfea220a2fea26978fea29694fea27924fea28e2efea2701ffea2a6e0fea2db8dfea2c475fea20ff2fea31751fea2cfe2fea213a5fea318acfea2fff0fea358a7fea333f5fea36cbbfea2a9f4fea28b92fea37431fea3c56efea3bb5efea393d3fea3f4aafea3ce95fea40a61fea3f888fea3de4afea393fefea37caafea45a99fea4747efea43063fea47a2efea43f23fea461c9fea4b9e7fea42da4fea4cb14fea4589cfea4d714fea4c067fea46ba4
def PERF_HASH_OFFSETS.c88 : Nat := 0xfe9cf21bfe9cdd86fe9d298afe9ce8a7fe9cf66afe9c7f3efe9d6975fe9d17cffe9d31c9fe9d8576fe9da845fe9dcbf3fe9d751dfe9ce065fe9d14b0fe9de3b3fe9e1c82fe9deffcfe9e00e9fe9e23b6fe9e21c1fe9e1bacfe9e53a5fe9dd79cfe9e18f1fe9e7238fe9e940efe9ecca7fe9e669ffe9ed8e0fe9f1737fe9ee49ffe9f3623fe9ee368fe9f2911fe9f4a17fe9f7584fe9f46fffe9e82e3fe9f645bfe9ed8b1fe9fbc75fe9fbb4afe9fe85bfe9fa1ccfe9fc5e6fea00cb4fe9ff9cafe9f99c4fea01439fea05894fe9f79acfe9f7132fea03ee2fea096dcfea01a2bfea098dbfea0c668fea0d6f7fea0e72efea063e6fea09bc2fea0fbf1fea0c5db
def PERF_HASH_OFFSETS.c89 : Nat := 0xfe98e24ffe98db86fe992b20fe98d815fe990caefe986cf7fe99558ffe99676efe9949cefe998420fe996ce6fe994885fe99b0d6fe9978d9fe998080fe9a0d23fe99b71afe9a03ccfe9a1433fe998806fe9a5bbdfe9a5a14fe9a427ffe9a7b49fe9a83defe9a718ffe9aa8affe9a7b37fe9ab434fe9abf94fe9ac259fe9a7b99fe9af4cffe9ac858fe9afc60fe9b38e4fe9b4a46fe9b30e6fe9b41a6fe9b64bcfe9b5dbafe9b8487fe9afc45fe9bc978fe9bc7e2fe9b86a3fe9be857fe9be523fe9bde92fe9c0455fe9c3c92fe9c3a3bfe9c5c42fe9c3219fe9c16f2fe9c8afffe9c9c6afe9c46effe9c47b2fe9c9023fe9cb3a7fe9cf799fe9c962bfe9cbf00
def PERF_HASH_OFFSETS.c90 : Nat := 0xfe946669fe9450fafe948793fe94985ffe9488b2fe94d75dfe94e6bdfe94c1fafe94b02ffe94d707fe9508defe953643fe952861fe954551fe955568fe9535d8fe9536aefe95796ffe955d2cfe954f2ffe95b513fe95b848fe96088bfe95986dfe95d246fe9628b1fe95fc13fe96270cfe967747fe964473fe969814fe963a78fe968835fe9696e3fe96c676fe96b786fe96e7a2fe96c5dbfe96a49afe96f588fe9718b4fe9727e7fe9738e5fe976912fe978be5fe9744cffe975596fe9797c0fe97b876fe980650fe97d90ffe97e994fe97f724fe97f6a9fe982cbffe97f837fe983963fe988663fe986cb0fe986a17fe98a276fe9815affe988a86fe98bd3b
def PERF_HASH_OFFSETS.c91 : Nat := 0xfe904236fe911741fe9067d8fe914c1bfe9169fcfe90dc94fe9188e3fe918a62fe918a60fe917002fe917eddfe910924fe91b2e2fe91d7f9fe915c9efe91984ffe91ccdbfe919814fe91ed08fe91b8fdfe91a3fbfe921b01fe91736efe91e135fe9207b7fe924855fe92955afe926ae9fe9257fdfe926627fe927727fe9297b2fe92a7f3fe92b604fe92b865fe92c3e1fe92c9cffe92a9a2fe92ca3bfe92c9f8fe929924fe92a869fe934677fe9317c4fe933600fe932d29fe93552dfe934abffe9375aefe93a761fe93a84dfe93a45ffe93d747fe93d6f8fe93c9d9fe93f840fe93c8dafe9418ddfe93fb9dfe93f777fe941109fe942bdafe942800fe944918
def PERF_HASH_OFFSETS.c92 : Nat := 0xfe8d3d59fe8d1b14fe8ca806fe8d5b88fe8d6994fe8c6c36fe8d8bacfe8cd09dfe8d1a78fe8d42f8fe8dcb11fe8df073fe8df6f9fe8da2fdfe8dec1bfe8dfa33fe8e1c72fe8e46c6fe8e4a88fe8e7a0cfe8dad74fe8e416dfe8d8258fe8e9b38fe8dd99ffe8e9b67fe8dfd11fe8ee518fe8ef738fe8dec94fe8f1d46fe8eb7aefe8f2ad0fe8eae0ffe8e616ffe8f2631fe8e972efe8f3346fe8f580afe8f9aeefe8f8b1cfe8fdb61fe8fbdb0fe8f2d7efe8fff8cfe8fc590fe8ffad7fe9024d0fe903f09fe8f77effe905f19fe8feff3fe9059cbfe905a87fe9068e5fe90a6ecfe909bb1fe90858dfe8fd900fe90a68bfe90b5d9fe90c67ffe90d760fe9126e3
def PERF_HASH_OFFSETS.c93 : Nat := 0xfe8885c0fe88485ffe88c8e8fe888e0ffe88cdbbfe88cd56fe895038fe8980cefe89c42afe88beebfe896447fe89f14ffe88d571fe899c80fe89c67cfe895778fe8a4692fe896830fe894dfcfe896a9afe8a03f9fe89ab8dfe8aa004fe8abc72fe8abfe7fe8ad585fe8ae4dcfe8a329dfe8a0249fe8b11c0fe8ae9dbfe8ad57dfe8aeb36fe8b52c3fe8a87c5fe8ab012fe8b7572fe8b41d6fe8b4260fe8ad236fe8b8470fe8bab5ffe8bb4acfe8bd71efe8b399efe8b8ce7fe8b0d1cfe8b2e7afe8c2a45fe8c1c53fe8c5709fe8c493dfe8c39e8fe8bce85fe8c55acfe8cb724fe8c8205fe8cb7e0fe8cbc60fe8cf475fe8bd6dcfe8c356ffe8d0a1ffe8d2619
def PERF_HASH_OFFSETS.c94 : Nat := 0xfe85464bfe845d18fe84d7dbfe84e6eafe850a4efe859c64fe84b6c3fe857ea3fe84dd24fe85e20bfe85ee4afe858ec3fe859546fe8577b8fe857c44fe851f39fe856763fe865216fe865a83fe861dc2fe865ea8fe86a0dffe86ae07fe85cd0cfe859011fe86dbcefe863a00fe86fdeefe85d353fe867a37fe869ba1fe86bba7fe865641fe872524fe87702ffe86ded4fe868702fe86916afe867697fe8708befe86ca48fe86db04fe87ae6dfe86c343fe87f5e7fe878111fe883124fe8751f7fe878487fe873adcfe88084afe87ef6dfe88054efe88694afe878395fe87bc2ffe88832efe881b70fe8838c5fe885ee7fe87e631fe885fdbfe8806c6fe8815c4
def PERF_HASH_OFFSETS.c95 : Nat := 0xfe81145ffe809832fe805948fe80fe8cfe80a664fe81a144fe807044fe808143fe80bdb9fe80d5aafe81351ffe80f3abfe80f236fe8216e3fe822f5afe823f13fe81fd3ffe813e68fe826c39fe822589fe81ae89fe829703fe82a114fe82bd98fe81bffffe828e47fe81bc19fe821ae9fe830686fe832107fe832da5fe824819fe825a63fe836095fe8234d9fe837deefe82858cfe826fa1fe82b91ffe829f3ffe834b35fe83c517fe8326a3fe8396e5fe8319edfe84213cfe8378e0fe84395ffe834458fe8454f0fe842a44fe843139fe83eb87fe839c9efe843e05fe83a42afe839809fe84b56ffe8484f7fe84365efe83e258fe83ee9dfe843351fe8536a4
def PERF_HASH_OFFSETS.c96 : Nat := 0xfe7c84bdfe7c729ffe7c68d5fe7c491ffe7c9b98fe7d9dc0fe7dacd2fe7c806dfe7cd104fe7ce913fe7d95f8fe7cf0f5fe7dc7eafe7d385afe7d28adfe7d8742fe7df2ddfe7d61f5fe7d502afe7e08a1fe7e85dbfe7d6f0ffe7eaf02fe7db92efe7da114fe7e0e4ffe7ec421fe7df703fe7effc9fe7e100dfe7e0af5fe7f265afe7e750efe7f4f42fe7f6b63fe7e5868fe7ed0fbfe7e6f2bfe7e733ffe7f724afe7eeba7fe7fdd71fe7f4a03fe800006fe800fc2fe7f4708fe7ef663fe803b2dfe7f1870fe7f85d6fe806c15fe807d40fe7fa3a8fe7fe75cfe7ff8e0fe7fba0afe7f9f03fe8037bbfe80c99afe80ff02fe80c081fe802afefe806781fe813bb4
def PERF_HASH_OFFSETS.c97 : Nat := 0xfe78eca5fe788b24fe78a765fe78e8adfe78866efe795085fe78fcf1fe788f85fe78c0fcfe78d2c9fe794199fe78cd0dfe7957bafe79853cfe78f17afe792cdefe79948efe79c2aafe79649dfe7a4ff4fe795ffffe79c2e0fe798bbefe798eebfe7a3321fe79d4f3fe7a1eebfe7a5fe8fe7a6bc5fe7b07affe7a3584fe7a3834fe7b52dcfe7aacfefe7a88edfe7a7f72fe7a567afe7a9e75fe7ba95ffe7af484fe7a936afe7b0c99fe7ad3affe7aded9fe7b01d2fe7b0e98fe7c2da6fe7c1238fe7ba572fe7b616ffe7b391ffe7b9b72fe7bfb64fe7c9633fe7bace9fe7b96c2fe7bc4a5fe7cd010fe7bdb92fe7bc865fe7c4848fe7c698dfe7c6897fe7c4c32
def PERF_HASH_OFFSETS.c98 : Nat := 0xfe742c61fe745f29fe746e18fe74a4f0fe74f7e3fe749772fe75108dfe74cccbfe75444bfe74ac18fe74b0ccfe74ea20fe75a483fe74ef06fe753647fe75d2d9fe7577ecfe75a9dafe75554ffe759c11fe7579d3fe75797efe7591bbfe75b915fe75a77dfe7630c9fe75ded8fe76a5b1fe76396efe760754fe7626a1fe7635e4fe762da2fe769a23fe767f52fe7690a3fe767965fe76f1d7fe76733ffe772855fe76b4e8fe76a21afe77b3b3fe76eb41fe7754e6fe7787e5fe76f663fe7755bafe77228ffe773419fe781dfffe7770bafe780bfffe77669dfe7814c9fe781aa6fe77e905fe77cc3afe77e629fe77cebafe77dafdfe7817bdfe780661fe781c8c
def PERF_HASH_OFFSETS.c99 : Nat := 0xfe7030a6fe704c38fe714c7ffe70c790fe71917ffe706019fe711800fe70db46fe70ddb6fe7188f2fe70c7fafe7107ecfe710d9cfe70e8e5fe71d486fe714e88fe711a5afe71c03ffe718769fe716a03fe715eb6fe71a61cfe718d47fe72aa99fe7298a5fe727af1fe71e320fe7259fdfe71f4f7fe720d18fe721addfe7316bbfe728081fe72ad14fe723da2fe72ca23fe7281c5fe72cfc2fe72d768fe72a4f3fe73cc42fe72b720fe72f0fdfe72de60fe72d141fe732b41fe73d164fe7322d3fe73b808fe735a1cfe73bbf4fe74043ffe7412dcfe74358dfe742bb8fe73d8fbfe746271fe73c537fe74154ffe74626afe74446ffe74553ffe74ebe8fe74ac5f
def PERF_HASH_OFFSETS.c100 : Nat := 0xfe6c78cdfe6d2fc5fe6c69f4fe6c6d7cfe6d28a4fe6ccb8efe6cdcfcfe6cb3defe6cb132fe6ca3dafe6dac53fe6cc215fe6d6aa4fe6d7958fe6d4032fe6d5083fe6d2c84fe6dd63cfe6dda96fe6d5ce0fe6d8a8ffe6d8459fe6db6cbfe6e5a50fe6daa81fe6dff71fe6e9586fe6dc911fe6e2469fe6dea79fe6e25b9fe6ef34afe6e96d1fe6f2c44fe6e492ffe6e4ee4fe6e54d3fe6e8b36fe6f70defe6f29a2fe6f76c0fe6fdb33fe6f128cfe6f45ddfe6f7bf7fe6ef904fe6fb634fe6f8c8afe6f6112fe6ff020fe6fca1dfe6f8908fe6f8ca7fe6fbc09fe6ff1a3fe6f8443fe7056c8fe6fc5e5fe70045bfe70fd8cfe70da51fe702378fe7016fffe7038c1
def PERF_HASH_OFFSETS.c101 : Nat := 0xfe6882a7fe6961f4fe68d6b9fe691024fe688d2efe68a3c7fe68f5f8fe68c99ffe68ca17fe6943ebfe69ad90fe69b3d6fe68e75cfe690a13fe694ee9fe6952bffe69fa84fe694d2cfe6963b9fe694215fe696e77fe69981dfe69a36dfe6a4eacfe69cf1ffe69d023fe69e005fe69c757fe6a30d1fe69f853fe6a0b25fe6a1d95fe6a322afe6a2704fe6a4177fe6ad78ffe6aad84fe6a9a1efe6ae786fe6b0f12fe6b0ecbfe6ad425fe6ad414fe6b1d24fe6b0586fe6ae29ffe6b0f0dfe6b0117fe6b2a55fe6bef8ffe6b3111fe6bad57fe6b889bfe6b6155fe6c19d8fe6bbec2fe6b9f53fe6c0605fe6bb0d9fe6c6d81fe6c1d73fe6c3b65fe6cbb9ffe6c0ffb
def PERF_HASH_OFFSETS.c102 : Nat := 0xfe64544ffe655dabfe64f208fe64b7b7fe658eadfe649d40fe64fe11fe6526a3fe64e4b1fe65dee6fe6559b4fe65094efe6516bbfe64eea2fe65e2c4fe663ff0fe65ba87fe659927fe662bccfe654924fe660ddffe66206dfe65ac8bfe663985fe66000dfe66294cfe666493fe65eb28fe65e989fe668039fe66f3fbfe66b825fe664c47fe66cab3fe66d1c9fe6781b7fe666257fe66951efe674d2cfe6718f0fe669775fe66f42ffe67f213fe67a8e9fe66e245fe681e5bfe677b3afe673488fe6734b1fe673a5ffe67fe54fe67922afe67505bfe67c0d7fe67995ffe67ff88fe67c6a7fe681673fe681bbdfe67f9fbfe68098bfe68d3e4fe690e99fe68a512
def PERF_HASH_OFFSETS.c103 : Nat := 0xfe607adcfe60f199fe606b4dfe60834cfe614c14fe60a861fe609183fe612590fe609dc2fe60d415fe6144d5fe62029afe620d34fe6217b5fe6225cbfe6187c8fe61c66afe61b7c1fe61da4dfe61c218fe6161fcfe61df24fe62adc4fe61cc58fe62d0b2fe6248c8fe61b142fe62b620fe620570fe62bfc7fe62cdedfe62d65afe62cda8fe622894fe629f17fe637fe5fe631d3cfe62d18dfe632caffe638faafe63d317fe63bf11fe62c09bfe63aae1fe62d126fe632e02fe634bd6fe6300e3fe639caefe634533fe639797fe642d83fe63b806fe63a807fe63a1a5fe63f786fe64d2b0fe6405dbfe63d425fe640895fe64b411fe648858fe652e31fe648461
def PERF_HASH_OFFSETS.c104 : Nat := 0xfe5c8285fe5d5694fe5cc8ddfe5d211ffe5cbddbfe5d9bf8fe5c8b9cfe5dbb88fe5cd28bfe5dd603fe5dd685fe5de639fe5e05a7fe5d42f0fe5e3065fe5e2eeafe5e307cfe5de080fe5d95affe5d9b98fe5e7bc6fe5e9df4fe5dcefdfe5d8072fe5dd109fe5de918fe5e4593fe5e101cfe5ea4fbfe5f0815fe5e28b2fe5f3af1fe5ef2e2fe5e79d9fe5e502ffe5f28aafe5f8901fe5f9d85fe5fa9e4fe5fc15efe5fc4b5fe5f18b9fe5ed030fe5ee553fe600e10fe5eef2ffe603062fe603e9afe5f7513fe60531dfe606a0bfe5f7746fe5f5666fe60967ffe5fb6e9fe607c05fe60cf7afe6051a4fe60d61ffe6048b2fe611004fe611464fe60c904fe601250
def PERF_HASH_OFFSETS.c105 : Nat := 0xfe58d948fe5883cffe58f0a7fe590a6dfe58b462fe599a7cfe5893abfe596d17fe591f1dfe59b6d6fe59edacfe59ca9cfe58d9a8fe59a661fe5954eafe599b42fe5a4da4fe5937b7fe5a3e58fe5957befe5a04d0fe5a9be9fe59fa73fe5a153afe5acc81fe5aa393fe5a0266fe5afd64fe5a4c69fe5a6887fe5a6b51fe5a9784fe5b51adfe5a64fbfe5a7102fe5b4a63fe5ae2eefe5ab6dafe5b14d4fe5ab4d3fe5b368cfe5bb68afe5b16adfe5bfef8fe5bf686fe5b5908fe5c2d8bfe5bca14fe5b1241fe5b5d6afe5c7128fe5ba9a4fe5c0238fe5ba173fe5cacd3fe5b89affe5cd1c9fe5cae99fe5cf1eefe5cefc7fe5d102cfe5c6eddfe5d26a5fe5d405d
def PERF_HASH_OFFSETS.c106 : Nat := 0xfe554673fe555ac4fe556f4cfe557b58fe54b487fe55a07dfe55a643fe54ba65fe55d15efe55d5ccfe54ba8cfe55596ffe55678ffe557a91fe5630c7fe55cb2dfe55b348fe55a74efe55ebd2fe555cc7fe55afcdfe560801fe56b096fe56beabfe561efdfe56df17fe565711fe570019fe570588fe56f61afe566b31fe571c16fe570132fe5648f5fe56f5e1fe56966dfe578f83fe57a101fe5681b6fe56cb8ffe56a6ccfe570a7bfe56c282fe5705fdfe57acfefe57368bfe57c81efe583a8ffe57e087fe57bcfafe58718afe583e6efe584f20fe586d12fe5812c9fe588452fe585cbafe57c9a2fe57d776fe57f784fe583036fe588163fe581ddcfe593f9d
def PERF_HASH_OFFSETS.c107 : Nat := 0xfe5091cefe511053fe507727fe51385efe5192cbfe51414efe5146fcfe51c07afe50a426fe5122fdfe515823fe51b8eafe514bd4fe5162d0fe51f466fe522fe8fe5245cbfe5156a1fe51e80cfe527cfcfe528caefe528619fe52ae31fe51cd01fe52a9d9fe52d96bfe528696fe52f90efe51eeb2fe52a9c4fe532e52fe520d61fe5248c7fe52e519fe525581fe537de0fe538b5cfe528b84fe535aebfe53bfc8fe5371d9fe536828fe53ec7cfe5399e5fe53b2cffe52efdafe53101cfe53409efe544f54fe5439cafe536764fe53edbffe536106fe5395c5fe5427abfe53a540fe54703afe540ac2fe53cae7fe543a4efe542c40fe546712fe552cdbfe54185a
def PERF_HASH_OFFSETS.c108 : Nat := 0xfe4c4c9ffe4d4d59fe4c933dfe4d64e8fe4d89c1fe4ca9d4fe4c8881fe4d98e9fe4d48d5fe4dc505fe4d7bccfe4de58bfe4df4f1fe4e0d38fe4e15defe4e34befe4e0b08fe4e3a3cfe4e656dfe4e67d8fe4e858dfe4dd5a8fe4e95c4fe4ea51efe4e0672fe4dc583fe4eeb2ffe4efb6ffe4f0588fe4f0f4efe4e7379fe4f3026fe4f42e7fe4f4f20fe4ed6dffe4f6e4ffe4f3b46fe4f9619fe4fa02dfe4fb104fe4fc0e6fe4fd77efe4fe62bfe4fef5dfe500f9efe4fc605fe4f4a5afe503f83fe4fa42efe4f36fbfe506d2afe5032acfe508b5afe503a3bfe509e88fe4f9e1bfe501927fe5023b9fe4fe062fe50997afe50ae96fe51155cfe501322fe50d659
def PERF_HASH_OFFSETS.c109 : Nat := 0xfe487130fe483743fe48875dfe48a785fe499063fe4900cefe48ad70fe49c0d7fe499df8fe49563bfe48c7befe4979ddfe48dc2ffe4a208cfe4a3168fe497037fe499430fe498b8efe499183fe4a7bf0fe498152fe4a9690fe4a86bdfe49c9d0fe4a3b3efe4a89f8fe4ae79cfe4adb01fe4ae4dafe4b2189fe4a3ab0fe4ab71efe4a11aefe4b5116fe4b716dfe4a487bfe4b0325fe4b694bfe4ba190fe4b0871fe4b54bdfe4ad82efe4ad278fe4be512fe4bfbadfe4b8254fe4c2561fe4b67e3fe4c3425fe4c4efdfe4c645bfe4c75aafe4c3aa7fe4b9f4cfe4c8921fe4ca702fe4c7cd9fe4cdb19fe4cd493fe4cef0dfe4d066efe4c5043fe4d22fffe4d2ef9
def PERF_HASH_OFFSETS.c110 : Nat := 0xfe4449b2fe447609fe448317fe449035fe4491ecfe44cdcbfe44e5a8fe44a82cfe452334fe44fe74fe44ccb4fe44d401fe4520c4fe44f6fbfe4524c0fe453c9afe452785fe454eb3fe454661fe454285fe457755fe456e35fe4593f3fe45a226fe45bf25fe46a951fe45de87fe4624c0fe461841fe461c13fe46d11afe466482fe46417bfe464e43fe463337fe468467fe465abdfe469caafe467765fe46a216fe469954fe46a47ffe476dbcfe46cc98fe47456ffe474ad8fe471c28fe47387ffe47679afe474a3efe47f0aafe47b034fe475152fe47e21ffe47795ffe47c3c8fe47bcadfe47aa8cfe47caf5fe482159fe47d8bffe47f7aefe482898fe486dc1
def PERF_HASH_OFFSETS.c111 : Nat := 0xfe401c06fe405908fe407306fe404a2bfe40880ffe40610efe40706ffe40b0f3fe409000fe40f8cafe40dcaffe40c000fe412588fe410ddcfe40f000fe411d31fe411785fe412000fe4140b8fe4182f3fe41799dfe41a142fe41adf5fe41c88efe419552fe41cd30fe42002dfe420682fe41f1f5fe42220cfe41f18cfe420357fe4231b4fe4276abfe427625fe42696efe42583bfe426048fe42a6d4fe4286aefe42adfdfe42d82efe42d9bbfe42fb17fe42e69afe433918fe4340a2fe432b6afe434bbefe433ecdfe43a066fe43555cfe438172fe43a3f1fe4404c7fe43e216fe43bf44fe43dc01fe43ba0afe43fa44fe43e422fe443999fe442e12fe443bec
def PERF_HASH_OFFSETS.c112 : Nat := 0xfe3c5900fe3c25befe3c6b70fe3c507cfe3cb00afe3c8d69fe3c7c1efe3cbbbbfe3c9357fe3cb79bfe3d023afe3ccf18fe3cd32cfe3cf911fe3d4679fe3d571dfe3d6986fe3d4227fe3d364ffe3d61d4fe3d66f8fe3db5d5fe3d7a13fe3d9825fe3dcf4cfe3da8dafe3db90dfe3dc34dfe3dd651fe3e3266fe3e40f1fe3e1241fe3e1107fe3e6335fe3e5b2efe3e490cfe3e5851fe3e6650fe3e7c7dfe3e805afe3ea240fe3ea5aafe3f05fdfe3ed8dbfe3ef940fe3ee661fe3ef031fe3f0130fe3f1000fe3f2000fe3f3000fe3f45d5fe3f51bdfe3f60ccfe3f7000fe3f8749fe3f912bfe3fa678fe3fc6c8fe3fcbe0fe3fd170fe3fe031fe3ff130fe401eae
def PERF_HASH_OFFSETS.c113 : Nat := 0xfe3862f4fe385131fe384f0dfe3885aafe38547afe38b759fe387c93fe38d17bfe38b31dfe38be17fe3907befe38ef03fe38dea1fe392cb5fe3910b7fe391688fe3910dbfe39477cfe397608fe394000fe397b3cfe3983b0fe3973a6fe39d106fe39940afe39a72efe39e6a6fe39ee9bfe39db8bfe3a2af1fe39f155fe3a4acbfe3a4aacfe3a6be2fe3a7025fe3a7899fe3a59d6fe3ab0b2fe3a9e74fe3ad4abfe3ad0d7fe3aa352fe3ad54ffe3b09bcfe3ad000fe3b46b6fe3b407cfe3b005afe3b437cfe3b416efe3b3000fe3ba0defe3baff0fe3b93a4fe3bb646fe3b8fd5fe3bf0a5fe3bfe9efe3bfb4afe3bf667fe3c2dc7fe3c33d6fe3bf876fe3c2f84
def PERF_HASH_OFFSETS.c114 : Nat := 0xfe34545bfe346a4dfe3436a9fe3449c6fe348829fe346113fe34865bfe349695fe349597fe34ddbafe34ce92fe350361fe34eec8fe350cfafe34f005fe35316dfe354218fe3561c8fe359770fe358413fe355b4dfe35b64ffe35aa3ffe35941dfe35f3defe35de0dfe35bc87fe360730fe3624effe3600c8fe362720fe365747fe362b2afe3621f3fe365827fe365941fe366ec3fe366ee2fe36afe3fe36c102fe36dfa0fe36e057fe36ec95fe37167bfe3715f8fe36f65cfe372789fe374c2bfe371e30fe3743eefe374f07fe374726fe37757efe378e82fe3777fcfe37c83cfe379635fe37d49dfe37c742fe37fa55fe37ddbffe37e332fe3842a2fe380311
def PERF_HASH_OFFSETS.c115 : Nat := 0xfe301c3cfe302065fe303000fe304000fe3054c0fe306670fe309462fe3085edfe30987afe310691fe30b202fe30c066fe30d053fe30e9c3fe31344ffe310254fe31105bfe315489fe313000fe314775fe315000fe316000fe317047fe318000fe319000fe31a004fe31f357fe31c6a3fe31f60bfe3233c7fe31f000fe322416fe321109fe3220a1fe325543fe3240d7fe329b7dfe329c8bfe327000fe3281c2fe3291fcfe32a0c3fe32b0fdfe32c780fe32d080fe331b4dfe32f654fe330000fe334723fe335df0fe333000fe33454dfe3351bffe338ddffe33baaefe338757fe33b834fe33e371fe33b000fe33c1a9fe33f274fe33e64cfe33f7fcfe343462
def PERF_HASH_OFFSETS.c116 : Nat := 0xfe2c1188fe2c2396fe2c3148fe2c633efe2c7c19fe2c6142fe2cbec3fe2c8d57fe2c9126fe2ca000fe2cb3c4fe2cc0e3fe2cd806fe2ce4f1fe2d0efafe2d0933fe2d1000fe2d237bfe2d3000fe2d5250fe2d5000fe2d6000fe2d7025fe2d8126fe2ddde5fe2dbf45fe2db0e3fe2dc3b4fe2dd000fe2de36efe2df60bfe2e0000fe2e1b2ffe2e4717fe2e3064fe2e8740fe2e53f7fe2e6431fe2e72c2fe2e8000fe2e9000fe2ef030fe2eb0dbfe2ec000fe2edb98fe2ee006fe2ef430fe2f046afe2f1000fe2f2147fe2f3181fe2f4007fe2f8a7cfe2f67eefe2f7a47fe2f8a81fe2f9000fe2fa619fe2fb653fe2fc000fe2fd006fe2fe040fe2ff000fe300869
def PERF_HASH_OFFSETS.c117 : Nat := 0xfe2815f0fe285902fe2869a0fe2893dcfe285157fe28739dfe2873dcfe28c886fe2892a7fe28a000fe28bc36fe29119cfe28d36ffe28f7b3fe28fb7dfe290f30fe291415fe2922edfe2933effe294e9dfe29c03ffe29bfbafe29cbd1fe29efcbfe299a2cfe29b250fe29b668fe29c5fefe29dc34fe29e3bffe2a30b5fe2a0666fe2a1669fe2a2244fe2a3876fe2a5259fe2a56b1fe2a607bfe2a74a5fe2acc65fe2a9580fe2aa5d2fe2b1ffafe2b2f9dfe2ae258fe2b28aefe2af038fe2b55e3fe2b6275fe2b2148fe2b68b2fe2b4880fe2b5142fe2b617cfe2b7000fe2b89a8fe2b99e2fe2ba000fe2bb85afe2bc894fe2bd114fe2be690fe2bf4c3fe2c0bf8
def PERF_HASH_OFFSETS.c118 : Nat := 0xfe244bc3fe24218ffe243bb6fe244bf0fe245000fe246237fe247271fe248000fe249b2afe24ab64fe24b000fe24c856fe24d241fe24e052fe24f000fe250000fe251868fe2523acfe253242fe2549affe255867fe25bbb6fe259501fe258053fe259fdafe25a9b0fe25b14cfe2616f6fe25d048fe25e054fe25f216fe26067ffe261000fe262869fe263000fe2640b0fe2656dcfe266000fe2676affe2697befe2693ebfe26cf73fe26b343fe26fdedfe272b2ffe26e1c8fe26f705fe275be7fe272edffe272072fe273326fe274360fe275ac2fe276925fe277000fe2782f6fe27900afe27a198fe280dcafe27cc9dfe27d35ffe27e399fe27f924fe285f1e
def PERF_HASH_OFFSETS.c119 : Nat := 0xfe20170dfe202747fe203000fe204009fe205019fe206000fe2070f7fe20bd63fe209130fe20a67dfe20c6cdfe20cbe5fe20d175fe20e036fe20f135fe210882fe212e50fe213e8afe214ec4fe219dbbfe215113fe216000fe21705bfe218095fe2190cffe21a018fe21fa6dfe21c08cfe21d000fe21e621fe21f000fe22123dfe221000fe222000fe223035fe224113fe2279a2fe227f32fe2270d0fe229093fe229000fe22a35bfe22cceffe22c000fe2324b6fe22f1ddfe22f52cfe235d03fe23169dfe232038fe233981fe234000fe235000fe23604dfe23702dfe238000fe2390affe23a0e9fe23c10ffe23d149fe23d000fe23f248fe240282fe240c90
def PERF_HASH_OFFSETS.c120 : Nat := 0xfe1c1aaffe1c2912fe1c3000fe1c6208fe1c5946fe1c76fbfe1cb64bfe1c8fdafe1cb01cfe1cafdafe1cb911fe1cc1aefe1cf84cfe1d0a30fe1cf05ffe1d569dfe1d1144fe1d338afe1d335bfe1d4f02fe1d566cfe1d6000fe1d7c23fe1d855efe1d935cfe1db7a0fe1db3e7fe1e376afe1dd331fe1de2dafe1df331fe1e0e8afe1e6a28fe1e235bfe1e9620fe1eb3f4fe1e57b2fe1ec25ffe1e7655fe1e88dffe1ef27cfe1ea3acfe1ef339fe1f21befe1ed656fe1ef19afe1ef863fe1f1246fe1f17befe1f296ffe1f5b33fe1f8d81fe1f5856fe1f6812fe1fe1e0fe1ff2a7fe1fa245fe1fa5affe1fb95bfe202027fe202472fe1febc1fe200e0efe205d79
def PERF_HASH_OFFSETS.c121 : Nat := 0xfe181e35fe188942fe184f0cfe18472bfe188c33fe18dd33fe1881e8fe18df13fe18963afe18abccfe191669fe1913e5fe190cf2fe190918fe1914aafe190216fe1921f1fe196176fe193683fe194954fe19a9c8fe19a6a6fe197c98fe19f56ffe1a0ca8fe19e9d4fe19c881fe19ef08fe1a3549fe1a42eafe1a5021fe1a34e1fe1a1818fe1a5c59fe1a80b0fe1a414efe1ab0c6fe1a699dfe1a7722fe1add50fe1a982cfe1aa866fe1ab911fe1aeea0fe1adb90fe1ae856fe1af15afe1b4ad0fe1b4ab1fe1b5d70fe1b4ecbfe1b77c6fe1b5ceffe1b8f60fe1b7330fe1bbddafe1bede0fe1ba79efe1be223fe1c15d0fe1bd8cbfe1be05ffe1bf16cfe1c005f
def PERF_HASH_OFFSETS.c122 : Nat := 0xfe148d49fe145df5fe149247fe148e98fe14b116fe14dd6dfe14cb95fe148982fe14f291fe1509edfe14b023fe150293fe14f279fe14e651fe14f801fe15083bfe151048fe1537aefe1536aefe159018fe1590cafe15bdc6fe159f0bfe15ce86fe15d3c5fe15ddbffe15e589fe161d58fe16a00cfe160cfffe15f00afe164f89fe166136fe1661cdfe163a94fe1648f7fe165b52fe1677fbfe16aa44fe169422fe16a882fe171cc0fe16bc8cfe173d1bfe1724f4fe1700cdfe176df5fe173eb9fe178355fe1721f8fe177969fe177595fe1751aefe178866fe177455fe17887bfe17a0ecfe17e5b1fe17ec9afe17e669fe1849d9fe1839dffe184dd1fe182755
def PERF_HASH_OFFSETS.c123 : Nat := 0xfe1019c8fe1036a2fe10331dfe1045defe1054eefe106000fe10d217fe10cd66fe109000fe10a04cfe10b5b9fe10c5f3fe10da9cfe10e8fffe10f000fe110072fe111007fe117f94fe115974fe114fc7fe11602bfe117065fe1178fefe11e65efe11acc1fe11abacfe1213a1fe11c6d1fe11d131fe11e0abfe11f66ffe124d3bfe121953fe122000fe123c10fe129903fe125349fe12778dfe127081fe128f0afe12a0e1fe12a2c7fe12b79efe12ce77fe13315bfe13287ffe13564dfe135668fe1371affe132843fe1395edfe1348ccfe13ab58fe13aa8efe137afcfe13d6f3fe13c4a6fe13a21efe13b850fe141b07fe13d000fe143b41fe1405adfe1401da
def PERF_HASH_OFFSETS.c124 : Nat := 0xfe0c119bfe0c7dd0fe0c3141fe0c4868fe0c5bf5fe0c94adfe0cac87fe0c9772fe0cbea0fe0cb64efe0cb272fe0ce742fe0cde22fe0d03e0fe0d0ef9fe0d0718fe0d3570fe0d833efe0d3784fe0d882efe0d5877fe0d68b1fe0d8734fe0d837efe0d92eafe0da324fe0db628fe0dc203fe0de1defe0de752fe0df4b8fe0e0941fe0e146cfe0e6693fe0e3c85fe0e66e4fe0e730ffe0e7e09fe0e886efe0ee63ffe0e992dfe0efd69fe0ed0a9fe0ec13ffe0ed0cdfe0ee94cfe0ef1ccfe0f0000fe0f18befe0f2000fe0f3000fe0f4d71fe0f5000fe0f669bfe0f78fefe0fae8dfe0f9b7dfe0fa843fe0fb147fe100abdfe100a9efe101d5dfe1018befe101413
def PERF_HASH_OFFSETS.c125 : Nat := 0xfe086619fe087dc0fe083e66fe08497ffe08aeedfe08bc4ffe08d766fe08dec3fe08f95dfe08e9ecfe08c215fe08fc8cfe090a79fe0935e0fe08f8f7fe09053ffe0911b1fe092869fe095265fe094000fe09513ffe096179fe097000fe099061fe09e984fe09fcc7fe09b7eefe09c828fe0a284bfe0a3a65fe0a4e58fe0a5fdbfe0a6600fe0a7eb0fe0a464dfe0a5687fe0a5589fe0a9dacfe0a8e84fe0abbabfe0aaebafe0accecfe0ab96afe0af15ffe0ad13efe0b21bafe0afa81fe0b08e4fe0b1b3ffe0b29f7fe0b6a31fe0b92cdfe0ba0e5fe0b9dfffe0b7c79fe0bb99ffe0be4e1fe0bc0bafe0be712fe0c2780fe0beb1cfe0be1e5fe0c348efe0c0090
def PERF_HASH_OFFSETS.c126 : Nat := 0xfe0474d1fe048146fe049656fe049610fe04b39ffe04c2d2fe04cd30fe04e830fe04cd8afe0502aefe050184fe04fea6fe05010afe051144fe053a09fe05419ffe051a66fe055a89fe0539a2fe055f60fe05aa8cfe05781afe05e180fe05e451fe05e567fe05fc27fe061755fe0633d0fe0625c7fe064857fe066441fe062b57fe0637fefe066b9dfe063180fe06a367fe06a916fe06684dfe067bdafe06b18dfe06f5bafe070466fe071434fe07242dfe073772fe071d2dfe074a51fe075d92fe076138fe079439fe07988cfe07a7a5fe07679dfe077eabfe07d052fe07ec21fe07fb03fe07eccdfe07b2cffe07f5f3fe081e09fe07f189fe081535fe080000
def PERF_HASH_OFFSETS.c127 : Nat := 0xfe00214ffe003000fe004000fe00527cfe006000fe00778afe0083a9fe009000fe00a5effe00b02afe00c000fe00d71cfe00e000fe00fb39fe0108acfe011000fe0120e3fe013ffefe014000fe015000fe016448fe017000fe01bdb2fe01cbe4fe01a000fe01e644fe01c053fe01d66bfe024d82fe01f0e0fe020798fe0217d2fe022bb5fe0270d3fe0240a6fe02515ffe026199fe0271d3fe028000fe02971dfe02a757fe02b13efe0325ecfe02d62bfe0316c0fe035013fe033dc7fe0314eafe032524fe0380e0fe038ffffe03724afe039adafe03d8bffe03ef82fe03d27cfe040668fe03b1bafe041b1bfe03d7f9fe0443b7fe040746fe0465d5
/-- src/hash_offsets.rs:1-1026, `PERF_HASH_OFFSETS`, 8191 entries of 32 bits -/
def PERF_HASH_OFFSETS : PackedArray :=
  { len := 8191, bits := 32, logPer := 6, chunks := (.node 64 (.node 32 (.node 16 (.node 8 (.node 4 (.node 2 (.node 1 (.leaf PERF_HASH_OFFSETS.c0) (.leaf PERF_HASH_OFFSETS.c1)) (.node 3 (.leaf PERF_HASH_OFFSETS.c2) (.leaf PERF_HASH_OFFSETS.c3))) (.node 6 (.node 5 (.leaf PERF_HASH_OFFSETS.c4) (.leaf PERF_HASH_OFFSETS.c5)) (.node 7 (.leaf PERF_HASH_OFFSETS.c6) (.leaf PERF_HASH_OFFSETS.c7)))) (.node 12 (.node 10 (.node 9 (.leaf PERF_HASH_OFFSETS.c8) (.leaf PERF_HASH_OFFSETS.c9)) (.node 11 (.leaf PERF_HASH_OFFSETS.c10) (.leaf PERF_HASH_OFFSETS.c11))) (.node 14 (.node 13 (.leaf PERF_HASH_OFFSETS.c12) (.leaf PERF_HASH_OFFSETS.c13)) (.node 15 (.leaf PERF_HASH_OFFSETS.c14) (.leaf PERF_HASH_OFFSETS.c15))))) (.node 24 (.node 20 (.node 18 (.node 17 (.leaf PERF_HASH_OFFSETS.c16) (.leaf PERF_HASH_OFFSETS.c17)) (.node 19 (.leaf PERF_HASH_OFFSETS.c18) (.leaf PERF_HASH_OFFSETS.c19))) (.node 22 (.node 21 (.leaf PERF_HASH_OFFSETS.c20) (.leaf PERF_HASH_OFFSETS.c21)) (.node 23 (.leaf PERF_HASH_OFFSETS.c22) (.leaf PERF_HASH_OFFSETS.c23)))) (.node 28 (.node 26 (.node 25 (.leaf PERF_HASH_OFFSETS.c24) (.leaf PERF_HASH_OFFSETS.c25)) (.node 27 (.leaf PERF_HASH_OFFSETS.c26) (.leaf PERF_HASH_OFFSETS.c27))) (.node 30 (.node 29 (.leaf PERF_HASH_OFFSETS.c28) (.leaf PERF_HASH_OFFSETS.c29)) (.node 31 (.leaf PERF_HASH_OFFSETS.c30) (.leaf PERF_HASH_OFFSETS.c31)))))) (.node 48 (.node 40 (.node 36 (.node 34 (.node 33 (.leaf PERF_HASH_OFFSETS.c32) (.leaf PERF_HASH_OFFSETS.c33)) (.node 35 (.leaf PERF_HASH_OFFSETS.c34) (.leaf PERF_HASH_OFFSETS.c35))) (.node 38 (.node 37 (.leaf PERF_HASH_OFFSETS.c36) (.leaf PERF_HASH_OFFSETS.c37)) (.node 39 (.leaf PERF_HASH_OFFSETS.c38) (.leaf PERF_HASH_OFFSETS.c39)))) (.node 44 (.node 42 (.node 41 (.leaf PERF_HASH_OFFSETS.c40) (.leaf PERF_HASH_OFFSETS.c41)) (.node 43 (.leaf PERF_HASH_OFFSETS.c42) (.leaf PERF_HASH_OFFSETS.c43))) (.node 46 (.node 45 (.leaf PERF_HASH_OFFSETS.c44) (.leaf PERF_HASH_OFFSETS.c45)) (.node 47 (.leaf PERF_HASH_OFFSETS.c46) (.leaf PERF_HASH_OFFSETS.c47))))) (.node 56 (.node 52 (.node 50 (.node 49 (.leaf PERF_HASH_OFFSETS.c48) (.leaf PERF_HASH_OFFSETS.c49)) (.node 51 (.leaf PERF_HASH_OFFSETS.c50) (.leaf PERF_HASH_OFFSETS.c51))) (.node 54 (.node 53 (.leaf PERF_HASH_OFFSETS.c52) (.leaf PERF_HASH_OFFSETS.c53)) (.node 55 (.leaf PERF_HASH_OFFSETS.c54) (.leaf PERF_HASH_OFFSETS.c55)))) (.node 60 (.node 58 (.node 57 (.leaf PERF_HASH_OFFSETS.c56) (.leaf PERF_HASH_OFFSETS.c57)) (.node 59 (.leaf PERF_HASH_OFFSETS.c58) (.leaf PERF_HASH_OFFSETS.c59))) (.node 62 (.node 61 (.leaf PERF_HASH_OFFSETS.c60) (.leaf PERF_HASH_OFFSETS.c61)) (.node 63 (.leaf PERF_HASH_OFFSETS.c62) (.leaf PERF_HASH_OFFSETS.c63))))))) (.node 96 (.node 80 (.node 72 (.node 68 (.node 66 (.node 65 (.leaf PERF_HASH_OFFSETS.c64) (.leaf PERF_HASH_OFFSETS.c65)) (.node 67 (.leaf PERF_HASH_OFFSETS.c66) (.leaf PERF_HASH_OFFSETS.c67))) (.node 70 (.node 69 (.leaf PERF_HASH_OFFSETS.c68) (.leaf PERF_HASH_OFFSETS.c69)) (.node 71 (.leaf PERF_HASH_OFFSETS.c70) (.leaf PERF_HASH_OFFSETS.c71)))) (.node 76 (.node 74 (.node 73 (.leaf PERF_HASH_OFFSETS.c72) (.leaf PERF_HASH_OFFSETS.c73)) (.node 75 (.leaf PERF_HASH_OFFSETS.c74) (.leaf PERF_HASH_OFFSETS.c75))) (.node 78 (.node 77 (.leaf PERF_HASH_OFFSETS.c76) (.leaf PERF_HASH_OFFSETS.c77)) (.node 79 (.leaf PERF_HASH_OFFSETS.c78) (.leaf PERF_HASH_OFFSETS.c79))))) (.node 88 (.node 84 (.node 82 (.node 81 (.leaf PERF_HASH_OFFSETS.c80) (.leaf PERF_HASH_OFFSETS.c81)) (.node 83 (.leaf PERF_HASH_OFFSETS.c82) (.leaf PERF_HASH_OFFSETS.c83))) (.node 86 (.node 85 (.leaf PERF_HASH_OFFSETS.c84) (.leaf PERF_HASH_OFFSETS.c85)) (.node 87 (.leaf PERF_HASH_OFFSETS.c86) (.leaf PERF_HASH_OFFSETS.c87)))) (.node 92 (.node 90 (.node 89 (.leaf PERF_HASH_OFFSETS.c88) (.leaf PERF_HASH_OFFSETS.c89)) (.node 91 (.leaf PERF_HASH_OFFSETS.c90) (.leaf PERF_HASH_OFFSETS.c91))) (.node 94 (.node 93 (.leaf PERF_HASH_OFFSETS.c92) (.leaf PERF_HASH_OFFSETS.c93)) (.node 95 (.leaf PERF_HASH_OFFSETS.c94) (.leaf PERF_HASH_OFFSETS.c95)))))) (.node 112 (.node 104 (.node 100 (.node 98 (.node 97 (.leaf PERF_HASH_OFFSETS.c96) (.leaf PERF_HASH_OFFSETS.c97)) (.node 99 (.leaf PERF_HASH_OFFSETS.c98) (.leaf PERF_HASH_OFFSETS.c99))) (.node 102 (.node 101 (.leaf PERF_HASH_OFFSETS.c100) (.leaf PERF_HASH_OFFSETS.c101)) (.node 103 (.leaf PERF_HASH_OFFSETS.c102) (.leaf PERF_HASH_OFFSETS.c103)))) (.node 108 (.node 106 (.node 105 (.leaf PERF_HASH_OFFSETS.c104) (.leaf PERF_HASH_OFFSETS.c105)) (.node 107 (.leaf PERF_HASH_OFFSETS.c106) (.leaf PERF_HASH_OFFSETS.c107))) (.node 110 (.node 109 (.leaf PERF_HASH_OFFSETS.c108) (.leaf PERF_HASH_OFFSETS.c109)) (.node 111 (.leaf PERF_HASH_OFFSETS.c110) (.leaf PERF_HASH_OFFSETS.c111))))) (.node 120 (.node 116 (.node 114 (.node 113 (.leaf PERF_HASH_OFFSETS.c112) (.leaf PERF_HASH_OFFSETS.c113)) (.node 115 (.leaf PERF_HASH_OFFSETS.c114) (.leaf PERF_HASH_OFFSETS.c115))) (.node 118 (.node 117 (.leaf PERF_HASH_OFFSETS.c116) (.leaf PERF_HASH_OFFSETS.c117)) (.node 119 (.leaf PERF_HASH_OFFSETS.c118) (.leaf PERF_HASH_OFFSETS.c119)))) (.node 124 (.node 122 (.node 121 (.leaf PERF_HASH_OFFSETS.c120) (.leaf PERF_HASH_OFFSETS.c121)) (.node 123 (.leaf PERF_HASH_OFFSETS.c122) (.leaf PERF_HASH_OFFSETS.c123))) (.node 126 (.node 125 (.leaf PERF_HASH_OFFSETS.c124) (.leaf PERF_HASH_OFFSETS.c125)) (.node 127 (.leaf PERF_HASH_OFFSETS.c126) (.leaf PERF_HASH_OFFSETS.c127)))))))) }

end Pokers
