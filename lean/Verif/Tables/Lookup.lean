import Verif.Tables.Packed
/-! Generated by tools/gen_tables.py - do not edit. -/
namespace Pokers

def LOOKUP.c0 : Nat := 0x286d21a5703f4169405e2062702c41b7300820468023316470317002261029a727737055424d30e040c723db115322933187205221588008406d80097035202a4103317b304f3187705a10823128401d703f703f5003271c80527013105180212866700e204041a71005116f30364102304e703f23ad4161216b116a7019802d22ab3149307030204071803a702530dd7007286d239d700724c98007701a302c272c102540668008286d703130af700f801e2033704a215c8013419630ac10238006419123b6226880063070215c40b3306f801f2728803a703d271f800723a5802125e9800630e94150805230067033701a8052302a40138052802e413f8005
def LOOKUP.c1 : Nat := 0x130e800f216c800931bf22574080320a308c265626218023312970057062304610c7208c702d23cb8059700630ad801322df702d7002805930a2301f3159804b703424c841a7703f29d87019261027048044701e415631e7121031db200131e77002407d24c770268057500240a729c030ae7040406529c0302d4167318750043015271821a3271c2739701030b931a97042804b277c108e80087044701a302d11743067411b407d7005425530a5317080573039805140cb12062633803941b530ce416831548023226b40283129703270627028319f429530bd296e7061311b4295312930807062402d121041b0313431aa21a5275231aa121031aa1145804b
def LOOKUP.c2 : Nat := 0x701b13d280157056319d29627036264c21d430df411b20258021500323a8423a412542553104704913c913ba270d800741ef3195412413c920af3215705c21d220af8011801d31662768225b30f8400130a629fd42dd3022207823d4802340cc3005219e208270595007315a7007802c3046117328cc309a7008706d402e803e701140d1803e80571315702a70292aeb31b810bf11e2803a7008700d41b5417226395004302241737012135d25147040202b70453046306a4119701223dc30ab1301305b310331d030767029304431d17008208341008021317c22ac2a8f8024279c216d311250042050700731ff2afd273a2a992afd70152afd31b9314d31c5
def LOOKUP.c3 : Nat := 0x3243707470167004325d323d308c3165305d323d70267002202513257015255a31fd2a8c4034324f325f22f83189216b30a531c6701d317221852c0b11c120b032482a0441ac706f7046701230c730297046807a402a7033701e27504078801823d62306325322f641be702a30ae252d702d31ac41c213bb707440d28013271870672b0e4074706324f770637021306d31ba31ea40cc13d324eb302e702d2a0441c3702d805931422a042a042180807a31b4109a253670667032807a8032305e31244295300a8025277b11e3800a3194266f703510dc8009313e302a411b801830e230ca24ea31cb706d29fd8032215970672604800841a8803f42ea40383067
def LOOKUP.c4 : Nat := 0x2b2f426731ae2323147c800c411b70203050303b28cc20d2243026a92a10209b7068325570203253803321f9800c4403312b709b244b207d257d148e4174326a123814ec14dd7035702231d214ec31d220a714dd29e98030702614dc412c40d1260141cc706f410e70192c128059805a2792307732262c532652309f406b2bfa32493013701631f08045256d311028e210373045231f30ad41b03232263a7002130e408713c9700813ec4015704b325c308340874065328170023274143f21db8017143421e442a68001805a703e8066303a27573248805a23035003703d130f23d825512c2e31f470612426313321d5107470687010709080727063323d312a
def LOOKUP.c5 : Nat := 0x80647003409142b0244b4041259131d315a320a62591807f22087035417b20de4403701130b07028274580092570322a31ba431d702122ab2580433f70211311245e10d08009707b707b426128fa806227d5803c32862a052a1280262c2e30a3256c148d25885008701a805813c913f923bf20dd3016703e22873280317312f9301f7035707e412f705b30173162268014de8057231630ad702a707a15517079302a707a265a302f5002155215427027324470084199267428db7016702931be309b3285328d32314016328d701f328d323e10418021154920693215408740422bd320cd804d705b321780125004702630e2701640c830b1700a21308004801c
def LOOKUP.c6 : Nat := 0x3023302f702580568031700e40d0706913f6803d803e707d80662a32801440bf700e219d277b107670013194417341ce301724563033100d8005702280197022300b28dd233d707c2467802e70684042308f417c108880223232321a70407002801923b7319d707a30822ae070762a2b2b3d105a30a03226307d22062081706621f841ce15ca22127004103d15ee15ee15ee157641f63135328122ab245e402d305327e7707f42ae424470074092702c3017402c221226a13202417f4090407b305f2a2b2b2a3015806d31bb409030a22c2e31bb8040309b316724674174433f2b5d303b2708417f24673249703541ce27bd2329801830d7244c306822e026bb
def LOOKUP.c7 : Nat := 0x40578005300a701b31d3305c29fc21bd31e73044701121f5324b309942e9401c21f7703d30f9324b29c97034804d401429e5416113ed80642c6480183257269b323331f4106d32273257155380262b5d8046303b704b20e3246842eb310280587005300831d320e122fd803c807e42bb702125fc145b8026426b706531fd43092a3f153b253e2b5620de705b309730334308200928a0426170628067707920e830fb703f7070701d26a5705b23e020ad328d70447049707a206b80333082309521f37031806730d07034706a701b12ad232d701980858085152b50032469161a80373173161a314e161a40dd31a380673173220080a531f731875006706d7019
def LOOKUP.c8 : Nat := 0x147842fa3255707a3132308f320e29d5100123c070212b5d307d7029706a2431319432c02b2721882068301e31d2289b2727804a7017703641ed41108052706370288070152432cb2b1032b5704332bb802632a931dc32d532b5319d1073800841e9122a802422fd421d21568008702931a2329232c632d7245c31a1305d433f32332d36104f5005704732c0707e256615d832c040b3704728a725237027402b403d412780842c6032032b284118408131c532cb207930337022400831c6156c128d2b5d30a6440328e7802628da7050304f4108701630d715732b327016156e32573292267d42693233315a80a4706821da1184305031eb808b20e844037061
def LOOKUP.c9 : Nat := 0x3291804c42b5704732a224283011412e32fd33052d3a70047020309c136c32b6318c418830092800706d40cc119e315912862580703b705940c92d891210323332aa50022cdc800c2341800d28d1170b3048700a30b141d721ca801a4069302411fb2354703e26e2418f4119307830a8408e143a2932707931af4352323e27df70792932435240b33108206a305e300c317332f8324b31287076315a30143197705b303a3283235b704c8030425730232217300a706d2c872d3c4268251622ee80a23048329e2c2714b38026801a7026805b32aa23438016702c7040804731ad40ba32b632007017329e310c803f262a702f32cd321b41a5302e127d25f532f9
def LOOKUP.c10 : Nat := 0x702e409b306f236c25c9702d41d332ef404a4065804d4110323170142b5d40e7233c7055235a2d90330930d721b380257021302e31ec29e3801817807028303080622a6a41d842d2805b70282a6a417c3060306c3078243170633017324b301820b025a7308a32d720ee8027700e2567209710e626d5702d703a255c700b2241329f409c805727f1329f210d80812a63803442aa804032b740eb42bb5001253931d2706f26e980193043313f7020231d13ab2b19171f30b2435680a8312c42c070623054156c32c332f832b27033176817787014704741d8427532ab211541892496170c41f6322732ab2a6341d62ad22d8d43072a632a634125235e28c920d3
def LOOKUP.c11 : Nat := 0x703430a52db2301640148021701917ff1842412e27f7212011a91842701730ef3007330f330f330f224b705850027079801a27e427d6224b801a31b8316718263286314f16bd223d1778210c179b2b0d315c30694179223b32ab2469141f306721f1177f313843522c18307720e732c12c5a17fa24828027249f80a921da26cf24a0418980a625b750047035700131c8233a1722800d70123060700f2580256b23752559249a2d7e224a308b26f2237530843227329f804032cf2c41315a16d340d630a0410f7071419f25c426f4235d8014322531c82b952272330a26d531573304211630dd32f9326330c041d930cc29324351135e13ba3134226929b53221
def LOOKUP.c12 : Nat := 0x25942209318625cc42a6233c23062322703f404115cb120b42c6703e3015317427bd7086708170468041708623f3706f2943700a30d5438e7086251380243234305f205541112c99800d804c42ea323d315c21d231c7317b703e253329412242800d417e40de2a772b9e17fd800d405e317f14212376431332b72a172115703322412a3230b4806570177089321570852da630c642c3224b70897026404e7013273b318c80562a36417f325224a1325320024172322622be29324350700822005003412f322223b232c3404d155d301830b4233e2b0f8025703570212039702c41897032421941373203701530694102294b30d2705f2abf2a4f41cc70263305
def LOOKUP.c13 : Nat := 0x278c4070160c708970472cc78086209c702341852c1f24a14161705631e631d242f52172127441da18a918cd331641da18cd701518cd185329d2301f2a73702530a4705d305f2d2731bc42c3430f23752254400232ab205118b1707a700240f330f7500232e632342b90700f417e31db421d2cc832342a3e261170314255700a418924d12a3f24a92910707141d9427531372b42708b22004097805380133047409223d1807a224b262713d47031702825d330dd1882210c2c904397257f264e4033327b7087315b258d2b052db2438d207c211831bc2c9c706d2c7f23732cbf3240324020bf26a132403030324042767011326e3013417c276a2a6b2b4f323f
def LOOKUP.c14 : Nat := 0x70352943315143a531d4330730212588317d7021700f4111200a237618f8706529fd804b70013173404f808a2467708e312b31af7085315c80327041406c7029314e29152d2e70662a6418aa316c148e700421132b9e708841d92cbf30a8407d23d621db110642c38068807d404a2dae2255165a32aa136c707a435c23727083305b18f940c343147082704070852b69709722ba70107016702523fb32322d63112242ab31bb708621e58017702530c67064404f700a30a23164312d30b730ed434f417470442670708532b680702a384188324916152996801a29fd212a4303409e708870732943237f706f32b51553317432fb26fa32553106210418427020
def LOOKUP.c15 : Nat := 0x2b2f251b2c6328fa41592160422842ab26eb268e409e41984123295e2a8542f1300c2cbf1925405f105b800724a9303970793051701c80382b2840eb2543294c708526173015707b31eb320f700b2b8e25d3221a30d33257427632ab2241805a2b8f300b31cc2d59320d25b931747086294043997033700f2256804041ea2b98225641b524ab3101412f2256192627a943a7704b176a2cc13053212a4032212a324b320129fe30442101705333172209412516538027327b804d2b2f25c024a724ac23332bac8034802e216441b47089404a2db22a4b804511a6707f7045701625d7701619012b62303925d7219823db808b23ab301e24a5705f3050233e7004
def LOOKUP.c16 : Nat := 0x21ab800f207a2b58409b225842c42c5a804e700b40c832b53069217a25d62cd22376417d804d2b2f805a323c30c0805825b52a88317432b624ac205d703611cd407d315b248424772a75701b1317500670732290705920f84311222f13eb1549251f23e1800a306c418680923198403880928091809280a6297d500423fa403f23bb327c2b318030305c2c65413b15bc302e177028da707f305470133030404e416821a7805a8057407432342687707a408f32c143a12c2e2981212d703d2d852955285031404088800c300a436413ec107126f5701a703d202a1008408631bb30bf7029312627b2803b412a2b76315b409e301e803f22c220ae803d31df30bc
def LOOKUP.c17 : Nat := 0x28fa2381401b4119307841382b954197303c14cb20fd22b370642a3222e325c22a324016233b705526b480a8313725aa32b824de312742bf225632622dc1300b8026209e2419707c177880107087304610068004175a434870332b652cd613f88026704c324a303032c432c4300c704721ad28fa80a53220311429b930142dc4800d427841d827148007212b2dc5212b30d641a52dc34018418b331732b532aa292f29381549500731c822c22c1630374282802370288014701041a12255281631d43167704b21164402270127273024416932194087206d33177047316842c321c7192e323c15f929a722d5703d24a82937183b10021430800c11a816be129a
def LOOKUP.c18 : Nat := 0x2d3e31bb3258243080592cd221c2184d300b202e18492e613279708b8014294c17697081311433152a3b2449701731b0700c303b237c706d430440157018808e3367703132cd707f333d27632e68256f411b332d8062809232a0331070038085315c2c8d40eb425f40c2282d421d2dee70742e61145c2a2a3344331427de33383292707f3021231620d1207a31bc327a142542ca800a2cd080571767334f10b5808c211b26352953700b23cf30a4331f3001334f32a03191135a7031181d316832a02df331f430482aea2dc622f5409b1628802732283030806520ad4098129c2b5611d32c5e25e77016807e7031706d311e317129f040df7011401340c031fd
def LOOKUP.c19 : Nat := 0x70602e07800d3013703e338126022e62230d41ce23b63226333a40e132b825b8430a7024254a803a8089406532ac415f32ac80562dde23c580232e89800d191a70122c0b3338270b70524192418b40923346324c332a135e27e97029705f32f0709080a9801a3036211c301f32c410892c8770682d8470292b744308212a3317404280194065700e332d4130103f703e803212fd802e804e500740ed322e80a8249f70018085701b2dea8086334625914178804c2ea930963346707623d125cb32ac434830602dfc2dfb2dfc2e8d30fa30fc2003701831d370812e8d25642643708a2e8c32f78031334f2d6e31d44090302131aa24e62a363372336f2de94403
def LOOKUP.c20 : Nat := 0x1913237d329d282b702a2ee53090332f8047245d2ee62ee62ee62df824cb80593138706b326f15062a8180138058218070482266704831c62b7f2c8a306e40e07016312422503187412e2eaf5006178329fd7050703520bf80264090336b427842ea2e542c3741cc32da301525ce7067116f50033364331926b3409d324a409c333732f8207a333b20df705941797036439d309b32b7702b80991170708f42603256238132ac3388286d7063332f13d4308132b732d62c873280257942bb3168701a803330538041706f8083212b257610df2456233e700c27c87006410d802323d12eb7800d266770442eb5133970885003237514b6170d70164035330332cf
def LOOKUP.c21 : Nat := 0x41da192a3135179b230d325540ed4255212942d52eb4301341074342339333913336700c70577040262170352ae0158515e17021312b22c831b8316824ab801918325003801742c08072706e707a32c33077314f700c22fc417c706a305330d730967030323327422b2870244319800b3136128230132334705e332e101b8006709c2ea3113431293064806d3048703e417f700f804c4009701925cb310830d82ea9805b7048705c7026700f42692ee4435d210241cd2c1326623346216e8009311431d417fa40c916227063329430af205070182cd931c87085325b2c8733677010312930fa706232277065804a4003212a33397072333a2df229c370863228
def LOOKUP.c22 : Nat := 0x706f200532154092321840d6334631f742c230f43360203e32c370812eef800d4086700b2f143018130e435830b22f152f15280f10cf7086191f30f732b612bb13b9262724ac338841c3707b179b1103220931c5338b402470177019312a2b95708a2374707e302e30d53013703e301533777051805332aa2a35309b309b15d24172332f41b8332f2eee705c706130a72431313732c32468804c23ee700d801d22f01778329f421d31d0328029d824ac258831ff30d72b5832cf709b7030277470312381805b80182a1329d2808040cc24a93369805a32ce703470793293117233047035221129573171124d806d32f827e040e820e670664090329d312c2edd
def LOOKUP.c23 : Nat := 0x179a3300339331652434800c207a272c2a07323d21e3800c320c33712a813174807d33162e0240872b97701032be19037030189a337c3162806741da702033508073805e2c2e305d290a4051302d2ee5701a32344261107930ef181d404f267d30a6412550035007802d31612da521028027179b8098127a21db41102f1a429c22344136701f255a314b20f870233378430720e62b2f25023249315824a129e5701125062b952e7e29388040330e706f299510ef800970183330404b43b3306826162ee833242bae2f124160310e42ba179c405e802010b3255a701232f2805e25a9703113ec322f228f324020e832b729e54139705631b7332a704c700e2df2
def LOOKUP.c24 : Nat := 0x30058020708532f8303b709c306b4141703f3378325840d470093096148e266423f77082702070904124707e3042338e434e303b30d831f83046425770213232309c21f4701370862f02707133882c301805701d27a72a2b336c14db32c07008321c305c32ac80583224143e8026212a320420c0412b3313223a70682d893263700531c150012f1c24682772701e2b604229307726112ea2702332322c5a325670731647804c10b4320f317f3030256c29492adb30973280337632242874438e4228803b32d0706f310d7009707930dd3362702641a7314e701c33787003701833463016116a10c640d3329a337f30dc16c4330e2c852dc121ff122b40ed29b1
def LOOKUP.c25 : Nat := 0x3277435a100970078041705e2380705023a6708d707a334521e0800c801733042241307e22b5311f32d370243108703e4257294d30c331c7705b2839802221d1322833402ba33196808d41da700b807110d2292523ed700c700d40d6170970312e84417430b22ae032c3700c30d78059235b708b20e631b333232494412e80564189707b316540b843917054225632aa32fb320d300831eb2a567033332330ee2c5a7067707930b24208328730232a323069329e323423054097183b8041707432263048806d7021706321f820d531f52044415e703f804d224b707c2f1770712df92485416a701b247f324c323332ce80972518304e42a513f02cc8429b2a2b
def LOOKUP.c26 : Nat := 0x31d45001203d700e701828f823822a6e804a311f19262373320c29b52469707e30a829fe808c4401302b40ec1271338e702c4048432c16aa80864023500932e817be319533442029435b337670322cce126c25d33174704d707f702a241141da429b323a339f3219334f339e3251339d290b33483218326220e8705531a113702b04426c21eb2c158025700e335c7023142e41d88098323928297085322832822e83705327db245d4340249631bb42fb16674396204111b9800a2d8b70352bfd706032932ccb336533782e0232b2708432ac20de2c8332282189800a3215314d808215cb22402c8670487002703e308e703d31f87050316f288931f624aa701a
def LOOKUP.c27 : Nat := 0x2ba7709680823037182527af29c080303304419426b542b02eeb7028412d332e2b32319e703830a32dc070917092327a701b707e2d1629e97045705b806170183215221325cc5006701b323f321641a143c93172702c705b220819262a72315a702a2b2240e122e832ff805b706f800f332430b640df300d300c32042192807e70252240282c43b5704626cb7095801916e824ac30f933392a13700c2256404a31e9259440bb26a340df147527e1246642b6256a29a740e142a22a3b303a40ed7011315c307432012949706f43608058232b8059330a8082305415d43150257427c23018337841c98051335280165006809c2254229e30cb32f8170d41ce804b
def LOOKUP.c28 : Nat := 0x312b13d450012995192e4391403941792c9742c629e2701e701e700b2036704e3134252542d232e8700c7041709342ff30974087418b7080220e436070252256410342773226424d43a8705630822b143279700c30242593321c29fd300929ff7020706641b922562e6130d0436370027023316670982b2a2c592c8f308126f0330b20b03227403321368005702522c630f72d5931c5125f1492800c402c278343ab33232f0213e67033135e327943e42b3e43e6306c801943e6708d43e628a63136706270623277282d80532ad22320268625523014428180322b7580271929705f2256224b80a930fb803a27dd80144167282d31e7227528df31d1302326b1
def LOOKUP.c29 : Nat := 0x80742dea42682bac413a80a180337092418424a1245627ea8073240215cb2ac030fa18af418743b7800d43e5243042b08074706a806625cc417d7085700d703532487020308c2ccb2914709432cf2a723045304532803293700a805932d0706f100431af21af328270274098424d709580822b2870237071126115a280262dc1433e17592666439c18aa31c62d8425182c2f704641d612ac800b425d213b80067055300a30f640d33064803f101c806d416e2a04421c700b30644043709131af43ed807a4024402431f5500830245004403a29d828bf403817fa707a170e337b30f8409e2e972d362d62327032242ae82cd122f527e6329441702295160d42ff
def LOOKUP.c30 : Nat := 0x80584268703e8080809e7050336c25c929d241a5701a30d131bc409217827038708b3270700b28cc704a25c0316623c0702324a9708531d424fb326b809c136c32562a4b707d30a62883709a27275006708b41d57056246932813253707c15ef309c329f323f43e8706f429b328c3293418b409b140e800c7065259421d832e4306b31d243f6804b312b17da255c7075156e2a3a2db12bae700430f92a2b2cc441fb706f7063809b323d225542a2312c28dc3197706f312a808a152b31e032882a25331f22388059136c42fa424d4315311341878058409d701432482f0e805a179b166820b07046337242ea32ab2f1e2d8c800c22fb317a700c338432ac708f
def LOOKUP.c31 : Nat := 0x31dc308429ff335042ba704f211e33234305314a2bfd2b682c7b22303345335d70337079332c804e701f704424aa704032e5806630992696707a7001801d18263351705610c114243023332e1418707930ac2778106e259343a7249f30f8806d312a23d07062707c702a7063708032e7322820e7324a3006410022532cc47021702341cb2072411930bf2c3640e822112b284174268f8057708d43b32df9707b1266705c703412507091335232ce409d701170202b5630a4705e2b5727c82c0b430f337c318a30f9413c224142b5291342c73360329d43f52004701f31ac20dd323232fb707a708a181d30303215701120d543e332742f274276323120a7708b
def LOOKUP.c32 : Nat := 0x29ee416f7086304e32e5245f32c4704e706f267d314e2b4c3008322e201180324309211631c7232b30642439328742162ef330e12701708f808e4295265e421c709141733197315a700a22123204328b328f324b31aa43d82edd50042a0731373136702241cb32b731147015807d282c32c1809c41d67038304f18442e9080272815212a15cb31985009267612b8323c19044317436450072c53412e233430e34261808d4139332d70992591704f422440e131103227161d3333295b800932a8706626ca420d321070327088413931ba14ec70212cce706a26bf41cd322531b970181848242015bb80a4700f181d41ce22b0705b7004316741fe3210326e2a21
def LOOKUP.c33 : Nat := 0x2475701d20552b3e41da2b00701c3136260b703b707c3378322780a970752c53335b171d2bfe120c43a01803221315412d8731c72b0322b9707d40c83224708532332bec703f8013809930db2431226732572afd326f2ee1306e404f31f72b22328c7057232232342953409c4341707b70782a327064808231d3332370472818408524f5236318aa4087192441bc24682a2b26ca702d324b7083308e247931f8421d41fe15d0300822cb156c2039802210e7807d2c9670532c9d708732042c53305426f52430329e708515662b9e32f126e241d2700928f37052233e30cb228a701816f370372a82255a3198700a303c29ff7061136543f7265931ec4228302f
def LOOKUP.c34 : Nat := 0x430424272442331440ed4130705915fa70082c5a807f31bc707a701e332170227090322670882cb332c030de308f314f2334701730473348701a8072707312792f1d4316700280687045706a32cb224130ca32b5232a30f02eea33467048704f247c80273020704a161832f331703137808f50013053805b80753125324a30a52c902f24324032b641f0430470702254707b804d2df6708110ca325670127008806626592d67124a2b5623c4800925c112d432cb40ec221131e033542331249724ab702970332a647030237f32782db0156c22d832c12ba3707a706e30e1329d295731592e242c5a2a3270503312418b32332eec13e64400406541f83135409d
def LOOKUP.c35 : Nat := 0x2a3b2a654004404f801a2f212d362a254304306c29662a4a802733041848192d707733562954500131b4404820ca2d8530e42db120de2609312a282b26ed301611db32ec40748068700b31ec4312170d327542683045705e809f409e32d8809a702e224180312d7e42c1707f336c41c330d98084406c192f1566306a80342b973125805143ec2f1d2eae15cb3324245f123932b6709c32e28080302e290b243e21057020415941b7328132c350041347430440c327e0706d1072703841e820a7330541892b211118800970292df831722078411a701f312c15ee2a4f410124567005326d500818f928402a36801943ff41a650062c5e2238434342e480857034
def LOOKUP.c36 : Nat := 0x705c2783801a707e162030ae320321838010707a70172b8e409f338d42b01880331731d32cbc242e328d700b2a902b7513762082181e296f40c2165915dd3382248e4085324720f7802732e6708b8041323c805a4040261b2d802b6124173372701128ff3060435f32db21c218fb24e870317061808b50042925306843f72cd1701832f73227329f704f809c212f20af701d2ed82f262468284c42ba21a9802418ec40d531c840d47097404f2f1b2b2f703a3174259315cb80477055701d40cb809e43fd80412ed627162def70915003703c2d0111e7224012e226461863221141be2f0c22107070432b3050309a28f630842b7a705526ff3339116f251e2a63
def LOOKUP.c37 : Nat := 0x324c434b317232a041bf305e259315377003309770684087701712ca305f25d617444139808c40e670497092224a2e3f4349701642ff2a7c2de732ce303b3002320c41c2706225b87092324b30dc803c286d1549709630473168177843612a7831f731f870807007329a805b171b30d3321b803229572cc33117332e306a249f18482cd2326f4130211631b9418a13342dea321c2dc22c0028f93233700b11d65002295331a13316700e30a4335323837029430931d428ec25cb412a807030d2110a25e8309a226e41b9707930b330767034324c103c80074339335232b440367021403c8026300b41282ee931ea809b4130337c805b32047004326f70643180
def LOOKUP.c38 : Nat := 0x24145006203e258a42c07001417d705e703c24aa431515b6802c211631d229bd2ee2705518aa32ab324c404e4053703a220818a6329e8074322b8095407170852dbb161a700e42a6302314982dbe2c918051332d41253351701542a9708c282b413817fa804d7085801142f03004192a5003329c7048213c302b705c804d319c30475002184932cf2cbe3233702d436c7063171b31e032fc294743f8414f211f1421315c306b416614e38082705933048065334f32a030b231ec2db432b7225517f932e5707729a621c23016702580652a69318621207052325733392618703f408b20dc20a7701420e715ee70882cb31547305e2dad2c8123f2703a303a7059
def LOOKUP.c39 : Nat := 0x40e82a7828dd258030ca32b8225a3387292b4358427880752ea930a8805b2eab704a409e7017700a18aa41d9413a7055166523742ef224aa26bf41d7305123ba417d256b42762238339c700b321a329370418086333a8032337d322d242824ab2d85233b31042dbb704d702b412d7035116f2b2d320f7087315832282701401a211f25d631f32eaf41907059406c26b131ff1613701631fc419e2a7c26f725d7282222e723a525b12a6521ca3344413c701b7091439c2dbb80102baa31ae427740a027b170283374116f31c71185800a3248315b801528222cc470082c9a333a70092e8b2c88307332ce31e6806830172f1a171b3253337b8051425531bc3344
def LOOKUP.c40 : Nat := 0x70092bac31d4701680712ebb2acc33052cc132403081154931642d77703e254b435d7092222d11b628d450042241707941d0181d3201203e707730a4426a26eb709a324c25307021405b8006308240e83384255c3064435931b980152eba708610aa2281323f32582db342ab21fd330f338970297029409e4161706f7091303f2829200b70927084191a435925c031d42ad2803d301526ba17142ba0246932ed7006286d2a54701470537046282e26ac2c52301628982d7e3228317e2af617c1802720db333b32b732ee7070417b216a7012303a701d4033806840e02380301730782456303a428230e32b66317418b141c331bc315832f97091805243dd7058
def LOOKUP.c41 : Nat := 0x421c70782d857076708641cc18f6408727a52de530382ef77037704e276a31af310f2a7e40ed2dac3186707830a212b0800b305d32257098700530af301425cc20e73232408d2a82806740ab10bf23052a5c308c307030a57024189b3273181d43b440d64125704e2dc130d211ab303729bf700630e92353805241a032342625438e321b312022fd4400184930c870082dff40241925440313b83258129132b43099332a43d9282b330924f72d591349311230af32a0702931bc2c11212b21d22a087067273b30cf17ed159143aa30a418d2800d20393329206f80193258707b2bae233519047028701d333b704d705241c13166301d4212324612102330306f
def LOOKUP.c42 : Nat := 0x2b61804632172f2442bb701670614161421b41d830a6321625f32f1e706111d128af32342ccc70892082809b425e303f337b400a25cc805b804b42c0318331c8327732c370853248700d191f2a7332c42dbe16f42209802c801a302c706f41ce701f8018290240742b8732532b6028fe7031704880192a781210326c30bf806732a327827067108d2818706d70333168805231d2808f14ec70127002803d32487079312623f2706d2660410333472428801a18d725881849704e30bf2cc830f810523253300924ec300b31953173703b708531287097707f42fe808d701a801a338e264e43133375439231d2293f25d5330b24682800291380573291188d267d
def LOOKUP.c43 : Nat := 0x4036809c42763165706d33962c12166d802740ec20403228152627003021707b2b6b2f252b037079707232a040ad3288135c70332aeb43d841c2248c312c21e7800c32cb43b440ea3387306b282c31b921ff2b954229708225d5288822122b5680193337312b252d320a43d642fe40d232f316a818427035318c22d8168f4283331018a041d3700b188a27a7435932581210703a40c125cc40582c37312b701b413770662a7d708c13c92a3f701870147036212b422831d441b82f2e25912426305f701622a57079334810a221bf2380808f203a224b2de8437a42b912602ee8315b301831d32a77311f3128702c708c805730e1294811f240d2179b40ba3330
def LOOKUP.c44 : Nat := 0x8067338233248079326f21da705720e78011702128274343225c12252f173173306c33442eaf2f28309b334621bc709140e116e370157069706d230613d1192a418a801a30bf702220a729e480252cba3240707b40835002803042d241cc413b7011409a7031161370634391207342b980812d601606324c18aa43eb2cb95001233e135e401e2e61701131618033306731ec809c701680902e018095334629d833103060707930363299708a23347020212b2c833143339c22873017706e809a406b7012336b700d700b701b8044302470312425209f709c300e706e7066705323a632a9135d222c336a416040d130e32e7e8040237480962b4970207079709b
def LOOKUP.c45 : Nat := 0x30b8325329d82dab30383281205b25913023801841ad225528a742fa8093808224243368701d80672eb070212eda1912224121ad30c431d331ac7061337041b9202c3321806d32be2712704e27e27011124f40dd32ac2a7d22f330b443d643a632b82b0f7026428530733276166a32a02c967064335332913322324825d731c62c9613c970182b61500a3231703a18cd25c041692c0b25a42de5192080623343248431c133472ccb317429a8338725a225d5708732d0404332b8223e80911679334615b47087102033a6701e1428800c2e84701c33a8224443a826ff28d231ea8057412a335241d7421b325332ac7048708a292f29573172704720e6337c2d7d
def LOOKUP.c46 : Nat := 0x20bf327f8041703241652df31258704a32cb40ed32192b9120dd337c42b53323805b154929d280113317337880a840a33114323e208118f2224a28a741d63135404370867071234d4363134d703216bc2d2f2b5e301a2afd704840373215304531b04295313633474255704a701e2ba88075204f31362800703229b529002aec2eb632fe26ff8064704f31dd30472d4c329e8058705928cc25c92f22317330242f0e32314357424d434232ea326340928033333930242c9418fb40ac31de282831d4332d5002307f32342de97094806d323e700480657020701543142119332f33a824fc2df3326f701a2467700f3240200c40ee50032112413a308b306b42bd
def LOOKUP.c47 : Nat := 0x7068709840d241c9238133537096246470862dfa1352800b2eaf328b109e336017783077804631ba41ce709b2f092cd933683388260a30a4803f701542e431682d6210f240e070673227262d226c7048808750071841702832a9701f31df700631ac2e2732a821cd246732b8338430da500132a030cc500143141538310e404231ff706124312632249641cc339a702370702ae07015330a43ec32ff40a2418832f0705833513382706d7077280e7024701728ab70982db732cb2a3d13bc2ecf30e030f627d62542339f70792def8019707e807141e14178431c126d2701705f702828d3706e2eaa25d4706032c07021806d80993234435d20f83009294917b0
def LOOKUP.c48 : Nat := 0x29452e84709031888073709670362e59233e263e704870922d7133a7122731742edc807a29982c3b244e23632b5c22a1335340b8500870462f137051440120e82df943a7801980343374700b30ef8013303c3255294240aa3388329d41d73201307017052a6e4257423f334628af20732821221311973174701131d23300409e246710643390708c2ef1210c701470932256403d337f2a6a2c8142ef249d40ad3314315b305f80407028332f317243ba3078808e41d7333b7045308b700720e8704b700f33942304302c219531d380932db6421c11f52e8442ab702c178e31bc703b4130803440c12d61233d416080183084415a30c522fe310833a680658033
def LOOKUP.c49 : Nat := 0x433f41da285e409d8019328b30df25c9807f705426f632152c6533822373184c332d706728674037425e7095273c4320332f40bb161831d43281703b30cc306a156c249f244a802642fa288826c428212d78248e21374298702522f3302f317d2ee618cf703525c9305f41cd212a24a040e0212c8002408340d3323343134364703c2c594075800a3276332e152831d4335332e6330c70883317809b2de5317f223031f67015304830a22d5921ac417241242240280b407970242b64325e2713289f412332c42c623219337d700e326b332f165d42c6333c708c175529d22539310432aa282918232a78409c409031202d8a327f320c3135323e806110d48009
def LOOKUP.c50 : Nat := 0x18ad800d203f80a72911156c7026439729f63173801970852d7e425e31c780652bd8706f2dfd31202a8132b57016807a708b2cbf434a703c50033201701f182415d6402e2a80325020dd42b525d72a81328d31713195203832f930a82ed9709b701730bd70023330439d328530742b0016582c80706732842eb0708031eb416732522cb1304120e5707a330532a9802c500a806831733037404e40427052101f800680462c59124c3018701c30c5224a26d5304630b1702c424e7010404e28af707b807170272ebf2eea7081706630b3323f313d244142ea2d3d303c707d32272c52338929f741d8308030a232cb40c34278313e42e432fe2c53322670927055
def LOOKUP.c51 : Nat := 0x702380323080803241c942bf12533348317e2dab2a3b31f670853347114a4125807a30174304236c30512911701c2055411b14b932907061224b306c33a430e0256b43ac41a4161b15cb26a2308e311b700b702033244169306b2861702e21db80632b5d41d8402370972788267529a7330540c3335e248b2758701d320227263159232230e330ca170a41c0707b329040e6257f33162e0327b322133044203a322820e0329430e22857804e28d9707918007017250d317329fd700641b030ee25d4253d2229312a40922638237e27e930be33832d8329f72d3632192835332433227078130e706f115e249470582904329d156b226f27574139259432927034
def LOOKUP.c52 : Nat := 0x125f30fb321a2b732940802e7062804c24ac22293394700e30e2426a10d6702f70472b942bfc1778306a24192b661801308e322625d721d113ee300c805a2d3670612958701d26e4318028ba70542aea8024304340632f2314fd32f431d421c1294b707570352b8e3302140a318c7046160b333b31ba306640eb2e0b800d704b30e4246980302ad2709b413c402e40ed30b2708a41d9703642e74169708121283203279321a32a6a3089116f2a081769703d2129402e300931f03067700131cf309b11c830a6402e31804049708b3135500130361613703270063024318d253e305f2f193177339a248e706e80732a4970512ed8300a21ad22222c1b4164303c
def LOOKUP.c53 : Nat := 0x299427dd80a933243138701232f44225400510937085805d801131342d122305303d416131d3115f33a627ea404e7001805a235b303914de402a202a10fe800932f72c27423c180170334172303c161d50062254700180a62ae941cd22f5302f31e0700e32b6425623ac701d2f27703f330031d0329e302232c221502c393045331b7091339a28f832f343ea40e67004701d804d27de309a16542160802231ec22fd308e8052703d7019706e30442a73322825d37082409d105c43408097430f2682809f248a13a5317212c2800b306c30d62f01409e306a31bb30a830e241c1335f404f411b107880227040209224564123402580a715f03022301e31d78024
def LOOKUP.c54 : Nat := 0x8019311441d8435280a416c624a9702d320a3234808b31c72abe29bf80247087704e30b130422bf5249732cf70852d7d323027c725f95003318043f7303a281643a213d380252d7e4229428415e72be829d812602a2425873303408730ed701e10fd43cf243c436b2e8343f1413a3228305d30ab316f223f803d13bb2d92707a2b10705f7007401540ff2d5116131554324c2c96324824302f2841b82212141033722e15207a315c708223d1434021a5301642553351706d7057255a808d2060708a3164709a321b436930452a3b409d170e3172420632ee701e705e2e64800d2c8e706f702043ab24f121d2339a16fc26bf23e28024809a308a704b417f323f
def LOOKUP.c55 : Nat := 0x701c12f93168701924a032d92586274121d2412e27af18d632b7319641c232e8211e706324a943a1422740ba227b134d31ae42d12f1e4153232b70487014209f30eb220032e5315c25d38057406843dc30097092412d32ca703931f7338e259014c9212a25c2244542ea236a206d267a417217ec215080214124330342c0701a32a041d9238633802c3a212928af21eb311e409c705715d331d0801925523248434e417c2593245640e7706a3077314241723078417c701816ff425e281f2b9b4387316e31d1126e20434342171b32ca32a0241231f42dba707c31c42303804030442df82b6618fb27b132263113312029072d8480182afd41cb11fb21ac3384
def LOOKUP.c56 : Nat := 0x307732ed15d230174229334f7092807332153345338e30f725cb222125bf1900800d70152b9d32933377323f2949804c809731f642c54206303b203a2c0b700c31d4304441cd211f411a500731963233805321df41393140282232782a122ba5335b70552f2e32fe243118ff288832f91200319243dc20e83345404f2b8d7045416f259f704c31a230692e8832dc241f275e320f2b8e2a7132bf1554336a326c32ab22294245430e808c42a62587325724562eb42380408729d820071407800c4091703543da32e87030182a40d532cd7060707a704331d3179332b770957094218829d82bcd148e409e4356706c80653127431a32267011806d2daf416f21f8
def LOOKUP.c57 : Nat := 0x701e33782b0431f5295743fa244e15d140678075409e191f7050804970012081707230ec25c82ecf807a2a042cc727d5300830b0706331f4313540b3803c41cb335e3233704b219a1848338c30a713072b332e65314b312126ed429570924277700c33a0404840ec702643bf2a80701931fd329c238170095004336a700422063258212b1841702a702e706340928056304e281841204007416630ca184231b7301732574043500930a4332d30fc2b9c4387157d70633225316832871902110c333742f13228500123de706f4273207942ea2c9e43dd322518f570833150707927ea331020ad7045278229fd70617066438d801270652329701b42ea43182359
def LOOKUP.c58 : Nat := 0x2b3e1795432132cb324a40d5305127ec26db30393210212726d533672440701d80347032100b134b21d827f531eb421c324032811261323f15208026224118f8313642fa26862121417030e426b517fa293f124f7006324931dd70942a63332f704520dc316e25a3707b312c2255805a807b282b7064709942c5429b708630e218442e7732c33240404323cc3314701c2d5225d570642213243f33a37036706822fb30833230139f153b7099207640257080412f2a5c108c268270983390427322c031637005701f33a03075706b2c0b31c8808111302edd215570233134804c21f8803318b52495315b2b282bd58040804080647087405942727025801e43b0
def LOOKUP.c59 : Nat := 0x70795001500941f915f830ab29a8417f32cb30ed18ea709330d4706e4064161370253044320a182f7062316f258a24ac322e700723c628f9700b338441a28041314f40ed42b527f9404f3277803240e12a6e3240701770424092321532833030700b3315406a2256317f15aa337d705741992ba92d1f272418f240e120b02d277016215370732206318926bd31dd43fd22f52b03302f313620f5331031df4314806d429b31447017701626b7322627a915bc805412d12de32591332d18a92b222115700a30e370151290404f32ab2953106f8008706b707b412231c32e8a280f31d332c032182dae705028a78059702226d9406431432df930a87097336914b8
def LOOKUP.c60 : Nat := 0x23bf3030333a42104212701c315c20e743f942f131ea2305809c235f801a809a32a032b630e811ce30dc70202a0322b12496238141da7006309b309c80798071329f21fe40ac26da7028701e31e77065413d43f525c025013344332e2901808e252e7016317d4347323d315a3174166f338b807a30d8282a3330407b334f709b30e48064417c7067700c289d70237004321b40ec80568041705218cf234c702e30c9257228f77091325631027087207232a921ac433d13c943f02b0330392f0214c132537047321c17ea41253167247f41d92e6626df2d64335416f63051179430b043882008161a15f731d23376703c3084112018fc235b707042a2401714ea
def LOOKUP.c61 : Nat := 0x32f91365700b32794086261d700231c0701c704830eb70833347808d500232fd30ad32342b7627e52c3b500a700b20af18f210543150700a249f246843fb804d18ba2643312a4158328d806d700d221331de26073017808532c03165700d25c031ff806742697044254b7072403e8019249e332e7012317416192133807d7079231b2b28134e22d470272d362710170c31d0321750052a2570623203438f31363249409c7073701630ca324570992594313740ae7015407c40e6252e70342c0b704e236b80162a3a70198019176a50032bfd429a4388706f701742683077192b809f292530a7181670222e6731dd309731de700a409c3160319f706470054110
def LOOKUP.c62 : Nat := 0x323d43b37027707e404e245f429520e731ac26e070572e534038303c2d36700125b82380249f289a151670621827334f431e3286302432be426123343108704625b84016120f300f25c970507005328a424d3144323e305222087092284f20954174408742ae317c300316bd3074803f702126ff317c705570402df1701270722c8613ec1070801a3317318728172120439d308d306c32804096704f310640ec295530544402804070262cfe30e42b502517290021883323708043912453412513ac8033701b7080708817e2803b705914ec230317eb26bf2cc9132932282b65246c800d43ad1781146a2dc026bd805a210b4316700e809218f9107570792241
def LOOKUP.c63 : Nat := 0x701a4107417c1456800c7023249732d12a3a303c7035425e4165701742f5707f24277022805921ff2dff802e282b143d320f333c435830e02ba2337a4121339b2d7e15d62df3706414df40c070412a6a3133329f702232c229d2223f2943244531bb42fa2914702032f730232a6e4274702e409231ac3393219132ce2b3231dc24df204f708730ef70402c2e300440f0800432f831652c982c8a3090156c282d418432244121500333a5404c41ff328c337c429b170e32b7281522907008500a70147091322543d032cd29583294332d700316fc32ac413c80658097328c332131682b1a33533316409d703430d7429b10e32d3630ed2ccb323f3367248e433e
def LOOKUP.c64 : Nat := 0x408e259140ec707370672441705020da32cb258a701a25c23150701a807a431627df703122092f2b2b65702130b47063225520d1802670043167705e237327f942a43038326f32ff707f413b3300700b310d3385704f185b3015211f337b7072806622df42b580a8161714643227404f333b703f32932a6326ed701c30482cf731af3228417e323e2f15807241c320a4707a321570902729259370242a2b31af7022703422002c2e18b032fb701e2c9227e0281820d54345412d31a37053317031d32eed315a70813388221370987086337229f7706d330c702c291142c4241917fa42e432f33320708430fa3136152931281927700d32a72369705e41b07045
def LOOKUP.c65 : Nat := 0x322743e52758323f7067701832404015317332cd706c1586333b8080807e329c702220567051410932c4700d404f318c2e01700a70297071500118d3313143662d6630072edd334717fa305a303821d231c72ed029492b95708627ea26e8320c127c803a23ae8008439a33537019806e31bc17fa33873216426c31ba2b5d29fe30ad706328a6328d211570042cc22b8e314433883018706640e0801432703108708c221250082c8011dc800a3072254b32a932e8329f3168807e301440ea22c3706933073158303c16192806309029082ee341da338131d0320b21b82b0780323174300c2e03500a2d282b22700f2b42709b16b52b99328441a041d5155e2c5a
def LOOKUP.c66 : Nat := 0x2a7531bc408b3380322f2ef680273043706f20342518312c705a703f42ba40ed333c41b9225632a024387085233325f121fd18cd803a236b41fe26f333672402227780a831ec2dac20794084224832ee160c314a189922fd21aa30f725d3405080022c5d339a323e25768080430a70682dc8335033183174707520fd4137262c80a632f5312b321670472de64268807b417b809e805333053132263030fa1412800c2c53330f80742ca1701c24a17051706d701770403097416820617064327b801532e330237087403431b0173c7041296c4084274c8059702f23812ade13b128db3281306b300733a68016705232c130d02e61708615fe425770587028707b
def LOOKUP.c67 : Nat := 0x318c408b8071224a206e2cc631d3297d425f700b7038336b2c90330c253c703020a73348302e3261707f3304804d701f8041322715b9434013e642832940418b7062804c2df6335432ab700e329f7025101331367047705028be416942a33360326d2c4d702325c980732b2242ba706b415f3170706633467063707a80822eea702f338920918025224b18f918d431d4703029fd156621c82c728086324c2dbc318c41bf3392302470797045406c3137324b418b22ee2baa419f237f3249403e1506127013ec2c5d33a32e9631b0438c32f1700817ba800d31bc40218023409e306c80122e61702725cc225f3134703380363110425e154a7040328d225441b0
def LOOKUP.c68 : Nat := 0x300c42681007801b80a0248e25b1237523f3338d334e805a4071434118f8306c435126ff2ed72aa8112e708326ff4188314d2dba312b308d31978086211f401913e6421d24a080a02a3b225627ed800d305b2aeb7025231f31c825eb2828700e404c3318104e422928dc300b30227002324c31a317ec28214151313832ac20c540dc4042316743b3705d33007062709331192249184221ab702429fd294032c27062804c7070708970792b282821308043ff709a7047332431ec3330701b333a301032c1339e80a8804a702931a211fa2a692c962a7330d22eab701a70737024805b2c812593701828d431b73189242c435930a53348251f702b21ad7057804c
def LOOKUP.c69 : Nat := 0x702720fb4189223d42c380371926301f2dae709132fc21aa2418314d144e805a303930ad19233228701a80752a3c177130602db243f17031802e7017707a26b527c87024703e1566707d329142757095700c2a253246130e3383709140382a0531372df9404b80622a722a07305c315c328d41cd336c41682e5031de2ee716d833242c8131c43360705f40dc7018316d26ff708b3189705623cc2120809f13d42a2b700c31c87064118d805722387010175a323c402e32398072708d70948050311e32e829c02ebb70102827803b701430302b66704123054036706e30fb2d9380262693338f215522cd70252b9e7087701f18f72d59403f700a435c22d88010
def LOOKUP.c70 : Nat := 0x23757014252f430f708b3300219d801950022800801a2253411b43ee707b245e2b9833173074702f802d330a50012296701f426140bb7020301e212a252d302c8040148e2b674023704425a470877085314415364283245b3052247922af2ba380522502203c29a6211f3227125e7023338f328441b9316870844056803c43942b9d42fd11202b80709530e4332d20e7317015c82d5929ff701d2ee931ec339041232cbd80a02c1531377046700c2b8e32f240337091705e2b567017404d2419702e21203047705830f9333a29e43240421b2b6a330525d570012c9142d2116f3338704730fb4142707a32e8334f315c3103403630fc436470593113250f2577
def LOOKUP.c71 : Nat := 0x8025295730b2234430997014316732d070882a737093700e8086701523df20a72552303c2913255a41af7076407d703b41d880582ca0153a332430eb22553172409130d540ed24aa7021181d2495706f8073435832fd2d12702b31f7312a184422d033545009212823f825d530ef18d931c570713305315b335e7035412f2ad12376247f42b82199800a700a251d40bf701d123232032f16300c181b25d6337825884357316b803430fb28bf32782b2a707b419e2a7c708d2a13427341da29be1934809c10878008426a701e33a2708a31e73045416932dc70902c957014708441361059407c70093171225e2d85323e2d7e809170053378803225d7417e110b
def LOOKUP.c72 : Nat := 0x20de25ec162a29cb233d2ba230db7095500225cb2273800770647093703a808726562126237e70012c882b9e8074211e418e800632a87001266f31d430ad426c336b259331d218b5306b25ea426a80187055707c708240db30742c91214880072c8130a5802f7085807531203292707f241a2df9330920b0123d704f160d163a708520e62db3332241702f2480682b3c26518032300b70043103702d40377038703d277943d6321c20d54226308e70172d7820af707d339c40e721123322700970147023339821db32ac42052ba732fa22f4224b40e042cf325830202a7b4277333731df70057085282d32c42d8970014275339b705b431d2dac301b24282bc7
def LOOKUP.c73 : Nat := 0x32b4700d32b17039323e803e41da1849313825cb8049700433a830be28ad29d8423d31934167707b267b421d402c70272c88705e267d2afd803b31d4409e401c30fc325732b9184232a070273113704e320a15058026320d41cb3225706124ab7074309a700c80962379148d7006439f709232b5337c2228312c805b803470317019161d7022320433108088413e333b409227c870632f2d809c18db25d42c4d13bb3240212b500a7018179c7006709240c931683069130431ec2bfb328280822d78704640ec20aa2f2d50077048409e700a308b33a4804e40bb20e8233a24a9315a2762800a307743dd40a42e618093707a17022ba643d03372305f709c264a
def LOOKUP.c74 : Nat := 0x2c38303c705f183c40a5806230d82b8812617079707a20fe809a40e032b8339331ec43ea30a732e420f7161c2eb22688318030a270482db3707f1698191113e63347217a8023418930b5429d80338057153a33052208268c235480a6317d704833513078124e161e250e228031732dac707070222b0242ae2e1f10a13386804d13ec2240133942f4706343a1417980642a11233e315b2d53145530b42431303b24ac24d6245e31c52bfc41cc17d617fa801831687023255122e44260412c29a842ab3076707380a92ef031ac14de2bb043881849339c3051305c339f8015335a30823232228542a2703e2de42cc422252e35336b18eb2a5d2b10236350073077
def LOOKUP.c75 : Nat := 0x2eb015f430837064705329a8802e702f2342155431141480135f702e325818f2136c27cc28fa30232a7d70862c8b2b213330326b80812e612ea9705932b630bf701a4091706a804e707032e731867031336980a8700c320d21f842272591303c706e406e41ca43f72202413c423d50027092803232c47048803e80802c0b70233069316731d3306b3150257f293a2b323354249242c53323262c2692700a302b7093130e500270332b3b2e6b2b3d8026806518aa42742ac115e814de192f307825a024ca210d317131f8230c4402150831bc119a7066212b2b2f2cc017957096149525802cd632c030bb30252de331722b8e41102d3f3138703b31bb327c42f1
def LOOKUP.c76 : Nat := 0x3134702f304e204b8023707c337c704432268010327942ea100a8004329231e070042ad3402519203172423d80923089709270293048804041712ea8421124dc33a717832d8f703f406b277c329930783047427642282374311a2371403e312b31ce706231e633a4334843b931c81003800340b42255415f7095805b706717d7803f2dca708e2a1e253d107a15f542e42a737066336c42ab2da631c7807133922610809f288942f1404c318c240d802e124e301f4316702e30683275237613a94257318b2ccf179b43d731352c5532d83336411b25d62df0336a50024125707b33217020179542292b03170d2a7d2ef670701175800a7041704640e922123159
def LOOKUP.c77 : Nat := 0x2661338e32c03154334532fa439d296e700f708f434940e8433523112d39800c317d7092338831af7049804d31a33276705a404d119380a833302c3a802532ab14e52315413832f47010180270283068804d500126f7330818fa427733a432ac20564111316633221395314f331121ac2a48333b707b70852e533131305c806815c4701d31dc295831352b962cc030e443b23036332e2b9810ce328c705e2b497088802e3008406b43984120304531952f1580303233212b20db317243398099707670412552338729a831c8312b30ed7063702f2f0e2dea21d07053803b32ac2cd23230804529962a3f706c702125a440ed32f433523179263f3317402f7032
def LOOKUP.c78 : Nat := 0x8034285530188062708730212ba1313330f8240e304f3030302e707314222a8d22523306333a161a700915ec332e3042700b31ab701d303c707025b8128c2e8240ed41d9214a8007329480571554808f70278082803332b6304441df24fc10f0327f332780932f177097306831a0413c706e809d80677067709141ce8086438f40dc40c12333401c707a80653074707c40cc23764158407d3022211270252a7d809343473339303070413374106b323f43a232287097429d109b31af1613705d325542c7404c11e4320f315a339b41b52e9123f97071211c33124041702320982ad3310f330026b331d22c0b320d2465704232b83137416870482cd933902ac1
def LOOKUP.c79 : Nat := 0x305e320c709a30737063701a80753024310832ca4034323340ad703f7067404d4087410f414421282496803b303a2c8820ac705e29f730d030a432107015289e32d7412e42e47044406b4348306011173084306b15d52371808b11f3701f2d8e803f2d90316831a18031177f339f290821557062235a2ea97056330b42c52702111280233188322631e62b564339323f8081404b2a7643f722f82c9b40ed2b03423b17b5304619202cd6425633883110706422131619337d10b92cc9257830fa7023210d25b8332e700d315b40c32b05806f318b269c41432ebc70142cbb3240237c2b1e30517086329031ac2a3f16bc421d302230f82d268059339a32dc7047
def LOOKUP.c80 : Nat := 0x266827ea336b25d332c4705321167015270242ea3054809370542428224a2e8431d1130e310418fc32ce700a32cc435f7036245322554124330c32ee700d702632f97026176a200e801f282d7092316532ab28d18084337d2d362e84233e80122a74705d425e2260702c2619306a5002431041f3404e3142409e708525c9807a21f1413b21c3126028c9425d339a3196707b706b32348065431531f880a815ee70234185702115fb23742956237f252d27a070232ba07054426523873225700a212b435e5001428322d87010192733892333332043652d59426b404c29c570722e614304323f31a3436a17fa801a32b8709c70153053324c333b305e30971930
def LOOKUP.c81 : Nat := 0x32b470857086253e3013329f308b7058211631e8406440ec27a822d63046709432dc205e179b336c16e8326b238943ac329c3136423c2380706915c9219c404f19282524334830c4809a14a017e9707b2e3d2e6140983381804b32082256427511d080153052706e705441b032288044700d24aa7028244b22c93027703d2b6622563179308421207035256b702c26eb403732c220e8316d316642c7802e806615d5802650042254706e707723762c6823762eb022aa3228328843e628dc30c013ab28308008406932aa337732a913e5218141921927806715bd2b0530542aeb337440d428528086171470372b6a30368021704042b070332552318815627073
def LOOKUP.c82 : Nat := 0x3232312c430f2d892322434031d143d88019247450028034294b224140b330603278133880998095312c3294804e809c700c808e701d13ab329c32c25001320b32a9433921c116bd70177045805b21db708e1101316641da4227705f328122124403241e324a416520de314c2427303e421927cf308233832c1a25c1306032f312ca31372c5c13bb329e13c870673174708c3174243c15bd2a2d31d970633024703b26f27005236b808b234e31c8255a309b702d4173700d2c9d30fa325525912d4143ef701d29e531e03051301718fb33247013701f706f70962deb7021411b306c24fa31d231d3330430d72a6a439d299332d0401a324c409e702d269d3389
def LOOKUP.c83 : Nat := 0x23ea31bb153b31742996120a705a236c2306806613d0704240e730b1335232c47063801a4210315c2eb02de6707480a5312c30ed337d7066701342c0339a2bed32f229c241b8702b3353298d423d33942471409e233d29a52b99255f800c7044500a1756216f2585412433133272416d702d40c1500532e82413323e333c2774413a3078701424448063317370764234700a267e212a330c2d857095701432e618ae3283421c18d110a421d827e932f728787072293a21ca20ac41257022801a302e804c24cc25f641cc237f30e243ac192a253715742d9e23de2198255b2b1031e0338a2552335d42c62ed833a815fb2db9215a80088041808224a97036418d
def LOOKUP.c84 : Nat := 0x422926fb28a470872a4b438b15ba4359255270334036709343f52212333c700a28f1709628db13aa70623378277b80552ede24562b6620a67021130d80a92b9d8081317d30903378334f80823054413514ce323c2b995008212b42d3705f30a42cb92ab84397708b31678033301f2acf7004339911083226335d417f16e63107135f431b2f2817eb318a708440e042c721ac16bd5002802e2dbb706770152e04337331d3807f331570823013703e702232173369706630ee29138070332e20b02bc11539707b3303258041cd20de29ff806821ac700b31bc100e33688034706f43b47093325430d8704729a88017416f30ed148e22b443b030b133388073705c
def LOOKUP.c85 : Nat := 0x326470242a712ed726361416800c70077099249d430e307742dd303b2213701a707f7077706425b825d5703f2cab2beb700850053310801280183270234840a67091707c808e2cc523307058807041587022435930f84401704d40913300302331de32f030542b2a7027314243a0315c319c18cd243032a1800c331e2dff305f412432bb705380308086412f333017fa409c24a7233d803e305e28ed305b309c330d705a279f33214019706023cf802331667055424333a5148d803323a72a18706f807580732c141613309a413a1050800714a5338340e1220733a6314a1828702e32a010a52b9533392715306043b425c031417042258132e870112a693323
def LOOKUP.c86 : Nat := 0x41ce3165426a2dc730cc80a63324705270522f1631a42d18428630f742737009336a22003382700a33162120306741cc332232ec801a402033807086235c18bf14cd708e30a2708831bb2f0f2f2c415815882ba8805318ef18f82706807332342209416a3111415e304740b8707530b93030700d803e7093222e4288706019122ed9417c41d42b832073244040e1240215d9304230602354153b70227023803c7053500670452519283330f97087307e324b438e2f282474709c707a705932582588274f309a316831682135410a42a62c81211e80682b432a133344311c336c70163257306031d4702c4020338f70513330245e2068802430c9314f436e30d6
def LOOKUP.c87 : Nat := 0x2380423f337e255b2042315c16be192b40e050027004805830822b313300802d436132014172324b167e12b4292f704043f67009300750062eb8708d7078402342c42519305229ea703f18da3338329e15f230ad23fb42d7329f709130ee50082a78329223a63232152232aa331632f03089228f701c3384315c245f707770447087700e7021707f103e803e3081245612cc318b323f238170385004318a259e20b2404325b7309f28c332f970712315294230fa703270894049192f40117001332e31d9223b28d340912ee87079309024923226326233542a5d7091408f2c1631c82d5931db8098302d415828e62cc82b3e189c32cd803018b23335436240d1
def LOOKUP.c88 : Nat := 0x2f1f701e5003802d31d332bc703b329943097052709c7033233b70818066704b805a2ba82ef328d432043322805832b6236c2d7630bd303a212a249d2a4a7087323129d218b324967018337750067076413b1905333a7018309832db31352b15304f7081175a806131207063402a24662a36179443062cce314f70052559708d500a800e8002702c31c8435d301880312bac30d432e7307642c53201429b25ed3253700726ce7023333031eb707b317e23337002303c707f700231f8709770702e683305700a16bd31d218f2701f404e293a339680317086305470032d25418b7027709220de41eb212032e6807e4227317340d22dc829377031702421d1424d
def LOOKUP.c89 : Nat := 0x2a7318b480272484804a247f3015254a430f702e2dc12c6932dc42a2709331d0804a334713ef800c803e176a3073323e803e43882a34701d3204189c30074106807c333a7047214b80213113703c806742bb326332fd7009709242e42eb930fc707c1190800a701e703e2d3733303069702632d826f531143224802f50097091221216be5005803c29b517fa8081704e30fb205013bc30a7702b22382381702d32b430fa4129808f808b25a432e1281d17f913aa2b0323c170953288280e803e33a5429b700b31b970417074701640ed428924e6317e31382c4d30522a2c18a82591700c2f17705f2ed1331015cf31f8703370222913330b282d4187709c18fd
def LOOKUP.c90 : Nat := 0x7059709b706240e72dfd210d32762592439d418012c57033434a23c842a2709227df804122e831953168305b318832ac403e705432888059271d708f28a7709640e0256c803431d821162974700c17432b03228b80302c95317e16bd21122594702380a77038323d40658011803f1010238480047099258970132dd62d152b6b409c80932e86807e25b843982d98211f213d8006206421d2317230f8701c7023709c804c182d307e26f78059429f2cc02ba021057099707f270a2be92496422426a24207294b707b32c3316e408e1606701b119d406841c343a8244e242f320e4189282280728057165f800d31de2d7f80311782802750052a4f30e330063317
def LOOKUP.c91 : Nat := 0x700c2b277084245f707c3215233e22fd21c941232afd43f523102120804c7022700b702042ab309b32322e51332330bb807a704842f1337415ab30052b8f23de31c831a231e8703c7033211b3294242a2c533322220726e413ec21d042a241da70162a9e17ae302043f77025407b29d870594368800c26f720e332c43307413018f250022a34703c3256253d43593048422641843263705e708e15ad127880253280700f314332b732d628da32a014df706f29d8436c8068177d4171305480892a7d320b42ed7033700c321c14cd707e70572627102c2c74241180252b0327ea703331ce22aa500732f429fc70953270306b806d700712e88025706532007088
def LOOKUP.c92 : Nat := 0x43ec238031e07044151612117005708443a928802c6d230624963053184c702d8016707b2a65709b31574227707f1559409e2c89212a25d77073316725c03232321b31344130700624313157308170707016228e2a472eec43393202307331d43369101231342589807570723030703432aa16bd40e1326f43a15004709b7022803b8059808b30bd70051287800b322825d3322826a1327632fe258a7091325640ba32d833457068801341b8176b2601305f7063329e32807017802c807a18b8292570064357706f2e9b175942c227bd2c8a43444130248d2ba8237632e116bc806d3158277425502d4c31bc31808017274e32dc70242374290b179d3324701f
def LOOKUP.c93 : Nat := 0x315b2edc22d333a6700430fa404f709c8050211d70197096429d32a5420c240370952f0121d932b5401c2814305f335432582a3b18b7236c8093807432a730ee2ac010ee32fa30377066304f434e70247097419b24ac269c43fb42288064339470532ac2227f31d1244f15ee706b70092bed70917014332030138044702e237531655008332f40ba32e6703131672d4b700e27de43fa101470441261134831c6258a31e62702331733797086413a5004302c7063411721f132033198703c702318d62f2f706c2d2f7063412b15cb328c2ec917d8250031682dfd3227409c282d416a305030d4305131888066258133303246258740ec26ea42872ac5701b3069
def LOOKUP.c94 : Nat := 0x40b32362709324308075182980274037328c7007236b24312b56305313c170401433229013ab333b31273163405a328b409e702733203038315b701a11052a56704b40d441ce702c707a2b66306032dc30b03137255a302f3167431631bb2f1e212950027085179c706e29393172332f333c32ab27e0212070637048706f27e7402b14ce8014708932e830ec701520db26f47078321a703430c540973137411631442c6941da2c59707d3197338132aa7045224942577044259330527079803f24a82b2831122381707c404f130f3330328c32cf40e150028028280522fc316631d315cb31a3321c411731e97028702f26ec2213801a338f3280330743f07031
def LOOKUP.c95 : Nat := 0x3163257831c63292316643fb3127708d31d124a880122a3d8079707922637035269d31d317fa3378409c40e72911339431f241b942f4322431742f23413a21ff22cf2e6170567068803f705e306c50052b5028e8709b2514704d327a413c702d30ec80311168329f255c2a257096808a31e7700c40eb430a3143708613e3809742aa223831373185702030f7332241d7706f13c9323e7001307f707a438a703616fc140421b7708b702525c13201433c425727e832b53081317343b4412f125d421110ed8053702c41873105702e1662332f30dc803e21574348807e43b6253823604187705280a5311a23d028d230524120704721db41cd228f702630177032
def LOOKUP.c96 : Nat := 0x32ee28f9161a24ee413b7064706f2b973053300c41332656335c2441334530ee2db741d718b4705050054312321b3368203741f7806f700c176b3158337f4026333c180932ab70212213326420ae31ac705e3365420733742f2d245c280e24a1700430152c3e700d28bf3286314043d7224631c740ae2d83706b808030ac305480352b502c22130d8018703143d132b818ac702770812441148e701470957092212b338f703530e02594305f401632ac709c7064409e4228323f244e1244308c2a3a20e72428210c7068253e803217dc706f41214316246833682497156c702f31384069180f2b65305e233e4136703d333c43493171251930c8259328bf7098
def LOOKUP.c97 : Nat := 0x2d84286d27a530ce705d23752cd83228804126f6320c700915ac282d70212209704432253045704d708531502314802f2dd033213227307780981713268432be14f2421d808180192e93171b30e431fc41b82ad0338b7022306b7045701e234e7047704630548012707412ff32c4306132ee801a3339155831a1210b42ba30ef4390804940877027192a4206329e707d7010337f2c5d2a22402242c0301c32a470253138337d3344305231ac14ec7073300b7048804c437b705e190830f740862430704a8049709433307023301f417e806f412f2466706b703f4265700b31b8320d80a8255a338f701940b443082c8f703f327880338053804a242029e18055
def LOOKUP.c98 : Nat := 0x331042f5332f30457044700b23722bfd3188330a7090179a212a336b338f322624a9413c2306302f21f870558013700315fa8026315b325327e8700e31bb803916267017418b32f8156f500642f42940320224692cba27ad32237055708031d22eec40f440ea14c3802630d4305f32c42252324b40db50012c817008247615d933372da52497500570172f2330ca80627073224b3166418b70181696332d1488306b704030f780622d3641cb33a07012230633a82262808d31bc332e2cca708a126c335c2b9430ca234e336040c3708f500370343344304f2211805b702480532702706327c8704f309f80202d36704022de80a62552411a334f15be3366201b
def LOOKUP.c99 : Nat := 0x500324a02f11704d33392cb821f825ee70457087324b70672821404a43ac317c232b401430ed25cb700e2a4f3317163420de332331b7701e126117782997318032322f2e31a47048315941c12b3a31d47039807e13ab124f7091705b32ac33047069702270522c3b29c53017314a80113135316640a82cc4706443a83303333a423e706e279a2223704125b624137098807031b82938329f708130ff303b4103327043e22402412b41ca706831c62a3e335f325c16a280272c1633462120430740ed257e4358704f136a311d184718fa32fc4173326f3231806e2456188923fb7072702f409e42557016336b20cc331d320470562d6943ec334231d1130f16e6
def LOOKUP.c100 : Nat := 0x31c743f032da209f3249317231503138326141fd11a27065409e32ab2096282c40d633392b6b32c143bb30a430cc440230d130523258801915cd709b13a8243b2dbc2b7a3132269d327a2d40310832408075220915f3800c708b70063204134a42c942ff23062db8400b27e032c1707018aa245631e0702c23343384302c212b33172c80300820a72a8131a1311724a031dd21e2249d305f2cc470637001708c701b41c3703a30cb321828ed3284805b80a7258810bf700a31c732a729f72c4643e2701621ac701433933173101850064358328440cb1928250b3216337431c350031847703126bb2dac7041705d290231c53263224580402c21709319327090
def LOOKUP.c101 : Nat := 0x31bc803d323d808a223f314326853022703f43d640252ded70222bae129b13e62c2e8041224b33a74174338230f82bad26587005809c29b516fd111d4395216a2238704627e8705d701f41a1404e30997059313870112e527074303c30d230543228170e80748057292b333c2c1014ce16be2dbc7080704f29fd806229e8226423622a6525cc18aa42ea803c42d6406c31ea308220e618f27018703d2a72310341878015310743db707f332e706f703e4228329e2676331f8094315c32d9332c42217045705a80681753704832ee803a303b406380212a7d5006425e22f5302e33a532ff2701335e7008339931c6420e3380807b2116317e70802210326e314e
def LOOKUP.c102 : Nat := 0x31bc31737066220923ec8024707f27df10fc324970227009317c30dc701a22f470151017325c300c220033243226709942043314703d1778430a404d31872cb926bd31e0330c22901633705c25812ae0324c806e413b14ca7005438f700b237228ec31ae70022588709c3381306f212b700b315c43bb3107701630e3321b3173326e259c30a5415e2579707528222b9e315c30542b1323f21783245670012b69280f254a32b420de434d2496806b2e8f216530b12b9d708741da2497804770811770321070732c4d43962913705b25f820e72b9c3330702e41f67024708b32262375329e703440e9320e28ed2cbe2ba82c16804a3232207a32f4330b2a7b205f
def LOOKUP.c103 : Nat := 0x32d440e05002417f182c202529253074404331372e1d2ba7701870507028336b3258708b329d217f802324317014702131dc7092431f32a832888074306731682b0380823324709a706f2b5630af809318cd707133442861802280732d2810bb2d5b705d2eb22129248e321626a370528034709930182265703c33a8417432927061809f708d30e92e762ba725b880192e7e27e0707a2cc92105709c413b25d57003404e416627c22b8433722a6831ab7018328530f9223015378040707e408e2b9e30fb32a0700918aa707b309f3016336b336c3143808928a024977062309a260c103970898033412e70544309805827a83380808026513315702f805a2a7c
def LOOKUP.c104 : Nat := 0x40c22d5e800c324a309780383225707432ac31723077339f42a68049413931de404f249e20e827cb2241191f31712d0331c8702a324024e7184c41d631df70542a3f30d1324b15d670227063339c320326e231bb704e32402de3282c2ba3155f707d22378017802a8015809b32f0332e2282321a30e4315a24a841b87063708930503383703a706d25c0709a30692d658026192c7027704542f122ac31442b322a4543b37063221218f9700730fc317c40427053277511b42d8870447030404d323430f026b1706d808e3291325f41307049276d80642818318e29a43020807715e8228413e62e702dcb181c18f730f12114706e703142ba15e87053322e3136
def LOOKUP.c105 : Nat := 0x18a880a743ec2b983321802b3166709470688057704828ac15112ebf706e339b25c018b624e52ddd301f80a02c67436528123120703f2e912a47417131af233e80a842687046804980a0703a809a1450500230cc802932c126a9326d333c32d930997021192222493110280a2552237e21f041d92551709132814294189b806230f732d0805b327630213378700d2b1726a3706831d1209f2a402b6b32b8189d3112336b2c0b308e8081236b41c130f831b03323303b32b7705b8053320c130d21f72105808b211f313327c243f7221370857045411b2182800933162b61332c2d80708c7069279a330b801a2c28338431ed70054349321b30a8308f2363802d
def LOOKUP.c106 : Nat := 0x2c5b806580722888422825ca805b2c8831b75007329e2a4e3127706e216728d12468404331c6706a28003147705e3165808d80a8328c2b55317f32a0416e2d41700c2d5f3240701e32cb7003806531ba2b722a80331426f131e870028066808f70797028707c7023423f230231a3308f2eac205470293284282d1804802730b27092803e32c02209705110af2249416a43592afc4122427841da500713ce707b16be2d182dfd428743b822952a40802e333617ec7082232b70268067200d7097409c32f3805a32e8702b805125d642ff3318708318d8333930a121cf5001324a2a2b32b8212b30ef709b30362050202280a87094401f808a243031b030302a25
def LOOKUP.c107 : Nat := 0x32b730f5701a31dc30fa31fe249632c131952ad1703e305014577034310e334832f928ed1835191f804923068071705b7009334543587044299b80094346161220c52a638059706e30f08044705241565006315932f42c342622404e318970322a5d30f540dd332f41c3337b43ef207a25d632d42ea23240315c402e704e3022332c278217c72ead708426fd2de42632804e70264277400b2e138015702c32c42f212dc142737057155a3150707e2ed6808c439d807f43534280705833692aef80982869282132aa30e0335140cb7079807430fc5003409e7047323c702f700140f1801e1829291132a93203306b41d6245f42b02e61803e22563158324b156e
def LOOKUP.c108 : Nat := 0x404f329432e63159805341c130832df9412f410a30bd2df4327c701631592d892a4d202d24282b227072702d7091417230ac2c1a303c22413034207370921260404241252799410125522d0231721619319670094110332326dc701f703f337a3286339a70113354155042d07015238b31d180987071130b409a40728019303a13ec303032237041332241c2236c427a2b724223305025c0708b31804119187b324970115005402d31dc422924a031743397211526f64109244c317933302de420fc80872ed6708d8049704031e7804c705526638025144a3353415270323076308d2d9729bc15c3224122d740df3294236a333b203e802218d02248230540a9
def LOOKUP.c109 : Nat := 0x17fa80a017db700923fb287d2ea927ea70203375209220e3238e29a8224b42d18024314c706a306a22b32956417e805c182e704442cb33142b7770513253316322cc329f3173135b2bee4170337d23cb8023328121d22c84709128ae7048330b703d702b31d230f92072183c7015205915ce800c21293386211e40c170573285701a32b8702724e141ce320228be2c962edb311e1805339a1822800d406530ec26cf209824662ae1306a43617099404f10a32352254b32628046323240ec303050061795409d31c42eae3043324930f724a8703b2c8831c7141a2ea931d0707f30b222c3230632ac701418f429dd800b70157023327c70863090705542ce7013
def LOOKUP.c110 : Nat := 0x255324e430e38056410921bc4210316f70054398709431683071806228162cc04189704431fe708722ed319531723202708a2ad330b02cc02ca4413b705224a1156630d77045111c12d6800b42af258032ce32047092218e8024302870483098418824033389333032f828ed2c35337f12bd7048703525b9317d334443b423024315322570312d7e2323210b238f2e4443d92381804d320330222a2b2230706431db18a72d782166800841cd7024403f21a5701680a6700c260c438823817046124f31a3709a32f9309c184d220910db701e251832ee3316307531353231317f30a22ed713b7807331bc129f4363700a706430dc33473009306a411b4268406a
def LOOKUP.c111 : Nat := 0x302f317f708531c780a4708f42ff29f72b88401d7045332e31d3225340ec809b20de704841ff152531367042321a25773166319631132ba327197045232329152cb9707240e77079317d18b930bd2d86336c17f33292708013d911a5438f206d20ae70192eec13a98054179b326426082128705027c832ab705427c8245d23343150807518c71887704f43a7802a2e83305240a9315b2601321725db3288332417c6330027e03065271131072dbf409828ca31b9404f705b31d120a7705c8059135f245e808220e5134c26a22589407b26be3142703532cf803d253a803d33055008308480323239237e31dc32b7316732aa401a80227045333031dd418c3305
def LOOKUP.c112 : Nat := 0x33a430b330402e042f112e4f314d807440437001329243ec25b732313180704415f6708380332b2230b42949707015a420ae33437017320025d72105317431c8702e26da292524ae31c626ce323c22d83099709432f1401b24aa32b8408320e631d416bc31af12a35005224a80542050805818d98027245e2eeb325330e4316413ec429b30f930f92b90804a1537403e300b41cd8070332b2cc9321c239031ec33a37021329e409e317b43ca2b47804e704f3347245d317440dc30fa40e125fb13cf313470874364701d30f031af2f0e805a409e705d7027333b2420304650068038804e2a8126924136244780587011305331d48059311c40df33a8706a260d
def LOOKUP.c113 : Nat := 0x806580a03023409c2d6924b044017071436226fe70312c91805732c170222e6a255330b410e5321b2c5f20e38015410f2e5280337070404a2bea8073318a706932873240289e28ed30bf310625cb705f2a82434d700e701a704f1094802f42773287402e7021426c32a731de50052270430a2a18326e4016703414cc436216d414cc2f2b426080333143318880337086807240e131374043309f2b03249670507049804b323e808c330818f9328e201c2a441929160125cb30b3312a4178707731db27e0805550082c0c21f0279a70255007339c28f131c42256700825ff805930487045500343a5155f803d700132c17006334c2430300932782ba1413c323c
def LOOKUP.c114 : Nat := 0x32a8702132b443dd301743c270472c5e31de702a304880732c2b333c4339321c7064234e8099707542f4329d14df2362707080a57052706427422d3b434222fc702c707432193264313814cd8072700780732c4d40ed15ad42552cd380a931c632b622093137410833697047804e31663350706b707f2e7732933330156d303b328720c5304227e02e8e295330a622377046330a808e329b339030832ef7432080252822184a4355702441d94079706e300a1927704140e013ec3374500625f0802025885005702a2b6e800d32fd30ee214c300c15f713e628da2a0d70625005418329c533a6440231a141c3153c30f032d031bc707931d17064702420dc704c
def LOOKUP.c115 : Nat := 0x70468013704043403090226a191930c530d57077702826dc23d5709c114b3318258a248e305623ee304f2a297072705d2db328ec32b431a1705a80a04228702a327a301e24a04229406c2894281831734222311a41a12b7a25b87031500530d12cd9315c156630c6249724b12deb8059409a3150707a26c84125323170953137332c294d245f2dce701b330a70485005413030cc43a2309c709c320f2afd2e4222113285803d314240e8323c41ce299015d6315c708727e9705330462f118031327732aa707a25942e9c28893138330c808c22073203705030a3703a2c61800c30be5007330931a4233c7022260010ab161470562304317d41301821338330cf
def LOOKUP.c116 : Nat := 0x193030f91053705531d92d5a3383232a31c8707d18ab7023423e337f709c11ee800a2a7721d2805a2a3f3069263e80242924431328812660430843f62e871922435f2b54242720fe24a8237e306c7073322780192a052c688026230b4365182d70498030807b8068332c2b4f15e82c5524a042f429cb701721162ba670262c1a2068329230ee41cd236c33a0316832a02a4130ca80633233307843b0708f31df3039311432f324407096415f702141d62524321040163368336c317f40df224827de705d5002236370092b88321922c942c64332308b3141334625d7402b704f708132878054406c27ff325e25b82d3d317928f370277069316820d52bdf3226
def LOOKUP.c117 : Nat := 0x3132705d7079703424b4203870082cc2700642c52b562c912a39404e32cd707e3227701d321916154303328525c8414830d34016429c333c32b6316f236c3398307631ad804e706940842081404370473168701731342249246732e7303b40cc20b841d9313525632d41268742fb807e32e6806415ae15ad804a2e034339184917fe408231e933722b5e2e543023702f2a65500212114091709432b442a6808232b420e6315880702e4243d64349809925cc32cb4136303c70882125311132332e9024b2500340ec42c6306c303a705c314c42882e952c21706f32932283800830842381700c40d2703843e017dd434e434180a5803442081708802726aa210d
def LOOKUP.c118 : Nat := 0x30a5312b2114304843ec17572ba241d7317e3399703f803231742deb21ab31a4409218aa706d41a82d8530ee28d4424c2b6429ef2ad322fd707f3068705d3063433370912e2d404e4226332f2128439c808a31cf29303062179c70742467404b704c2ee77085408c305d109516f942b630762b81317d333b2a6e404f41683316417f3286802f3157312a806542a4802e40ec80802981701431dd803b4228321a301227ea25b9707431d34229805a1649413017d78087134e80752df92ad3321832c32ede7015703f8013705640ed31083091411243498075709330712ec0295724f23346702e30802f222cd916832943804170548013250229512425226d7029
def LOOKUP.c119 : Nat := 0x2223251970253120709c2a3431b02e7e70212dbe317c31c62b6b30f9431633164160311a80a9268a800c436728cc700220a5306b21292c8b808232032eea803350054353407a43f533162b1a30c83233327b15e87011703a25815008413c418a286210248020329d30f4214731433070434480a8703f7046309a20c6317e31d2808c807531977021302332e7707023068032309042ba32d0704f29d7184d2ab131ff43f6260c27df27b27032704d805a326d2a5d24672c6c335440f8110270397024325870982c882eec21d13138324b321c2de3315c80337011302d41c330dc32ac32342ed7233e22b38014329f40eb412513c218cf4273311f327c801a803c
def LOOKUP.c120 : Nat := 0x43b130f7313830202431171b314f30ad30fc2c74312b708d701833732d18808c2da5705c70598098328331384354302f708d24b62580704943582120805333947036439c7049409d30542d09700b709a2ec930462db332ce807510578007312c15c7192032db30662eb026542f11333c280042fe7034303c40852b332f1680a4338d2a3f33202c3f311243b02469321a27013262412d70902a08140b26f5327c707a23f443593339807e33a7311470857072242e404f21155001322730a21805316132ab705e41742d452b88326e27a880a832ff802d30e432f97070276e8039804b240c413b2c30313670732b6f32ff2374704e20c632313223805b32ca224a
def LOOKUP.c121 : Nat := 0x44022b88103b805a70141477438831872b582a5d7031207a243c332c805a30e331c7287d2d4c70487005707b439133a632c032fe327a33a812502053707b2db4328f2c9f2497336a708e306c407670483347339b5001705620d57075179b707c33082b6b8015806725c233432cce803d331829ed42b92a0818d5703f153c255142bf42db404d32fc23753044406480177087317c8089704e2334705530fc7085707f70517085334880662419314f418432c32def211670988067193031ba2339701d323a10d5704032863114329d2125330a709b3167805b32f132fd803170025006706970857034300c2a5d700c310833514313423e80312a2d2b9030827005
def LOOKUP.c122 : Nat := 0x42d631dc2f2f2d80317c24b922a142c6291533905005331532342b6930601809707d317f20cd41c01913259331873065218a7073413c3367803920e7701022d033a5701b1898290b32935005801a40e1801631d318b570891265409e3058302a3060150e439870582ccb175a24a8803030cb15bd4363256332fd25198041290018fe310315be282d32282b1841068022808231b718f3413c236a7077413c7065707a304f31ec435810d3311126be8016305a705430a541b8420625d318193316202a700d248e8066120f2dac80417060704d325240df80812f22709024a97019703e20ac26a327e93159317c208230a0277515ad70961484709a188c209220dc
def LOOKUP.c123 : Nat := 0x323f2e92708527902b1180682cce500a23de23047082317c2230707b500441b931dc180941d52ba328bf22547012333c43ae3234257627fe7042190b701570047089233e31e7130d315a32da2f0f702b700e70647076238a706d267d29bc704f13602e418033709816393287417f25d721d924ba706c2cb231dc18fb70952305321c253e80312a83703f25d330812da63309706c2193706f8031708c31e72a7617cc2120702d409d33782cc0708432d72f083187317131e97060294b808e3172707a70868065707a289a31677062184d708d40362deb156b706b31ad2255705d31c440293395120f22fc233c7022205c29e7212a303b708620c0302d7040276e
def LOOKUP.c124 : Nat := 0x20b1224b7014808e3347246632f0324a705d702332a83263188d3294323433a62cb92eb02e63221d32007025339c8034237e7020320e2f2d806e20a6212e800323de13fc329d700b2d2f803131de3231409c33773136702d18877059113f42552b09192030ec70082633315070868071249529557083706d322f181040252eab243028af23d68070237f2549801533a3160c70302cc1709b80a722fd4398403332e727522f1f404212ce224b2b33325370992ba8324c26e432f1709b31747008709b5006290e706917182e84323f3316330c30c62bec31d2318026c57059439d708641b870157067702f20888025130a280d7013212b70822cb9190614a88026
def LOOKUP.c125 : Nat := 0x7032409b30b243e732be70998082338332b28019422631e0331670938099702431a28040418b332928ae43b350022c963039237f70247046302e2ee9248e2486804a23c9404f282c308a22808073311a135f212a12112e3e233316fd255a8070316730f070553150304c42772d65134d702b322729e1403f26aa3150705031ba2e0341b9706f43a7313621ff33a0704621554130300c7092338141213150248b8048803032e8317423d1338913bc43d719222de6314e7064803e19302a7a700c258042af43987010334332ac24b52a77334e7011705231ba70552ae0183c4313434e242d407c709a2cc030ef22292d9f41b370853382308a32e62e4e24a9209f
def LOOKUP.c126 : Nat := 0x317e803d31e53232135f430a8099310570702ba831a430f82820703f309c13ec7061434d436322fc246831b080a45006705f80828093319c1250304f317e705e32fe8068708a320441cc21f130a221d143a8805b30d280662cd9190a80a9178d3167224018fd26b43136807b43ec16fb7086700c70424092702b154c800c323d41d8303923e92f2a709231042b0c701a3339317c413a177170232256252b20a627dc5001807242c424317078416930ee338d2bad31808054313680344261809c3053436422542a36705429c3332f7064708980672ba431cf31af236370382c327072223f2cb3708e337524ac318543e743657080705721d9708e23d040873189
def LOOKUP.c127 : Nat := 0x706f32d018a52f0f31082ee2706b43a721ff323032ab701431de29c52230804c339a327a3288704d809970182936233c24ab33a1702f317442f52b22808e5007335c23162cac701e2cd95001703431fc24022456171a249430fa24ac2e6c40eb24312e6c70652dcb802711d7152926bd30ef702d701b258031c73365289e2255707020e8206d332080977081240b411970207018703b700a154b1808211d30f921f82e70255031c627e54229707a21d93210436380662df615b92b762bd7339413bc318831eb14df33a8808f24bb12f380252dae30f9301618cd3008808c13aa24667066706d2a0432b632e84315329f154f1930709a18c75006328724535003
def LOOKUP.c128 : Nat := 0x42b5323f338b2bad2b14702c2466805a3013702e33a82a5241d97087400d703e1844329b30ae705e8066709443703054324c42d770132010334770812c8c255c703831107079808c8054436426da7058319f30e4184b18c030c82df927172b618075330b3234237232b82c3b295831ff307812d07070434d21db27b0101a70412df4709228c030e430f814ec702240d2708b337d21c2426b1459328425f043f6301f313370594313404242fd28d018fd4014708b7013147a704d8080803331b931e8317f404e30ca7067802e43f3232927ea705f136b15b9417431e82cd8705e22fd43f0332e413b31de332e805642c729e9335143c9708815cc2816418442fa
def LOOKUP.c129 : Nat := 0x127b800b32482bed255c27ea2ee930c480218099331f705016152486148f708b2abc70532956702d703a329330d12b7c80824229708b32a03378339b70017033709a29572ca08027500532cc270232fd31d24040708f337615e831e032c2707233302e0370117047330c2df550082f2d32303137707970645002328e2334327a7031707b703021123384317d400c8012701340d610158005338f43a82d40802620f82b99807f2a80707025bf42b8708a20e73290500141cc328480668074436331ea2402308c2d07255b807f70583092152732642d2830f8307123753135426a706232847027702b200f308028a73300313342fd2ba326b022ba7027708b7089
def LOOKUP.c130 : Nat := 0x101d308426b47053318a708628f04401314f25a3174c707c14ce2bae3077314b3264236b3381702e13a4310628da7030321430d5412b80197010255b321a27dc407c28ee15be7074248d332e706e2cd9309929d18034500180563270321043f7706643f72cd88099709b3234315a2a7f707f2eb4152b33a732a82380439d332f116222007047706043f170582958237e290b316727d64254270170627090262e32887030327b2633709324fa28b9802524f725cb28a73225116130802ebe2bab33512e702b608089701616132cd3404f32a84229308b31a9274a21647047212927522579708a804543a5332c2bed804e3300417d42b8704526ff3188707b26b8
def LOOKUP.c131 : Nat := 0x308e40b32b6d2f0f2b2e2d02323d251a3084700130167027213f800617ca800d8057318b3070295d24688064707925af32b47045315a1933338f2047330c236324134048706d7027426b312b29012e9433a8412f2d663347312917ed40c3705330b2707933232958294f700830d680a9238122893197330017db703f22542f2d806570442b275007702131da708c20ed32902845161b40ea25c17040282d302050022cd928da33837062703f339c31a32eec2f2441d8326f3294306b319f3394805813c92012233e32b82eb3292580683293303c702a2ee7706d328225d42ef9310726fc317e32332bae5001315c320942aa10c28008705f309930bf31f83067
def LOOKUP.c132 : Nat := 0x25c0701d2d16806280683374807930138013700a241880312a46708870777020808e30ad3214204b809c324b705f2914709841d9705c33782d36703e20f841364130327e40412900321970922b24249e3035706d258129f722122c1a2d9341472d282ea9705b705128da708c706232ac3136405c20e723a942282594311b28f0308031b2310843d832b6809b2ede2210706e2dd73232701e213a30768029323380a7440170012e9c400e4365709421a6800a24a12c908068417f4403705b338f2ee8700d15ad2240267b2bad318a2c69702441d833753290215b80225004210c31d32d5c703d7067290d404d2ded7050323f18043214709831382e0431de323d
def LOOKUP.c133 : Nat := 0x7053704e30f68033704a336b313830cb2cd730c643b240c6702a2252253e708d705d330b80682f0e424d43fd2a02280f2b702a63333b7074338d323d80792f0f101e701a32ac802c10da5007500770532b28224970612ed92369328a331d160d702f8058709b705932aa2c7931732b2243c4809a705f707c406a706c33a8701b41ff109a31c6700e2246429510d72908317e70627019706932a0175843b1156b2241701c31aa327c161523ab15493009709543b3335d13c92d6670752e0370792a5d3043703e32b641694139701a317f3047500a805743e210d141d9337743e932b5701631ea306615ff191821c72c277084318b170e339441bd20132a0380a9
def LOOKUP.c134 : Nat := 0x7028302f27a831d430d4333b10e241ff700c312a43f632a931d324fc436531727002804b405d212a15493024315b40eb41b533602240709724677028706d2e6e41d840b9308b706d326e2b8e40e9224a339b17592d18704f30ef32881898202917c62127176b1567704d2c2d2b5c705821a316a13180703b319f417d41b630db28ae29002eec177842562a6a213e22c9334732a032cd2f1f702d306a30932dee41c32afd707330717070182a170e25c93178413032b421f840d1440370562d2c2d9142a3411170453306804924aa2128218d800a317e7021703e27b0312b30a72e9c4278429531df22b133a52565705d707c16fb147b7005405a3180802a8034
def LOOKUP.c135 : Nat := 0x42567018708b315c2f2f3380176f182a707f29d24362336b804a41d7178628164188705e709930b44212705b328730154116327f708532f4166a2c7f26b87083233a42f92b6311077061429c809c3210293630f841654255317e31a3404e42b032882f2432c3439c2525280a31c242af2d6a23de1616403c805970152294224a706c427741bf70832e02703031e020e82212708f2190800a4035703e709a2c927026430f29102d6a7084706480823376330043b2700a17ec2de150063224402331e02d5b3105328431d841c232872d7114ec32863140707e23b6145e701925c97083212022d6708c2eca803a701c8062703622d3706e227f3167331630833348
def LOOKUP.c136 : Nat := 0x2f24439743fb2ea7335732db3097804a179d264217f0313841ce706632772b9f321c320c219b322831f6123b413c7084414c2cce338d128440122ad3709a2c4d3270302c42b430d1702b328b32b5299640d22e7c7067192b70054403416b412931bb32022955709a313431ec2b2e808c2c0b439821d815f02373700b332f7049803c408770938071339c7047411b31a22760704980162c6b338e700f22a73323705a175a20143376803d706c3194706841212c8032f4413b706d2f2e708f70473168709032e342b04167427728ce3240302b700331af807f3114315031742a03332225c2338c705041ce703c132e339b806243b430e7708d2eb21316800b709a
def LOOKUP.c137 : Nat := 0x700a7012255b2c812f2e439e40d62ed41549237e30e242b0336a702c1934255c24fc43d7705d4170326425a43329403532aa13392188409d10ff300b321733a841af13bc33a0433331c4307f807f2c26291e704770453351805a313e2b5c2d8143bc807b32f12ac170883270224a708f802f249f2c582f21328d3256202f30232e5914ec30db2c0a317d30ad32e3306b8030134f30eb418a31c831127059701a802e26f81629336b2d4517dc70378067402e24a180a570902db4328218f431d41261300b32b543593228400f418a3156134c18152622310841664362702d321042112d6a22d0327f2ebd3136437080a93360805a31d442f97084314e18c7705b
def LOOKUP.c138 : Nat := 0x4210324c30fb184a70067065310b7015700e7082333c11da15cb22523168203180724400802e2c4d25d742ec706320d8808d308341d830ea18fa15ee15ee41a133302a3f27b97003294031df7062331131d47006807c305e15e8282d42282c9170477081705c4043702c704433a031eb4038324c70313348327c43e725c225d070142f1180652a3140c31907802770984041301c42bf802b232b80302dab700170704172324c2c80709b808f318c2c2822ab433823d4803f7085324c245f283f80087054709931163276807f175180322940328e40d2171b2448267532ab31e8258a2120706e2aa1706a2d97302f7040705980a67051314e42b440bb70817004
def LOOKUP.c139 : Nat := 0x2dc9313640423318326e323b23a4305342be33a1702d70382dab20e82552705e32fe33a826051211701e224b701131503230188c706e1570182e420f29fe427321c2190831d121ca28f2708e42eb4170211d5002303c3320192f2b6a323c270e8021314343e82997188c801426e130a332b62271339c19202b4e7082700d233831342c2f80873155702c808c700370517008246944002e69809a210d27d733a741d8237526e07013702a423e2b9413d9413c4140705943a62d58430840ed31132e2f7013803031422256324b24aa24123228249e70322181408c2816709a701b2213160d2b5e4187324a808a41ed70277090700e42fe236c1414255870412e54
def LOOKUP.c140 : Nat := 0x3076317f3287296521738009407419183083707030e0325d326f183b30ae334f7053704e80a630f02b93333b2e1e7039700643a831aa40747077708e8034147415e8700a702e29c43126708a22ec403822125005708f7081332f128b40b421417046704a32572447414d410e24ec709840e43125700c708332ca709180142ac232f6179540af224b2c4520d431d32f07168d7088709b41592081709331382a99212a30433137707931bb18aa704b41d930ef3135803a7062247e709370143381315730a74365805a500a7084706e32fd70903228326d804131d331342a6341d133092129107b8008268723767085701d80a93343701342b9242824f818b81809
def LOOKUP.c141 : Nat := 0x22e13197319770572169802210c5181c26be7070703d700b28cc102780062a7741ff43657047701c7093230470744353709730dc32f630b9706927a740528003311b706043f7705a707f432580a32e9131f5804b50023225412b41b040e632b843e7308d31501841309c331618c67082303b40de317b22d73180706c80333287314f500122fd317b33847058306721a9313524ac275830453302155e30e1402d2a3630d8188c137e800b808e2b57709731403247804b706d70582ad3308c332d25a430f811d12238402d8075309a31c52a667066320133002ac12632709832637088500824ab41c233a741ff709a251e233c32622b8e2e537019317d2d537063
def LOOKUP.c142 : Nat := 0x2dab7027239221d92f2d407d70737030436542c440dd28c225f12420805b404b70462e6b802726973112125070022ee2337c334f18c6709a231a417f324930ee31b91931313523f67062179533012af03053312a438815fb26872e5331e73252135f424631de31cf315b251c30fc30fa20de32f431712a782a837018805b134d2b6b295f80098082435470262306708b335170812702224b41da7019329d240a310741d92a63209e703842c43243427731dd41b9808f29f64308801a708c417e22d82d82231e25bf32ce708f303a315c209d5006809b32c941be3381407931ae13a731bb252e804080a826917059284680222e6c43f77096308b261f31e32211
def LOOKUP.c143 : Nat := 0x704e805821db40b4803131c822ce70912b942cd741da43541738800d703b709043be8027306c2239800d322b233232b7232341cc32c42e0340242ede414c303c80272146800770784085707f807e304732c4808e41bd13d9334c291541c34401700a7012255a5006804a31ec3043308f257f204d31444276339c701a29df80302b392a6931e0807d8036321c706f309a317e32a84139326031a332b7700916c37070805b7073249724aa2c95707d2817320180452c93702024317097705c2f24333b404142d78081262d7052333050043269701840e92a7031a727492697408626f9703731e6430e28bf7027255321ef300b338d700e23217061102131c52553
def LOOKUP.c144 : Nat := 0x32032c4d256c8063330c22598003305e2e6f436312e915be18458053708725cc423e32e531e82817335440844145705270362c7b15ac16fe7095703c3023293a30453230327b31c3706c702e2624704670373323703b32e640ea31662dec110d8009707b29c531df309c412f332330bf80a9231c16fa2e7c3223703e20562d2f30b232d5439d327715f12a6f700531383108804932487037706e430e306b201e240321e520a870252ed941c32d6b32dc2c5024ef8009294d2e5530ee41da125032da31ad1842311d705424ac30f5707b3311331132521221331616312162317e706431d17075702431a32d6670162b9a4387700940e7702e706832e6805b2e54
def LOOKUP.c145 : Nat := 0x324a708e24e6428830a0256c23ab25b625c9707f1566424d7008435930d5201d70082600311433901245802470072ef5308f3053181d700631d4233233542380321029582d534187240e704222b070383234708d43212cb829577091704632e7120a32b71250806e311c30fc29ea246915bd192723d6802b40e7302842d731352de1706280553322302f20d470262dcd20bb40ae20dd3240804e70661211704f10c0708631378049148c1920245b708a327a43d2320e302d3082320e3277317c3294156a43a6322332b722eb40e028c32188404a70672d702c8a332d2423802530f770384234407b709c326e314443a82ed91815700b326c702d33457024332e
def LOOKUP.c146 : Nat := 0x30a73307233d313e320670615008707470247080325827b4311b323f315a2af03090237a2b8042a4435e43f7706d436331b1338a3367337231bb331431d430fa273c41ce3051339a23023200332d31df2bed178841f4305d8066323b23ee80a8804129547096233d237f708e2f14422633473264702d334341847053314f32c230b4807218ec18ec80667089439c2cce7067705b70734288329f28ae705032222e0441897040334733602eb1703c4228409d80722464803e8099700e8033149110222784302f252e15fb15eb801931882afd709c407c31dc32b4183c333018cd41b43099809c401c4170320a413b706231a643253017703e288125b9335e13d7
def LOOKUP.c147 : Nat := 0x429a439a41da2783708223043228331870037017329232482a16246813e63283703742f2424640eb20732e94183442fc102619222b12703231aa19273203705e2a8333712b61804030533228708b701c43ec807f289f233e313e308f2a3630ab31682d2941694401221080a9408e3346214f32637025317e282115ff80562cc12d17205b2b5f707b7069702e70808067249f30c7324a8064311425907051704231a0148f3186706e2684136b28222af041ee807d323430fb299880732de3404b25b841c9808c1548211f707543a82ea72c66703717f3403f425e31f32e9542242a643348166d2ef741bc16bb30184309703e41852cd92ea2311232bb423f705c
def LOOKUP.c148 : Nat := 0x27ce33a77012703b32a92ea818762e03327641d822f3305e2b02336c32b78094809432ca2a088099336723ee702e305042b77009807e7066807f7086254331ce2a7532ce702d31804172172b803a704f332332f37076708e40b2702221294403304380457021427832cb32aa321824a831d032da808e333c3297700928a723ab43652c6c30a7320d32702b2030198003707a70113233413c40e11427707c706824ed704f320d30782a834402436d28dc264f337233a640cc431632c231e62ea231112b6a32232305803a108f701215ca2ac3305b22763067700c239380068047319f2d4180417028709c30e111f770262600803418c73233705d708043bf1638
def LOOKUP.c149 : Nat := 0x237f2589170e21aa31e02316706d32873214136c80643263702f7024701732c4707d308d30ba806c708f80587059211d236c233e3107303b42072ea832ca41da13de246e707b4158807d2c3f22001555249a80277044807470412a5c429b705b42663228318b41682c53225423014137248330c043334365809570437029296d80a17035807d804d145d418b707570502d24201f2d452c204137261c700d42728072189c704632a9808f338170362468176b4403500580181615323e2932300530fb338180578058307625d38038236a4024808e3282327c2363337d21ce280d2016337242fb703221d231312b322ca53180241f42602c28806c805a2210329e
def LOOKUP.c150 : Nat := 0x2149306c2db42a35320f808e704240233372706a247e42a3805831c42b26704c2b503252807f42ae435532c37081317a30f0433b318023f780243324707680a8136c40ba2a08806e2428426b31bc30ac32224324246880751932305d2eec701d301e22ee70254092307131ff7020321b7080315f28ad28dd806b156c31eb32918068223728da15e8706231af15be3225313d5007318c2a97706e808d804e2de3313725b9156442612a1d17584316327842a32c307064804b31c82927500922e8701c432550073018290230df2928702031b02500709b30fc7065400f2d89310d703230f0708042b6318a703d328e40ed30f94354412a312c707118da10c6709c
def LOOKUP.c151 : Nat := 0x413b43b240b72b284186303c2eeb249e420e706132b87016709a22c2500142ac707b706d2c50422730d62b99227b42f243b4406f306b315070522db517dc42bb2ed6705629cb26bf417f40a18003704342ac7087183e806c31bb707022133216440220d315da43e770873078708f302b435f32402dfe2dfe25c824312e038019703531804146706e2807314d70092c2c225624cd3034700130492e86242c2d18305e320f70723106177b800d808b706530a128d32c512c277087412d32b070862469301f70032df542f22cd331dd17a5223732b8233d500831ab238132a0305f30d5236c26a4440343572b32222d307d245570753090332141d2801733232b5e
def LOOKUP.c152 : Nat := 0x70052c28408e32f1801440eb324b10408007700b189c2f1620e280267080312b7024317e403431ab32a92b2c2d7f8071264a70708067156a2c5e70477056339b2c7830d5436f802633997054211e80a7338432db80a8500231a07004809c156521eb330a70258058259225ef319f235021d2259031bb807b8082212710448007248830bb40ed500632e3422832e730fb705c805720a9421d806642ae2c282cf33173326f32432c28223642f48032705f7073259e8027807b2b43189d4336709b327622b6800a80a6805a20e87022222930ee438133462676702f7003432a426070917006323f17e880897046409242a6320b417e327b709131d02db7807c2a5b
def LOOKUP.c153 : Nat := 0x31dd70981077800842072486312870522ab0800a7094332d70572c942b6a80a023802cce702d809c701b335d31a230f030062eec4344704f266f803a324a700f404332c0329d18fb70732c4d7006321732327054332d40923234310f2a4032ee32d943a7336931ba2c5231da312b18c8409e70947051703c315a702f32ac2ea37005708c31ff709c30b070804185336970583006306c80a1339c30fb4024327b704e17852c2e70137023430843702a25708141a4334f24522a2543b4315b701516002ee72ee730f92c302eec403115ec4372313742a532822c5832f92129329f2b4f4373807f708d803e13e6272680212a362dc12ed615e72986324b709332d6
def LOOKUP.c154 : Nat := 0x807d4303434a8034320b7070188a42b0309470787082315c30bd7028255c18de7053251c7069339631802c5b2d88413b18de2ede43577058705f2960248e805930f970242a2e7064140c706b26ea80a111098009809b235b2f2e707615665006318a2082708a807c5006303929d2302443384307430a437f2e5a2b8f15cb7016327e404b3315229441d8708041cf500842f9500141da708b329e50062928436442c6237e10283101331570327080149342552b5670452a2b269d803f31802381336920e82040808d708230cb3395409b2b50339a4302249f290931732958423e17ed302c2d4b3309317f2a312368317431ab317f17dc708430b37087705a8015
def LOOKUP.c155 : Nat := 0x706f329e309c2637800a22137009325d2dbc306922b241ce70853167230422482d8942052a7719093193282270582b86434d178d2ca4704e190b7029500430d830fc313411b7239540ed33733384327710432a8a800a703732f3160d706b708f242040cb30203330211d13513330300b7081808740d0706b31ea258a808780a9155f15ed808270942f09422843164124249642b4326131df328919074305700b2d9641db211d4212707f2ee832ed26ed703833a82468700f2ba3304a7023705f1795407d3066300b28372c7d3354326d20e831594178177711632b6b33772f16246770173384709930c531c4802f291270642a3933227098707923807030302d
def LOOKUP.c156 : Nat := 0x43f7706332ee294c409c2da810f3800970302c8970757052701c80a54006801c267b2ad92be7807d7069329f2d7d70334139706e708733137029180f32792c7b31f3807b2a3c18b940b8241680254157803f217d430526a32675409b40382a5c2901317d32aa809c704e701a2eb232b732792d7a705b411b32322495705b705050012253335c42c77082320d171441da30e3279428db248531681817407c7082188b3040706a304b23752b5c705b2006801c30e63138256c235925aa323f33653120705b238033082a6e7018401a15cb413b426070947048703a2c962d57303070652c5e805a40ed31e042d4801730cb328223a3277832f44188311442fb7024
def LOOKUP.c157 : Nat := 0x29fa31ab2a7623542a36225218cd427542e83057705e70257078181f15cb70531598249f32fa329e80a7236c42be70047047701b7058232a42e330fc31a030c8708b2c5b33762252709143d9407231af2d53286c70243003801d70882cb370902dc02f1a701c80a141d832ee70382131801d2515805b42c33086707030522dae8063707c2a40802d302b28cc33a7708531b07024407a32b721252b6b4027704d708730e443333120315c706a41522b6b30994373267d171b4208270229092beb4212707642c542ae8087294d808031367059331f40e6143531ab24ab192b805b31ae11ac178d7080233e2d53404d182e708b32ba333e700d29d6312c808a42b6
def LOOKUP.c158 : Nat := 0x18de80123141705c18b9245f7075290b708680a911a3212833a17009703024974308708c30fc427832d9331770692b612df5181b2efa802f179543533306277b2492153c25a3700980a97054707e5004707a3138707a29391840212741b9700743ae7053805a700c2dac708022402f29281f2e0a160d20ce241326ab2bae32d77069314b709424a9709a32c2702b2b98405480043137324c2d78319443a62d8070428033323e32a07048308980322901707d18ec102a15e82664330a406222072b8c329242bb2938708142c34229807414cd2446319d30a67076324b11a32b3232c43367171b43605002313742182431317b2397211c2ca224aa7022327a30d8
def LOOKUP.c159 : Nat := 0x801411b8420f804a317f404f25d443d743d731b8171b3050262b3261129d800b31062ed030122df8703370773317305d15e8702533a75006210e803b70874010181780a7808e282d249880482db33054146f2dbd326d308f808d50052a3c32942cb4330b42282df630a92a824305807e707931e031bc3112329e7053401541d82caa4275294c3100411b2e4f4360282c225528bd703a7047808030aa184c703013f4318942293068326124a1104c8007706641a141da30fb32c2224b704929122dbc80733240705f183d808e70867079228e7075321b708732e87063409a31142e4331b843d6403441d2339c1542282b41302e4342c143435004700821411119
def LOOKUP.c160 : Nat := 0x701a224b4055801d302e808e806631d430ba436242762b8831202cd6803027e07070704043932143439d325622aa224b7092707d20de216a700431098008808e300731883381121f140d3311703d8045707d24012c54296a800933122c8c2028701e418a40bb43e7102d7040809a707f249718cb803e407c32942a7418462dc0271e32a0107c80a8181d706f3228254f7095237f24172df943d6807432ef1929701140c1423f18172a8140c2302a258424ac2c92294931603011808021247032331132a6701f708131e041c170817031804e803a707e40ed24e6305c7076304210cc43f719172b88804813b530a51146430a32342c832c898075218740b72256
def LOOKUP.c161 : Nat := 0x2c9230d714d731427049330a329b30757077333c30e1707050062758408524e1330622568098317c41bf70882a6d31081605705970378032703821c3318b30635008702531f7407b700e500133451318331670842c5c226c32043141703270832ccd2230329480943383413c4390703d700970992188806843593344439d3203102b8006304632342361102e703311b2800a808f277a8033302d8024701e11913288704531bc32e3306a306930b0801a803e2d89708243a8702e2cb842bb111c2bac804e70922d8642277013706731c08024708b30eb703d15c4704b31ff42bb24a1703030453258125133997016183c707a706b1844709a2b6722552ebe8027
def LOOKUP.c162 : Nat := 0x32d4307f248643162df930f780682ba340162d8610b4435e40e5327b2b2180494229704c32d0192b41123320240380a77010413932a0303b707f321c30dd2ef4709731288053703e31ec32f2305c43e8709443f630463114704e43b22de470923125232232182a34807328f8307715ef708d803c303a2c8c7013407c3171701130cc307d2a8232ac2a6b311d707142888040413c22742a794393708928293317318a40d02b0518aa2cca3300803b30397071253932642332329441b9408430f9422831133047332f321020a7700f184a33224357311043de700e264f3198239141b0805b338e302c805529412424160c2881116e7086709529cb103044017064
def LOOKUP.c163 : Nat := 0x700333213084801a2d52301221db2ba2808f31a2191a256a708f2403184a43e92bac32b7702c303b192720cb334731e0706141c8312030bc40de709941b9252d31273117701d219242c6702533392a7831337031269970634314211422562a7442122d883311440341da203f255a23cc7064332126b5707d302240fc435e500a299731b929e033a643a25002802f706b26bc7068706f339b30173306401c2dc143102dfe5001338430127022436418f1703d70412df4301531ea23804065229f809c2e437056401633812bad24132c96804943652ccd707d2ec170822ef8333b22b332362db727dd26512cb880162bd33106294a30fc2c7a70927059419b18ec
def LOOKUP.c164 : Nat := 0x43993389803229e9102f80063165705c334e701e7033706f42b02cd733a6709c3054242822b329552a82308325ed440229ae337626111565418a17142319301e2ddd438a708540ec2aef404b325221b5800b419f4362709020a632f42132800431d417d94227431520c47050252d30dd21ca31362cb37088324028dd22d02e01288f805b706320a3802513cd324c25cb32aa427731e03380321070012b0a80a81365308830c333172142800644024275414b804f70334400431328ff80a912e4418b704426e1703f20cb3053314832b63309702f332e311c31ae7099706b701432fe302d804018fd2a7e32787018247b311042677019700f700532b8327b3171
def LOOKUP.c165 : Nat := 0x31c613a1309524ac43a3806f2de42a7731c5701f316640b1323743652479323431dc1032706e316733a332d028ef148b701d707d32e7809a30a032a824aa2e0343b12c3f7039700d433b289c415c30a113d542a58072236c7082325329c4240331442cc310472d8842c7808e3321803f31e741c12552300720b0332f3384804032287021220c258029ca339730a521db409230d7417c70568094422531d1130c294d329e2a5e31a0338021ca279a7083148c324c803231dc708d183c32e8314418aa708c702243162bf98041191a4402706e703032f31930316833535007708e26eb2ed730a71211406c24057060417423747080338e705928211436153f809b
def LOOKUP.c166 : Nat := 0x40ea80a710492a8270542f16700a3185702822d02b0c11003189292e2a83326e43a62ccc324a24283198701a705b70098018148f317c2922218733992bac41d670093076804a421170864173707940be31bc20af23343249318715f070912ea621f630fb327a7008307e3114404f4365285631d1103541d930e4311d339029582c0d294c108050013194701c41962bfe43f621453256332d5005312c2f18701629c170482a0b800c7026705c43f32df8281f709232e743f740d5809b803a32d043a7319d401543a8704b32ac2469206c802470072deb22e8246840d632d72cd3317d18ec701543925006323b40e0130f268470832cce335033953231315a2a5d
def LOOKUP.c167 : Nat := 0x2ccd43b12820225d800426aa7083500a807533982f00705a80a822092c33800b33212399323d80194293434e2e84809b2bae25b57022704632a07093329a2a07294c330a701523327036136431dc807d314e26342a401931808b333a2104703929b4804c31a421da808d4092705941d6239841c3330041ce32ac25882e7e31ba32b8426113aa32e780a5152b704c333c337d2a0e80142ed01922192822782198232b2f098061317e4224243a231115ad30d580343374706114f7800c13d07009164a207a439343d011f62ee213ab708f7048704a18c7700e40d2709a1178135f7060307632623334709c7014709030a12deb3046289a30477062705443643107
def LOOKUP.c168 : Nat := 0x7048333b2eeb125131ea2a8228d980174364321a304832632ac2300a2cd9413c70378063336c80a831bc2ede41ff1550703032d74138316525cb309b41ce333a2afb28ed18bf239b20de212b306c7092326f7088436142fd24a643b332e432f2148d302c239a32e8809a422914e5193429f6701f262543825003305218a3339a31df30823225217e703f31043150700a2249315a339a416a2eab2e2e8054701443bd706f41242eb12e862b38303070632eeb32f44276703017d73060331831de709431bb2c0e800b428d2f2170822aff32272ea343a72e022467302f700440808099809a191a30e821ad31dd32e832c4321a2915809c33781843708442532580
def LOOKUP.c169 : Nat := 0x31cf21da704f2a82708730a632f1302b807f18ce3275329c2491192b311e431613ab30902cd4259132d92385801e32b8808f24d42a362c71404332f23347500124bc423f310831053104312330517021701d70703291304442b8805428d24091222732e5705430f343b143cd233c210d28a330f9801a2cd77071136c2e0470497068339a3077406a2b21314341cc707c3097419a809b315b1556245e426a40ba708a40bb301e3384315c2b0b440370747088333b707a7015702430f92edf2588222e2dde27df2eff130f30d141d432f480a9707b23962a0f70277032308316757026803c304c14ce70632e03302443bf70587005212b2880705230f832a931f8
def LOOKUP.c170 : Nat := 0x2f0e337e2cd6305224bd31ba2553702b32ac3167707616fd3099308c23493172706b258a308f28ff17dd702c4073705b267e33a8316722e732b3707070323188809b2df9707d33a12d4a808c26b428c1207f30d5706943a731ba500541c2318630771194800a32af23bf27a643ad701c2479703631ad40de21d17035707520dd425f709330b327dc2def301730e82ed62d6a17c2258027c17032338143b370412076321931e8252e3390324c31db2b4270682c312431808d707d29ea704f20cd2b873174702c2212402c2f1a15f0705b19124072702415be30ee708832703039335f2065315970613026801e804141677009402b40d341f2305030d3417d805b
def LOOKUP.c171 : Nat := 0x5001233c30fb2e61802f321840c8703a419a2c5716bb70672ed17047242f2af030952f0f7002704e500121093072177a706c701a31ab31d218103166310630fa2b14422770557043440124bf31c7709c413a2db62f1f709b2d0b29433373332410fa24a170657032434d24a6403450092df732c2709023063172709b2c442f2c500623ca25d541373210332e70744331406b4364702d707c2d954173311228d4808f705c32c1290612d32643320f3113177c338d26b015fc308e41cd705f70022eb131d1154e42573324805670261548215532c4306b3058339b802c2c4a41d733a630fa707480317003703c32ac31a431af30ca27de806720e8806842d72af0
def LOOKUP.c172 : Nat := 0x805631f5334e32b48066809c31eb804080612d3880a6223718a92323808243de417d807d2a31701f1855704b7064424670191786225132b7307d29b430b4245d239716ba324870322c3e1045320b16b743382f0f3070224a7031809b2e767003333c702630bc203550012d5d17e870402f0915572c6930f032a832c3337e304d30527091704770795001806570082334338e318943e72d17412e255b80343255233d801532c03210803440b530a732317007333940eb418a10338006324b2f2d422814297034209541b97054700f42602bed806e7098333a7093315a322631d430292302432f7032219780242b1550017048162e800d500870137003801e2ed7
def LOOKUP.c173 : Nat := 0x310f2d9c70921559246931ad703d3371339a33473225126c16be31c580337053434e282d30fb409d300c23fa2a373276305442952a6524552e76418b4303236331f4332f707c70492248706c703c144a2c305004245e245632e81558703e809c43f530b3327b302e70582821323d2ed917ed2783231b30ac288a31fe24aa40928041308130fb32b5305470022edf237343f529d0700533182eec322643f1180e315c152b31bc1750305f334831c7305f32103381303180042a43800d236f288931672f2929ff50017099225229b4233b32c2709542ec425321ea2d1470847054418a33a626be182e2b013216700a309930972b15708315e541c33197307628cb
def LOOKUP.c174 : Nat := 0x23c12589707f704331b9176b15592253324b23e725da8006421141da320f31e03065707430ea427617592dbf7092327543ec2a40707e702d707343d0427842a5277c315b30ad3050410f3180806231ab809c188c312a215031ad802e20af33a8177e233b4043707b21ed2f17705443e2175a70854098704a23b9808130c9409d708f318f708518f4412f41d9702f3168409e433b338e21552237257f41da70902a8143233107258943b215ad7048337670473138258140e12b7124e08022320821b431eb30832eea24a143d032bf3322316870097011339910692254702d311343f17015236a24be8006422643b3418813e98039275115db30f024a0152b30bf
def LOOKUP.c175 : Nat := 0x41112a053066335c500640da7008705931ec807b4082808d3108804b424e41da303832c124a033a7705d329e24c2323d2f2e31172e4b23f443f6339022132b50336541b643b030af303c246732e7808e183328cc42ad42f442722b432e3e268733a831e042f3320b17fb33487046801432a724c12b69317740e1702d24a9806a30e92216800d2c5b1395809c339c300b702832cf28fa5004326231ef41302374311324c03195338c336880a133a72592331815ff15da709770548033708e2b9918204325801628d63035707e2017206b3381809c32c03074703c41d93279267e708220e8339b421931c87090305917133047323370762dbe7059321630f67046
def LOOKUP.c176 : Nat := 0x293841cb327c30502b217088702e3352237e7016302027e7209e20357058329b33a7249631bb319f4246212880174257401c2da1323340ea257f8042704c30752c2e24312ba0160d2c4b709a319832754087703e40ed70932ca940fd302c209843df80192075709724f642ac16be807124e63254306614eb707042f228d2303513c84010704831ab43d7320c312a43412bd4216480223211801431d21794804330cd2c6d3020707e417a32c270873084255b2c08707930a1321c2c6a70122116315a43b2700d708e29fb2d6f2c3043de413a212a233d128f706f33993351701d4349306a32c3415730d830b0700d31a129f6704f500642bb1547705d5001703f
def LOOKUP.c177 : Nat := 0x3281803432888046317d705c707631ff706731192601413831d430a716fd272b328d700c24c530c4221322067045702f30ef7084435531e82ced704e703c30cc225330304212418943b1805841da29d73104323d32aa32a97021706a31c62a50317d705870997062704518be27837053304870662f01327c7078426b32fd808f311e708b7096327c417f233e24c42d888055233370722d6840e840d68017320b2a3c14b840c417782c6d7050418b43f7706f70754185703b26be42294211707a31204370232b31882f2a2c4c2d4529b5708e2d9a13eb30602b20190f41ce2a2d28fb700370082c4d2b2242a57078255024c3803e308331aa29582a832d44339b
def LOOKUP.c178 : Nat := 0x32703112418941dd800727a0709b807523807010806c70523106236c31744207183343ff702b32dc305470997076808d21a232e81212706d25c1324c41b4424d2929293a7017709530be178716802a08219750072211418623f3705826ec33a632e815e627d641d9500522cd7059709a41373292302233a1315c28d0709a438018397004305f24c6315b70457003701d224a32c333a82814306a14eb33182d5b2c5b32388018312b22b042687079335080a132c041d942ac808032b526872b60301718cf80a1807022a55003315c7032221232be704531c570133108156533994183704580a9224132583226308b500325c9409e311330e27047706a31bc4120
def LOOKUP.c179 : Nat := 0x28ae314f15ea7034318923757083809b2d983075707170701908708f29573168806c31132d7830b3704632f1321442bb24672a05323c2e03143b4036302325c14387807b41ba7065708f32ab24aa2bad7015180830a8709421bc136c315040dd24ac326b2e9c2a02421970943144318a707b12dc17dc80793020207832ed30f031a441cd321b23682cad709331dd42fd2b7b2e4f28db3291709942573114315b430631c8224128202b3229b57050709331e92a3340df2ae0500342ba709a20e728da320e705931a342a131ac2d36104b3032801e238180a73067318a2b982a50327830fc2b7a70928073146632c341ce20af156441ae223532dc25d520de4278
def LOOKUP.c180 : Nat := 0x704880a943d1426b208014ec80a742fe237543d92e548019243132323113420e709322557059413029ff7067312b2dbc43df29007088700842ec1566708f412a311f2e7570982b6b804b436540d5321a20b425d9189d709c801a500a3081805a333127d6331743fc26b4210d8066276632913307413b25d8707231b0313742f8329112e7808f31ea320b7040809b801a42b8323d317f809c709418c4708f42a3307830e3320a303870623050806832c0801a7073706e430529112a3c708113c932862ae0709480a92a6e430518ea31ff70647061401c7087322632b8327630fa14134207317d417d7091323d182b500970702902709142682d772e6f80a1809c
def LOOKUP.c181 : Nat := 0x3157430527dc7046803341772da280a842b9323370214040338270432550703641c4332c40ed3041702430fa7032704810f880232d7833117005335a237e70942b2a315a705531d4306a202133a7706d327080792807437432e729f02c5e237632a9435650018080109f42dd2a35307a25572b88415f2787800b707a30fb336b42b3438a500680a380592c7b708c2c78334732f01796329e224b3249706a2c7b5003704670202dd3426c24f430cb80a82169291343f6802e70927091703d2c7a32cc2a353079336c808f332e70533285413b702e1097802270762900334542fe434d26f7267643be324c31ba2e41433b7085324c181f279e7053709a70704316
def LOOKUP.c182 : Nat := 0x291326ed2a2f18fd32f32b67273c2d7e310270993348332b2ab6708b26bf326f310540cc43a831747053704b2cb9431443382125709432d0426132822da6306a439c1442800c706a438f308a25dd306b7061805a33a8809b289642f715e72bad32ff436241d72ca542ba8067707f33053318708b2db6700f324d201880a143a7294c43a42eec212a2b2a50092212413a32568047707c191f2b327009210b30e432b5308580063219702926e47070500331987086329225dc3198701a8030224a120925bf27e72129703126b47077434132b5294832854353324b42bb322c704742b9326d280d807324a943092592405f2d7c2a3c701b30a52d7f304823742568
def LOOKUP.c183 : Nat := 0x225520fe2e03703d23d32a7832fd42c18015305f430a25ca708c408743008040293880181777313f32da264f2a07336432ab3348177822d83227336c295931d480a115ed2c94190c431233902eab708b3346328e25c130c6805a183942b2312a704b32e630e1809b2b5a43d12a612522318622b02a5d282f237f163c331780a6267c305e2cc942af328f257d2cbb3138809922fc17f980754025410a238880042c5d258a23802822705531d04402315570402b9f1470413c221e43648034111f321b25b74200321b33457097307632c87086313e440133694272804120c6806818dd4359307b807e4260702a32913023324943652e9a808a42c22c8c41102469
def LOOKUP.c184 : Nat := 0x2b8d21c73287339b3144805a307541bb411a33237088807425de8006701c217780093041701c2019708a306840d32a33708a300c251e330b421a31c7417f255c22fa280f321c251f3308808d29678081808d70884122337080a629117012316e31292caf31d3134f282d32ed184231973233700e2b59707310f5334b801624d241da430533527003100c183c2b8820de290940ca709623802c963203804a3384332043f732fd1612311443b4318030432dc12a357027224a312528292104305f32dc40fc50042a9b7034708d500a4016703a3066291210ca192213a67032433b3227243b802640e92a62808e183a28162071808c2241426b31d321a22ec52b61
def LOOKUP.c185 : Nat := 0x307c321a318a18c5702e126a3016708d298b22e32751209d50012eec329321348005308f30af3345238132c324a13039808c43092e74216a29097025306c409d32c4418932cc43054093800d20e42544706b402e42338022704842c1808230e98087270025e170092d7c425680705003244e434418c431ce2ba2809c32cf224b31e570353317311e266970683353435980a6234e332143a72912434e2a253264306c7051701d23d04295308770222c80705c16122e0470373264338e3224160d2f2f80a931e0805f408725df18fa330930fb702f407d406b2cd5700131678081305f8047270121ab42278073424d31eb80a41817308a237512b180253316702c
def LOOKUP.c186 : Nat := 0x304430c6312932cf30782a672a77205b701a703542c57035414a2c7b31ea244c7030295743a270882ab52ce8336c330a80402655141d800c8034434d30842c83703332e33189315732aa32403201301f703641497047303a318b2c3032ff10c9438624ac435841ae299243582da620ab2da9803d328830c0333c31c82644318c214426ac702531a4421b327c704611b632c470487060702b707840cc700e706932b71031336c293d29392d894239427843a532ff2b5030768088307e27d413c02d5870772b8830172da9311b30cf20d51209436470807022708531ec706c31da277b316832a9333732ac2ded438221d070472a6e27ce339718a6803d409e4073
def LOOKUP.c187 : Nat := 0x2a78703d287d327030d830fc2847236c8068427521531840308e709a337870895008430b2ba22ec3809b22963099335d334030523073332e70532677707c80643090808d309d708e181c803480644023700c700c27b27019803b31d070712abb7047809a50062e43336943582a2d421c70161540301732ff324b2de432ff25e630bb301f314c27003039309b20788045267c18fd41b5300940352a6e2b6a8063181511a0702432ff25e4317443c433392e02701e23d21222318b31ef2b33320e805b709c27af2bff708c3196413c159e24a91452800c70082d5333a63345404b336c3105500a412e27a0212a327c2dcf21ac707a302d2e6d42f270741645800d
def LOOKUP.c188 : Nat := 0x184d214c70802cd631e7405f310d7025801640e08082321041a727eb32872cb6316520db1920179543ec2296309e191a325f8065322f320f2dbd705f2e952c538040191a708141d930164314410830398024500433472955327732582c4d22f7220813b223f82567302223aa706331f7703231f770307035500115bf15833281252d7082305443b314993203281f7075805b326c80a533477063280441be3294703070082c30703e3203120f320321e9805b431321e6416f8033183c302e18405007332b436323c7306a413c7046706731eb300a3038330714e332a044033346703d31f63156183b7078404f701f31b48024808f12e9406a7010429d70231933
def LOOKUP.c189 : Nat := 0x18c6500650043399214e700b43a828224174709a319842c72dee120a7002705d306870877001702c701b70082bae802f18cb300a8031258f809a2f0e40dd337e706522547050700c25be25d44074323830bf333c70882cbb18c63157314c7041702d2e7d23f8104a30b42bef3197233432a7703f7072703570542cd324ac32fe17ac40c3706a2cbb31268075411920e823a13052330b328d331723a040222056333830f08031332f801741d924ec70452dd9130c16e8191e312e31ca41c3439041a7339b42ff8094700a40b030b330fc40b933742942435931af103a30d419198034705131dc21d58082210410608021307d43b1702d328340d650042aab2a56
def LOOKUP.c190 : Nat := 0x21fb312c220830bd808e80193165245d317121c8427670252f1a30ec24a132a580a31307318725b18018807331f840e02ed9700d709b23622e6025432403702d704231ba32dc244b708224aa32cf41b940cc24403143338a500a426c3044805b257031cc2279184a7002305f252e700330782ab83294313e7087191a14d4707327e931f4429911e1109021a532b827df324c305240e121f62ede70403293270232ac41c9311b314f31df208d8025331130df709614461489409e31cb31fd2ddd316b1372431280747018299770922b582ed7809a30d72332282d301d80507025335f26f4313430752dc12254703c3229800b327831ec41da80182cca2dbd703e
def LOOKUP.c191 : Nat := 0x30ee708d307d2ecb424418aa308427912ea940de1928227729f47039290b70534159703a706e0000706f701d808f704c33a729c4805b20fe702f217f8034317243a8706a255630c0703931d470757072801800005003705a404d2e81425b184430af2e858065333a4382137b706418f13107309b401d500a2954139e2f1117557067000028cb806380192bae241c8025315031b925678071328730e92b012e7e43d950092dbd2ee12d5b308926ea330a305e43a724ac7022337231634063223f311d13747063409b31ac2baf43f7438a2a6d32882dda326e31cb40862286159d70412ac2192b209e700421ef40d5245933162953705140b63347704622d02ea0
def LOOKUP.c192 : Nat := 0x500a335f707c702c80312050411032f4335e2659123f0000122032e232ac332e32d02ea032db43ff2e04803143f7411b500a31a942b0801a277c29e633802cce335e305470052e7d801742d62781701a807432932181202440fe308a154d32e7211e32e72201800c808d325e223d70267025201a700a31912e84704141b9809a2a7e2aef277b7029701470862cd8433b2428332f204c2e7e707913d6165e000021db2cd820e11689800d2f1a245c700c7064704950047091708531c5705e32a321863234702518cc404e2bb1800b317b422f702832f2337132c9311e14944085320c4038236031af25017089303a4364500480a6263430183390808026872953
def LOOKUP.c193 : Nat := 0x3230000032ce30972cd87038704629ea207770502ddf24ac415f707131cd2bec4112403732ca00007023439c700c2875253880251365808031054356703f7036704b27b227cf25537011706443532dee31741304406c3046301380993323257c80a33309409131d031ae708d2de0706028c331dc7093404e807e5009337532d77023700b7019404121f713d72d7e702632e016db800d30b020a615b93195306c7015303f100f3083318c324c70492f0f24ac313628a8303c31012103708e7029701841d33360329450033047304d32c43346210d302f13fd2bfe301e1496800c30bf3328802720b03189321e8075702827e92b9f7079179d413c191a7068320f
def LOOKUP.c194 : Nat := 0x2a0f32d032022e612bad415270392cd8339040852244806740e13300334643f6324a309013822b15233b8030237d148f232a335010b213e4500929982cdd801a23fa41743318701732a03300338110118005704131067043324a29ea30a832b7701c30a4330b80492815706f80983352436330d77095338f30362486202a423f7072708e700d318541cd20cd13de8095281728d440862cd92958308132b030f030f731f680152cce20cd70513263705d703e336a2a142510315a0000311e191a31ec27de295880732bfe3202330c305e302e302e2de641f431978053702f21d222d033392eec323b5003000029302c0f1036425c4171803780a6248c20d0181f
def LOOKUP.c195 : Nat := 0x41ca160c41c821d840b23383235e300a32107013308b33142b3a24ab807430fa330080653254702c43b4413a338e700a33673047709270032c9621ff701730a73346422670343264704741d3303030c5203942a63137708f30fb305480a9327030302ea7323e430613d8245f33953052181725bf2ea8210d40dd2211326d133433957066703241ce40913138201a705a7083803780a331ce15ac30ef33a4421b31b032ac701d70082df940723364300c242780313237703f807f2ea726ea2531800b311e302f4287314f43c32ea1321c2b21332d31bb289f293a2587705230d826fe21db336023bb2588809a2997338f30d827e8246426ed40df2a83702d7012
def LOOKUP.c196 : Nat := 0x120a236331df803130f7701e148f20ae2dec40ec8016703f2cdb41f422a28056709840432e11307470792ed93166705217d6247e275f3374330c40d62622708d404180542092403e308c43c22885324c302b000014f616b9242f2f0d804115f0226180057084706e338242f5263f28ff204e700a305a41ce33a03318266470348081708470555005701917234173305414498026409c239b3382706a8039138c7043328830fb2a1d30ae5009153c33a8701c412431d18081408230d126b531bb2a832ed2702240df2f0f152a50042eec4316246926f43108211d27cf2df52aef2270184270918038400a40ef317f43b370157045408f30957094700d1462417f
def LOOKUP.c197 : Nat := 0x2f0f703c000027a013052eb1500233302c1b8068330c703f3111289f2d5228a721fe809c3008319f15ca338a339b4288703d31f743eb3054700b807543de319f3134336031c6245e30a17026325320f3332232ff28a74092703723a2284330f970447077311330472e5a31bb708a411b7080314a31de700570583270336c29982572319f304f335b8080704e301040f2288117a0800d709c70663324409d2ee8708e2cc321962bc9324030bf808f809b8018336a32c1801a32d6701713d870022ce2705670113107208132a7701b7008701d433014ce2107309980563377245d24aa3075143f706640381565324b313770852370801a70113009704325e0324a
def LOOKUP.c198 : Nat := 0x4270315b3132704e339a42e313ea1728703a709a24272d293024708f7026801e40e12a184117705714ce80687050417a248130fa13e53263809b4121329d31ff22063137803d2af0500622f531712d2929d7701525a731ff8070302228cc335370762187403d17210000318a2d17305b28ab3381136b3383707470714246223480274226311f7078708541b97096320940ea5009267e28d232bf32d531bb41d97044332f30597033702533744365403440ec31e811df169414ae338f314b70693346415930e116b4708029d6700f27a6703140d53204300c331528a7417025a931a73285302f31bc334850043249252e32d029d1500a805631aa323c2f192a82
def LOOKUP.c199 : Nat := 0x32ae320a7045400b801f2b6126f30000335a424e700a50092b4070961016801f32d77096417a7030305e4074704f70197027248e43ce41ab2b43255b335231ff701517912f2e212329d770548032325e338329fb4228707332903053412a32638074706f2edf702b1794700c179e3218809870162b2730a17084301c40f424ac22302430404d808f304224eb28af24732c93701525e28006326f30a8320d2a78307115fd32c2321c272b80977057440332c3705d700e2f17123612d82e03425d7053440211a68024323313e4429d7084409e700828d22f22330c2c6d2a830000258943b321eb25bb700531aa41d72cbb31aa409b7052320732917034332f
def LOOKUP.c200 : Nat := 0x707f709932da32042f09104d70354108705431c8292980a8706c700c5007210d803a40bd2f0822a6422742663390178432313390417300003113706180941898316650073030316631c630a432622a24707741662c1b31a4107e417423d58033419626aa809700007096338f32b6701f704a30180000809a26902ce9410227d6706b17f8308332b8312a2116325421173254426732dc31a2703732e431aa2f0925532f117046255341ce701232e8701028fa32b6317070767021236a302c402d13df321640372a6531d132e533a77021805600002f24704742c5703421db326b00002f2e23f32b05309c808f31ba32b5333c13e410a52bae706e803c70828062
def LOOKUP.c201 : Nat := 0x70957011429515682c2e30ac320e3275338d3378339a30d87091709a227a7045329f25e52bab2c287032702226ab30602e4441cd24a0293a22352f2f7012337531bb3348706c3137702e704670813022701942ee7091323a31c628cc70437023708670193015702c7079000017ed320426eb25c1161d705d421c263131dd32d628fa171a70982b21708d2139801f8041156b17fc706127cf418621388005306b7055262d17ed2bae29d230212db550032df82a50274d1391706b2d9470372d42708917db2114209c809c000031f8320013ea806d259d80301714807b334e2cd670912c3f700f2a2331ab312b2c2c317d31b02ee231e016b330aa3048339532fb
def LOOKUP.c202 : Nat := 0x807b336b307c7064237670321787312b31bb70342e7e31d3249f70950000189d28217064312b338441883108809a337241da224a31ea41cc317332c1188b7064327680622910706c160f806b2a0320e53293222f248d4267236e308d80792114324a259541c3000032263346128a323230e32d29417d412b2b5713c931682b43421d2c55424d178870772df430c02a782b2725c9702b282a00003324339b147730d630cc7030705f708e31e0706d3232237421b0800b222c2e0c702140ed2bd233a57061339b808c172f2b7b8019702f412f26223158324070551793418820fd433a702d43582c2c21204322000070592dee80a92334417e317e319724a1324b
def LOOKUP.c203 : Nat := 0x42fb18cf42ac701d804d323330ec707531d3709742f22169708541da413b33a826ca419d8082326c410f43742c7f160b43d041f730fa7092317d80a744022de6701e704e42ac160c31f62374323d422942072900327d401c40912105221e8027705b321342f928d3707640de808f30078022317f707424ab80a8703d331f26f6305b320222135007708f433b704140927076231b31c870952c523276807f106a707b7028500518eb8068173f80277099426b210b413080a7282132e870538058160c30fc809c33a829d2312b3078500114b4807231c615ca80a92b2d0000500731aa2373808230ed2a05335f2ae025922a05804e326d150f3173184b15da29b5
def LOOKUP.c204 : Nat := 0x709b42b6156b43a8336b320b2cd821e624a9709932b670937043707a8058320343382ca52213707e322730c632e330cc413031c730362e0540152c5b126b70453325800d27d72ee180604359255c258a320b275f7010700d421080802b30708e80652d5442aa42b48040706b2c7e314f417f7095706f2cb0154900008077154942ac15eb709c324a221232835006321442f27068500633342443709015f032d613eb2a0880587059319b156b316432e02d0a707229d2701c282c32fe41ce3078236b708650062a7833a84069802270372a4e29002e3d703d23e88024802d2702406132553048500a259200007056311232b72c5225e627e740927032249532f4
def LOOKUP.c205 : Nat := 0x1549315c706e30fc703f28db15ed706d000030ed80687096171a2adf5007701f3168809b31bb805a3286702080a73051411715ed32942c7a26e4329d2c7a40ec3218704828fa43df2d512a072a3330fb3399404930c0707280a9807d42bb7011116626b5303924a00000295643f77057700f280c706a32872380311e2b2e2d5725b931124268707c237f80a17052426124a02eec24aa2a012b30707827e03004801f329d000080793216238132b6311f259f43fc8059269f323e42fe282d306a41af700931c441da30fa806842e4332f70028089707a709b3073000023d5409d320e3136801532ed2b79413c3166316727bb70472a305004708b224e80878075
def LOOKUP.c206 : Nat := 0x80682908809c7062404e43df2cfc26bf7033327732c4302e22562b8d5009709b702713c832b8311e7073803d70692dad3290312c32b7253231c8707e32da171a249530a542ff323f3286705c206c41cd00007032304f2d5980803024309a7082191333973316318b31ea3300807e191028042b33709b32e64365707543ec702b190c50022687700f339c20232d80433b14ec00002ed97088317f4139706c7096326b43ec32b2425c2a057059312042f617993021212b16fd2a08323e42b90000415f294070692f2d4024415d805970173138426b2c2d2c5380a72e0130541921704e317f2d77282d0000339526ea10198005328d203a410941da30a5301f236a
def LOOKUP.c207 : Nat := 0x709816a770272a36303c3083422e709a702f2a5c32b832562a5c3270707431c85002802a29012e5f41cb706724a1706a44013384808e331f326f31a4805a706f339c32e5327b807441d930a632ac3030433b8080129532ff30427063118e321028af4219412a701d30782c81409831087077224a2932708d40222932500380681798281f291144018033212732cf32ee706d33412375179342ff00003048707a701e31ad2a077003267c708a206d80a642b1335a3067700b434a426b329e313642fb2a82409e700c23a98021338e259b329230f02a5680885002802970948099703e27058007405a801f33a740d63120413a26f426f3709931eb70212d7843fc
def LOOKUP.c208 : Nat := 0x3144426a2e03291280a640d12c8c27c640c370248040302a224b0000803f7068434e80892c7b332b30b42b87252d328632cd70828068708340d030e42b58325d80743203427d28642e543390434141a8123e800a42ba120e70851740409d321b703230a7320f407341ce3262000070480000409c1615221230b47085806632e6809941ce41ce0000704c707c258a8034181b80314333707470688074702a425f705f23bd00008072323b31ae3113312c287d2cce312c3286317f707442fd2948805942b6303030e72a40233e70512914422825c1181b25924188708416123042704720242a60329432ee2a612b81261a800930fb43f7211f180a3068181631d3
def LOOKUP.c209 : Nat := 0x2093307730d4809c41d821d221203180413c183f700741c2703c70505001434e33132da6000031712df62da63284708133093240706a320f2c962e43238c800543f7706732282e85245d32402193708024a9183c33381623800d15f040493173706117bf259470612dab254b30ad2dab32a0312c00007060707a333b2675227b4403708b2cba707970295002802b13045006702132fe2b495002803241da1816322727e62a3c709c2687300c181d31b03210802a801e30e2000070852cd942b8433b803110ea4344804741fd31653052708631f8707a28293345338129403047705827b22640000032ab280e413c30cf1489234d7010708e402c23722b8b432c
def LOOKUP.c210 : Nat := 0x22c1415927a80000212a30755009314e238d801f3053191931427041422d313631b9335d802e338b18dd321b42fc70362a40225431b0330900003287808d294900007019701432093194430a70433179708227b1500929f6701970733369701841ff7034417342e33344426141da335d40723340703032932b9318a9705a2b923128319d7085421a42fe43812a6b2675438125d42a6b237f2821425d4073337021ca804825092829707b3171302b40ec2852312c2eb2314d28cc805b2b67339b26bf709033694244279430983204281724d515f018c62e75500532e73083808c33a633592949706d808d30a63043151d43f6806470182d584296314e70367035
def LOOKUP.c211 : Nat := 0x2b96435800007072329340343218311a191c311e32f443917041211530a3330a3034801f40c918c930de000018ca42b7413c707d24fc20983015408c41ca706530ae8018179a702331ba22da706b2c96701832ff7095702a000032927015260c28ae707726592cb2707f3382702031b0305f708428d42c92183c332324a97054702c336029ff25cb000042b942613028801f294142ec2cd730dc10f62251278130d821864310705432ef31f1700e1916294a14050000334520c0309418413112703231914295807c806641c2701c2181191e181d125870902984700e2dae7038243231260000268342c17029293832e32dac312a7041159b800c2c96124b709b
def LOOKUP.c212 : Nat := 0x26a9309032fe31201817280d42c10000411930cc32ff207970833315702f7042415e313870772939500224ad311b700280a7427633453076241d2040704b184212ef000042782b5f26647035802f70322c4f2ccb2c9570712e427010205b80684122803170822c0430962c96267e3120500643ea2a77707e2cb3307530b2409742eb332b705c438232b670591817708f2a68706a328731e432340000703f21ca704e2b61000027a67074703d3185205a802331e07023184b703e0000305d2cb8312631e92cb82ec318f4431531c8709433a8708122565004704532d92afd403770112d7880322842702b704443a2703f2aae334d70927066500a121c800a3313
def LOOKUP.c213 : Nat := 0x184100004212000030c0402a31ec709b70522efe2db7254223232081707712ed701a2dbd42c5104226ed2c2832c3708c31252cbb20a5308d30da701a26507021302224a130fc15b88026327b2d9f22962ac243422ba37054332426ff42c6225533a5156a3315706a500241da4403701421a332ac31e330e17084308232fe304441da2e0431503293270218c731a330162b993346422930b13223701c32ab25562a78302d50093267430d24033293319029648023207e40b932da0000704030a0708850037032413b2c302d758075416a18cc105e30b418cc31441919000027c919192da600004287114432ff252a336030c02dae318c32b34025302332cf2df9
def LOOKUP.c214 : Nat := 0x3317708b335d700f20b030f040dd700f152e703d23302e7b31d43382233e708f31807080320326bc295380143316218632d0708f412f808133392d8043148068438a2cd318cf230030d7300726e270640000302c8023803c209f702c808e701c404c3174417e0000333015e9336b2b4f2f2e33122ba30000335032fc317e2e7d708f30bf32ff7085411a108a427641590000704070772bb60000703532f34313700d70833203807443992410300b406431f830be701b408620de80332f05330a41cb701324ab43a32a8e800a2cc1308331e60000700b808f32b8259632b8321c324070182b99708c000031c721de800c700e302e254c239c805b27c7708b307f
def LOOKUP.c215 : Nat := 0x332e22b1307e802e212b408e000026f77021302f7033307318f418cc308f421b00002040324c702424ab29638009280f40917093500425722cb322104390000041a7000080993047439c00002373332d700a22232deb300a803d2a7831803322309b3371805b0000308080822cc4808f803f7005330980a42e8230de2b6824ab709631327087121d80243317500312e5409d330824af8005701f332100007018808c20638024312b232622547006703c4278328e10c8305200007004808f11e5332e3294708e10b180220000249f339c300b33097002327c432c41e92f2b31cc25fd21f7184441c8707e308f41da282930f030247006808218f40000701f2ee2
def LOOKUP.c216 : Nat := 0x33362a832c83703d25d6212b2de3308e31a4709642772171802300002cd4000032ff2a15245b3380121e3228803f700440f616b3304b40f54092332120f3703b40c92e7d70092828412c18c726ed10838008252c30cb708e407c31c82f2e291530147002700d150d2cd32cc413df411924b38005259324cf2cca326f3290338a500a2256316b2818801821a32de2332470113125303b32f031608023439d41a7703d2cac801831447026309a40cd40e610ca70992ddd700f701031ec2ea67033324041ad241d3055800531547029809711462a787016409030de11fb40e5338f282c80823022137a305e231c402d708630ae802f803c2ba9250141a742c643b4
def LOOKUP.c217 : Nat := 0x149c324a295615ac33722cd8412b000026a4705d40862d5b126c2bae709932c23162321f80a511517010308231a22dec408f26db21d8409c330b2b3f2129427231b441d816af313622e7421832922056302e7028305740f72956228d701a43a8708f7083307330467037809b27fa320d404326af2541232e7035708d2a8132e830504363413c701d803b18fa32e530a8000021c830f82bac8094803c31cb3150701a439c43a7117b706d808f22fb170931c031b0237f2ea5315c302f701c3016701e00002ded2dde325f332e161b2dde2a7670888060248d3294306a500a704943122a9232e32de27016411a709b2bb7700f327c70672ea3808f21f841be18cf
def LOOKUP.c218 : Nat := 0x2cbb70360000327c80312ed02f2f13f3800c21052ea3338e293a32a02ea37091286c327033182bae2a65708440f7801f305133073017327c31c2428623c1337d2469703b3202705313788025308f701670022f04337332cc708b2ea82bad0000423929374403700f2176802380684210700841c87087808e2d5326f2804e1575800c42af305d259022041928000031bc7067703b2a83000080751878808f313d24dd326d1373800b2f240000707e407c123180982859500825102f087019803443f340c25006707741518041708e2402431170078094338e702a333a26fd70594364806f803e31ae808b1377800b43b421c8300b32df70265005708d318418f4
def LOOKUP.c219 : Nat := 0x279922fa8075404141373384146013d98034334541c83170413b242d2ed1704c803332b8809b0000704b000070067084412c33a8333c278e802530472ed526f741bf16b28027255b43a5801825583389330b2aee41b0338931052eb224b7800540902ed62ed0336043540000708c00002e7e0000207832882f0631c821ad3360412b706e802f431531b53372309030e043ad207370195007700831a4302f335331bb223741d940cc3318708f2bae700a707b314470083120132a327b809a000025707004323670831425252c336a8040000033487030247f703043892526281f22ee70713297700d306340f830e422f4809b500a299d3300118b321770272ea9
def LOOKUP.c220 : Nat := 0x706c436531dd254b2e02286b166e311a28c3803c122922463131289e20792cb2308a700b30b2305c18f322fd338c31d0317030182ea3330050054125803c40702df925ba338222f97001281b33724278701131c340d82abd805b32c1700830237077149a800c430941c1706c181f808e31982e834278314e32f44107000040d4702f00007040803b42c7701270352e8413bc7057339c32d0706812c12cde24d12eb430e2704f4403701733461261230431b8500824b8801f2ea331122505808140410000409241c1801a22d731d6701d317e25512cd740df43b3307824833069706c330c2616310e32c4000070647035232e418540de4403193443f72672411f
def LOOKUP.c221 : Nat := 0x43658067417b7059407d3312704e707731dd809944014086338e303c2b313164807528c22775703d2a187044804c500a326c2a0621aa32af403817a3000070103223807c31293318249c708d2e7e118a8024241e1547287c2eab2233311013a6300c20cc2cab220c252643ae435923622edf000031b6417131e8708425082509299f330a33097092808228f17070807521f77016416823812337500a804d7021314a27582ea8408629922a81297229ea320d5005336043ad29c525a8703742d78074169a30cc2df532190000338e1817700223cd804c22d7210b29fe70102f1f0000312a2357413731de18964239417f252e416a224b305b338e404328f9302c
def LOOKUP.c222 : Nat := 0x31297010309c0000312b000041b8000080742e03338a2ed924e229c530cc70480000294c412d240330b243eb25790000339b1693332d31c480a9703f000041cd32247045702e30e12571252d809a327c80180000412e2eeb43b200002aad805a4021427f31633016703e7099330b3377700b317f21a5305231280000311d500943fe809c00003294000070352f2e338e22ee0000336643fe301370097052706c702630cb409040db2497500a707c125c7030303c125b304c801f7016500331412abd50057036310f437b26fe41c2287d42d73077708270162089803e32877013244c801a70052f2970022364116e22fb0000337e708d3017277a0000706c25cc
def LOOKUP.c223 : Nat := 0x41c9803e2f29330a300c43592f2980a6178e144a332333a725d531872ee88017130f8098262c2f0d33823260409b7057307542112c94708b320e70172ee220e326852954116e327040958075706a2f08308d20d54185702e706120e530b27059426a407b705222c824833021706c709130d33058801f20d4300c7035700970162826709a1526421d23452cfd25a829c431370000339b217933a8242832a20000323e20af322f30d6709070205005500a3221702c113b80092f2070828055413042c631b08054338f262641254090301532400000808e8074415722a92c831885500640c18041706c40907014312a2e0232e5312a329324d530fb210980273382
def LOOKUP.c224 : Nat := 0x40ea70767048440221ea30fc233b500829f5152a4274705325a600005009329342e223be8080708341c230772b69324c706313ed317f1690800d307f31ba707770088017809a2d883016323c412f17f32bf50000425c336c702b705830b221da2657301841fe20e6702c339a7001320031b922d730b84121322321e180262403222f20e220b0500970940000302422d740900000303c29e87017708d7084700741d3305d435f42d64321328833900000703826c98027289a70607062265170022f2a30173300805942467092244d4342322d31eb315613550000300b224c800d242f20de317d7078153c32863210707f2572701a303b704c80682cda708a338e
def LOOKUP.c225 : Nat := 0x31e8000042bb338480a92a1e412f80337043338243092d7f339815a9703f3359320318522f29706a2b2020e432492f1770940000805a333043a7252e315a21408020221342c62821172027a131df70027085220e400f80203206705f40df40ea80a9232b31057005267c806832a0233232bd40e0233e709b2070322f40377091500a41b943d042f4700e31b0189d1724323b28ea16912122251741cb41d3323f41cb32c9708e30d73348188b00002f2e70093384432132d92232233d14d120158020322400002119702d80825002802c13c8309b30e37082174030e3330c3376412e7090409870993188300c2aac000070888066153c702d2c21701530174129
def LOOKUP.c226 : Nat := 0x30a7708e7008709332a8313f317200003324159715a8142b31ae3383706f339000002b4932a4802631a37078106680073358239480203261703342ff4365317f28a5809c704c707a3348294c2a2c43b4285770432b1a1559809525b900004257700d5002334425af708e30a68067261532338019436415a72200000042c632e412a93105235415ff0000335c2741700b3261326c80194403418713f7800c2a0a43b340df319e33a141e57078803f2a6e70232dd6324a2bfe28cb431480402b692f2470677054233d2af03390706b13d832574174704a808a2579000020b0339932a5404e24ab2d2942457048172532b6326422431392705d31d3000013c22581
def LOOKUP.c227 : Nat := 0x260380a8335d26342676806141d63248707a3230337f14e5416a315031b7300b30b32165702900007040438a2bed223d241f0000176b413024fb270c80743369704c704c232230e43197409b701c80752887707e41717044237430fc32f1292033a526082211708f224d00007093152a703d148f000029ca000043d131ce30ef20cd3148000024863345307e707f8055700a337421db809b339870492711000026d7413432f2236023fa7036807532a70000178880662b340000705231fe2493000016fc207a709c14df20de324a323d8041140f161c2c19302027f33138306b43d5500a41d470083219408f2211409d25be40924174328300003246804e3375
def LOOKUP.c228 : Nat := 0x404d2849314913882ec91854800d2b36800c314b703841743148418630453299702f33a50000410a30f8434c15483359324b704c25d22246148f41fb2378232a2a8370372c0b708d244122380000700780542a5000002240326230298020255c000042530000702e336c803e707c155e4091500140ea15ab808c1198800a2a6433a8317f80323075331232e428d410e08009418b705d22fc2eab31b82f2f3318313f420a702f339c31df25b1245e151c42662a052929804c2cd72e1d80273007305d2ed0500229b430b4703d32a62363417e500a41c0703a808c41f633433203000040b4702229ae2a17235f701a336200002d1840862a0c80557031249731b6
def LOOKUP.c229 : Nat := 0x339c2d9421ad7039413b20e8808926584183416a41702484334d223e33170000316630e524087016309a22d57071330927ff311c235417dc707b1266161d00003166801a428d32574311709231293228706210e12d185006335f265121842249247930d6416933a129ae33a64324707f7043245e00003194412f224529ae304730ee7084111f802340ec802f43de3222152b2361420431b931ba30187035329c25527098339c7019702130df24672dff319e702c7017159933a6223524ea7025421c704a427829267021705a000032f0804e2eec2820233e205d709829582adf426a3110211d80a60000318a334132fb704a3227156432f326514146801f2ad9
def LOOKUP.c230 : Nat := 0x325332c230b2000027972c72201940f92dc132b65002302910294122331a418b14aa2247331431f631d2500a25b170557038000040372b50409070762a6c33a7270180672c8b500417dc705132023376304842a430b42322701514e52af530d50000267627ea33810000413a204e413a413b26be244e708143df236116f815da1922223712c98025706d424626dc702f245f33a531dc312c30ef7098420d000020d326ac701600007035807380457031188c701580a733a631e743d90000418b0000217c800942232d17702d7024000029c932fd328e2b9830d8307630e32c783045703680178061802f31142374809c269c30b4409741d67025225330358020
def LOOKUP.c231 : Nat := 0x175f7093000041852c1f706f43f6404a3165300540fb4049320a32b52456289200002d4300002314704e24027075333329d03039424e20722a4c807432e67056322640d630a632be709a703a424d2376703b809c32fc31a3804d00004227500632267074278943eb42f331b05004211d252d17b3323432aa30c924fc293970282f24298e27a13054428c310732bf7091701f32ab40e4436f705f265141397016707a282d260b802213c830443317309a155e258626b22a80000070074391701b7013401040fa423743742238324c15fe3138116a420441d770083248304830db802126eb308c2409413c3018705732b52756700d2883211f30d22ee82127
def LOOKUP.c232 : Nat := 0x224931f6323270260000298241d97052000070404040000023804167317317db7017000023aa331631a741c3706040fb802032573256703170727079317140eb8034000080613197330c21ca7094000020e6294c40e941c02ca1237532c02d942d33703a30e2000027984123313c319f7058000017774214000031a1323d32fc703b2888408741703134704343fc2253708470162f2d709241d940240000326b80a930d8708630d3702d804c32552c8c2692424600008056325c3345261100002430705f27a170947003500741d722942bab20e5429d2c02321c8034437132aa43eb000030ee33a4333b31963018161b225631ba17e330dd42712ccb29f42456
def LOOKUP.c233 : Nat := 0x432931423326000032fa7006155b30a8260642941929409e294b415e704b3226421b2c831656402a30cb18de809c2333000022c70000700c703a22c227a02ae07032704e10a4802229d1270f20e7322742fe308f31ba424c24a1706d15e48031311125f743b3150143f6237f0000310733821787288a321541c2436115de7088211642fd330a31ff2686303b42547020322e21ab40712e0814532254806e80621771242f31742783404d259332ab25945005421170432e03703300007026318b3135421214eb42c543fc309b31a92dc0410800003014300b31a8229524957094000022902c4518da32872d442306280731b94168415118602c44418b00002782
def LOOKUP.c234 : Nat := 0x7086309831b931731897802726be3274230615df804b14eb7040000011fb31d1290b269180267064268770264224208d20de335f00002c0a178712b243f420e829d1129870640000325615c3401d704e708e42b9417f707733a729f5418b311e42e3703821b88025339c809a805a157e7004237532a732f340921806323231bc32c3708d42b8338300003330192a8065189433277089225328ad000023eb249d318a311d326c288a403e262b0000312933802a05321618761887329f26f7211e40ed0000313200002be3706031a428dd8069000030520000429a245600004314707500003209317424673234327a3375404f22552c2c4309000031c831118056
def LOOKUP.c235 : Nat := 0x32f3808f705031af2120709213e830142b02702731987074320b188800003112311f315a000032c37060704426ec312a30fc23dd326b30fa15e323622c9570393123404e32252c70805931de41a632cb262c310300002a6b332d804e7088707a31f6417f27a830e443a770950000156480590000303a247f41d5000043637037301140fc43f530de2c55308d00002209338e29f640ec31662236409227b040832c53704426f5320a25944188000031057044249f2ca117f7703c3282330b43647015706730b4500a32cd42fb33a8311f32583201000070653228232a3209281e702b00002401311428e0800c2da625892b0232a8311e25534186224b225415e0
def LOOKUP.c236 : Nat := 0x2b502e47800d335c705640e7500300002ca3318c192125c213eb434032032e0f800d3197329c418843b030960000249d00002b5f30722b50412e2b26705813eb70540000706527d632a0327500002807709033a2316780a32d4a156c42ac32c32253259342e4705a2e022210703d26dc237d707b80a013eb3368000032262d6f31723216334300007016411b15c32a83700b000031a43009500632f400004333314e00004364300a4222429d000030d8700b0000417e321623637045805741c228d2223f32a0237f3279708a42b6304831a2805724ac0000308d2e16800d31c800007039211528d231af7042000032a932ab10348020804e30e242a3804c0000
def LOOKUP.c237 : Nat := 0x2908309c500731d8322740e9000032310000703030e3270128fa312c15ca705918b925812a261677704c3173426a7046329e000030d82ccd70723323704b33462c4e705c329e22493017409c807500002d75702e3275332100002def705e160d705a23ed80152bab2a3e409c2b4e325400002b3032dc30731223800a0000245f32ce709642fe2496181f2c5180401337705c28ae335a31d20000704f21c58014707a706732ef249624ab30f00000703b319831742375418515ee334400002e04701a2a5a2c4c40d3224825c040ca40e040db3038707b707c2e43704e403f32aa28222a54403e707325d732a826bf32c0804e804e27e7804d328843937053
def LOOKUP.c238 : Nat := 0x319e500700002120318929112931338f242c4337331f44002e192ec270590000806c31673322324628ad413a806b1613705027e7212b00002dcf00003107249642780000224a323480190000704b2d9b2317807f156a00002a2a2da231aa7038404d000070773114330c0000707a00007085329318dc160b2c82708e42a07083303a2581000080a642b942a3706529f740e95007433415e67028290f3338233443e8709525c9236c30b4225527fc000032c42363000029b512e9702c32028062335f707b31672e21800d31f831d430517059334d704622ee2334434c41cd2d0330767034804e3083337670672e43000026dc320f334031282c4c32d0706e2d7f
def LOOKUP.c239 : Nat := 0x323f2dcc41ce418a239a802027fe704d000070618059326331fe32f4119c3195209170320000700b224141857093221317f30000311d224b4400136c31a430e342570000309b327732e7330a2b8f804e2b22192b136c00002254434132ec2c5500002b4f700f0000312c302333607059000042e4320a7043706217f1339c30d70000707c2145802030f0332c7099201a8020311f2efa706d8063415d28a52ee92a5a42f2320a15ec706231bb5002180e500543634337709025d329fc7030333c27b042a12165809a702c2d7b31dd2ae00000705b40e1253b3189707931c700001566808f427021200000702431138087806c320b3107500741ce313731a47062
def LOOKUP.c240 : Nat := 0x18c200003007304d40fd30fa0000326b000040dc42f432f12b8c160d705b334418bc2b301296800b32812b3043f680653076708817c770727070805832eb000025d7336620e824952d592b2241d700002dd425d6311170522c4d000080718078000080782ded41c93166806e2a3c4260808c704f708f3231308400002e85702f500a32e3705a2e95183470702c7a41c370578064000026f7329130f918332165211550082e5433831839804732ab30cc000030c03135000031a4321925f8704f26e22e424042233d417442a931ab3282332b42a30000326b25cc42f02a6e333042ac70033282421a409d0000805916b8706f30781713337531ac31de42a531d2
def LOOKUP.c241 : Nat := 0x7005312070900000163780275006705830302f1a7068701f31a432f4225380a8183f2c7b32b732c3207a7099705f30fb000080a90000314200007064706900007047427180a8700f324a0000156c3168333a2b2a31df3233000032c420718024335e2187321a32f070441566000026e427a9237530b40000212a32e3323321600000802f705a000042c6419a70642ec2808f309c418a2c5e702b807f227e32784208705c2ca7307230e43120305330f041d9700a701641d82f18309c8087314c0000415932761922303b31ba000080590000312727b232ac8057704532267081000070187009328e000070642da62d7880872e04431323ec705c31ab33464402
def LOOKUP.c242 : Nat := 0x31df32340000702f2b6b31e043b200004338277270972d592479333827a932b6000023f48072331370837079320d7064130670662d53702041c02a622b882255281622222a337007000032c125d630983311703925e380202ebf2e5e00002d5641d74169156640d332a94074116a20dd43392de40000804a421a427233232d77705124c58020224129583114708a32272dde00002127179b7001280e33392e9a700c18bf31df702b2a36706030b430ae27002947702f18be2f22123525d740e10000408d2932154932cc5005413a41342816211f334823e5701a704800002b96701a000042f330f030f68070313870312dbc31c7418b70822b5e327000002a5b
def LOOKUP.c243 : Nat := 0x70452381209e33824365438f33a518812c962a6e225443012da5179a26332c5b709c70502cb97081160d2911332f702018a2807d2cb13348700542a6404f000070882cb3330b315b339b20fb0000211600003088802030e043b4311f0000707d329f438f2938311333764261294c32c2808f702930f070703143000070602db6430815ee7057328e4309293842f5708642f342af2dd40000307c802042570000706a42f5704a80a7700c000027e7707542ff30e30000318b42762da532aa179400002938339c30a8211e32c4809b29ff807117c6413a4176281f7096319742607003707b2a3080413075704e705b708e2d7843b4184c15ed241f40d58059315b
def LOOKUP.c244 : Nat := 0x2c7b311918ec7026808c330850042a8027ea704025b7805a3389110632fa0000803d32fe211c2cbb000043132a832e86317332fa16e5000031427051327a70822c91168225ca2cc9500900002c5b435770154278237f2bcf312c2f2470242b6732b031df701c70267051433b70212e31800d27b12c307087325e3240324c41122703236c2d8732c42a6b322f4275705e7035709432ef80a9700f282920492cc9211f335f2315328e2db4333c17992b322c7a8074267c30812f102f2480751612434d41b78072708612422c5d216b31eb32c33342802f705280481816703f333a32187060327a2a3f32190000808d3234000015ed237d0000307200004302707a
def LOOKUP.c245 : Nat := 0x801770860000314f323f3311408530de2cb232e3318032ee70433287313d3021421c331824898027426c4060800780a87047302e33062d7e709c324b806722a4808132e300008031435333060000709c2b6b27df3278702a18f943eb16982a332129807e709626272329426a703c708d80a64099409e4273217f3138804630694157328840da33a5434b15e840ed24ab808d808c0000702032d03290302330af431021983137804d707b330a303842af20504386181a332e1038800731e025d733a418a92d537075702e439b11400000133c800b30152c5430e94381707532ee70812e9a224a181632f2706a2e57323f707632ce2c5e2696000042ff30ef80a6
def LOOKUP.c246 : Nat := 0x238032f4430941da333f27022d53434e70270000280e703a80a4000033663348000018c60000324c403732e543598081434d2188708d00007077700128a641af30e4708d219d25c1318c0000416f804e32f00000808d2914313e2db332642a62000032fd21d68025704b2a6500002d7d321c3081323480a82d86000032c243b328de10e88009000030fc268e00007093295230eb2b6a70020000161c80812b58202080214385801740de436430bd00003284402113ed2cb700001795112043c18060805b40ed407a31237085705a0000418a80a6703d40b432922c8c131d43a20000707c2a3e701b2e742ec770102f2115cb42bb4307184a00002c7b80742dd8
def LOOKUP.c247 : Nat := 0x708215a220dc317d40bb2e5f2a6b22fd2a7e413032273016411f181742fd315b302a80214161300a310832021930330919190000305c2dc03180708d205d2dc132ff500940cf702f239f80212ea024972dda808a32c3706131432a620000329f2816239e8007323f289f1481309742bc339b2a7400002b3330a526713352329431bb43102b8e80972a748068332b7098805b421a803b17784310709380a78094706032ab809b704b33a8709c000042c133210000278d2dac30068021332d00001918312c20f72251237f70322998408331e618ef2e5a2b8e70702e990000171b000032ab294d22417062294a32fd3291000041d82d8070384092152170472cc1
def LOOKUP.c248 : Nat := 0x3204000031e570035004307f0000808c00008082301241013311804743e142b8191d430a318941d9328730530000332f211f43c0224a430a430a33172de4336041d9304530b828a5500400002db4706e3353412b7035702b22564174707725c2435e434d2c8b40cc2375407d24a731bc80682de432ff70812818214d800721fc00002ddc000028a0429d2b9f438810488007312b25ca21da225531e011f8294218f2705c804b23fa2376319e70862d892a6e2c83807540254040704531d40000708e700e30092b961643251f330a2b9932fd7045303b80262e2e321c000025717088316e33542ba1212a311980827080320e18f000002a25418b32e6302a1046
def LOOKUP.c249 : Nat := 0x43a3409920ad273b000042c600002baa300a42af41a70000320f331770882c952a5d0000706b41120000802f702c32ff0000804880800000706b706b707170772e867028709a309b32042501337f30de31f500002943805b40d514f4701d708d335432ac708a0000305d0000318022fb30522381216b4166307620be21204382804841182956263220308022330b28c54314313e2df4701e70212d8600002ea0500724a1329a70073020808f7033241f31f326ba14318026706743582c95808b30e080992ea432d63195700d273c333c2a4030fc32b870872d0a335a31f6000024fb438a70390000243f80262df420ae32db2a5d330630d680a7191d25f48007
def LOOKUP.c250 : Nat := 0x700a701d307f319314cf29532bca30c92bee4229266f10ad32f1808b000010c98022703740ed236a33392b33708d22d4807f2a74431642ba700c42c3701e30b933a432c30000330b416e121b0000212a330a709343a825080000000026f62ddd00001571800c30f80000318670401483802600002d5b2e2d70817093402e416f245c0000000030d4305e435930fc707b00003353308070900000339b248526ac22ff000070902ecd43590000321c7041809433602cb88068408c0000702030a80000324011aa800a1171800a30be30bc14547087324c22b127d532540000331770787029252c700e3308701413f5332f161411432dfe21d8702a41ad2b99500a
def LOOKUP.c251 : Nat := 0x33080000181f31e026f62d5a335340d60000305f706033087006181f26f314af0000313800002a76109d80082c8c17ce000023f97033131c31a223813009809831382ee73321709633a62b9f4086238131912b980000416826e2701b329f311430d618f1703b4085329470870000316d7083701c11e70000000043a82a782e7d000031e620a342c5241d704919202dc070822ed7316018cc30cb70353051707900002cc14226439d2bb324ac254218f2704f3141315431c070642dc12ddd3150704f2dde000018cc2ed7328818ec402543cd310370212db72ecf43158082000041223389330b327a2b962ed727843180435e3018250126b52296179d264a32fc
def LOOKUP.c252 : Nat := 0x305c332f701b00007010333a3293321c701830a3284732375003243d3068000000003288184d808210b6406c21ca2cb941a0705643647040707c241e00002ba100002203328740d500000000702a704d1919000024a1708c2e7f00007080308e803b0000000040e970268068204b0000802e40ed16e9329141f7700e12e1800b119643a7328819202e822e7d807d42c631ae2ee14315806843828099000043143314500a708822060000235b2ea270092e7d80192a7e26b000002324702321d6808c000043af2ece702800002a91703c00000000000000000000436542c77002326f329443a627d52e7d2ee70000302f184a40c18073407d43a717bd00003196
def LOOKUP.c253 : Nat := 0x40e900004315000017278027272c11ea802420cb2c042e862ed1709640cc31680000338a0000000040df303b11c732ac7060402e000041c829140000708a31a42513416043a8500a8072407340433176000011e82a764316179c703433161461800c30b0431280944363702910ce000023d53082703c708d41113021706e25d6801543ad402d23c100003368703e43c520ac3263809942c742770000300870658016000000000000229530ea00000000222e43922ed0312f40d6258f701443647005296140c330c62bae70224278700e0000708813752cd93317327823da802311241099141a321f703270320000319b417340c22bad40c83044312f30ea2ed0
def LOOKUP.c254 : Nat := 0x8019320e328f42c7145f801a1126000032b830772e0470094343000080180000330032c43047313010f141b5809a00002524708012c07035708920a10000314c32bf7029326f2dde0000000000000000706600007001301641232ba3315f40ba809832f4420131d6701880172c4540c92667221f800d31502f0f703f305e306c300b21c032582df4303a42f5706c708e5009809641be24182bbf30a3225180822594245431cc23f92a6d424830a73360700e2cce421814f58018418a3050112e3235313811cc2baa41b67032404c00002cd941a7704c212b70374041402c322731c831611104702c000032932d322ccc41842594803e258730170000317722e2
def LOOKUP.c255 : Nat := 0x708322b220ac134f192a327a285100002ed100000000704e000000002a8132e17037415932c4709426ec40d4136a2313401b220532db2d2d3077177532dc32a030ea339a801423fd000000002cf6800c43ad439c2419307232c93023410a2d190000281528cb00004087330c30232bac0000000031bf32e830467019192a2334703400007088708e220b000026a9000041e62bae219e8081333c708f709a709c3330429c0000187f708314a431892a822194800a305433480000301830692e7e431270602a82000040d4210012c780192f1f40df80312f2c43a8000041da300a22f92df92098803340e32de622d21149802300003339436130a640cc403f702d
def LOOKUP.c256 : Nat := 0x23210000277543a83353409b0000289742397012313d41b8404c3039290b161c7016000000002ed5308443634357286b338e242e33477030808f70200000000000002b69404e303040867030407430df30e12f24217426fc257022d600002e8640cc000040434087801725aa708f41362504704d2a82000041ae307521d3800b70742336412380543127402c802f8032225631782ea32520333c310270542f0a707c000041288026254332fe30eb43a641734363414e322080252b042dfe809b000040742f0b4316337270482a8341ae702143c8338970802e8312f9431613632181809832d8322a4401325415982e842dec806513143038266d2ed12f0c702b
def LOOKUP.c257 : Nat := 0x3124112b3262184e1211333b2e0480192f2f0000301740e700000000412b14a28041284d305b809a32f0417125a22cd92df8407b42a67095000033a0700d2eb1803200007034180a299743cb4219000033967021315980337008708e209d289d8018313432ae333b3129302314ef800c33a170132627306a334700007070809980192e04236b0000232c8031434c303a264a43d0322130fe3080173c241e2f1f2ee22766320f70083383110e302f706c1437800c21083018805512ca0000412d703270832a83332f20d141b8299233897035334880962cd740cc000000000000273f31c2118332dc31cd32030000306b43a88099703f000021fb309c0000317c
def LOOKUP.c258 : Nat := 0x7093703330d870170000222e702670602cd820dd3318704b300a8017157c24d370582df632a37026703e42267028809b805b7040701c43d770612428411b43e12df931dc50032edf000040cc2454334825a880182bae43de134e701a29de00002ac22d2f704f000021da30b142ce000031b733a4000041c15007000011c1706b2522702c410f00000000407b704543d713a6217a339580a54041308f333000000000313d404e428d803330d4700650062799316d17dd32a026d52cd9312b31b82970232f80160000000021cf3023702580a450047034337e703f32f430df306b22fd32203038209f7042240a4183000041ae50044125303b321c330c308d808f
def LOOKUP.c259 : Nat := 0x40de26c6708f20d3309a41d320d2412e0000701041ea1267305f15c014437053168e335425c843b2708832922494704b2f08416d40da401d338330ca80701478419c21cf00002eab418b0000708c11922aed705a50030000193426fc21f1209b32441726800d0000701f43ce0000000031eb700a2b08800b801a00000000707432850000116c4035315a0000314b2ac242fe4125707800002a83707043b270593375417112ca2f16338e804112393347000040eb2463322c0000709270062178703b294d806613ae701831cd40433315338f2e33701a00002a9a30a6705c000021d932bc2f2e330c24034125809a338a223326d5301770223324322100000000
def LOOKUP.c260 : Nat := 0x412f0000700b25d5302c0000339a287d801532d07009311f3115000031b832f2254b412d3383706040493253116e309930482649329631872a3d330c7060279a3354242e000013d831d0427c00002eec338d31d2803430c640e07010000025d1116d339b0000310530e17062705b00001506302429970000000070592e04294b706b32fc220d8026327c333c700f13bc338242b93240706c2c193347417e70772b137024404c43d4244c14c9334b70862bae801a00000000423e236d31f33084417300000000144a707031873018707816af1380205d7073339b261770064125000080a9803f0000225440ea30987059322f0000000040e830c0427b8009700f
def LOOKUP.c261 : Nat := 0x408f29db000015814403804732b43348809b42cc26cc12500000279a3096338425a940de43b1165b800d708e2482707c313533177062337822fd247e00001448413000002a40408e3112324600002c172b682f2d808132bb80192c44409d411270222ae3800a2403000031b62bd832a4808b3390333c7040242f4043404e7061180f31c52f290000426c00004170279a4042233270382bfe3023801a40cc00000000234670612eb470782a1731590000702a32ac21a5000017f3000043d132a440861432233300001484323141c231c630a7289a7093706232440000295631ae14d031e7322d20c143b32f24418b3399404f3382804170702ee229bb702b20da
def LOOKUP.c262 : Nat := 0x706c0000228c305343b33318223c30732379801a0000233b33002ee23048134e32c2425c703470167094289a185170622208803b3018339041c3000041cd305080a5339a706e3187417e70390000152a702d404d242f23ed000032242454404f2a1731710000702622d0302423340000317f704041c24042338343ff0000232915982110235f23302669000000003187330b0000309c2aee000022ec325833a213b73398702b704314df308f70427018000020d4409a287e205d155731b97004409b2b4242d53060242f338f3137141780267059000043b400002dbf42c62106275f700b28aa32b3000041358032000070092f112466320e412e807141385003
def LOOKUP.c263 : Nat := 0x80652bf93298705a404f2240000031fe43b480674256404e706200008098700d171e800d80557023269241f331de703230cb70842f223224134e257943b131283149313f233b31c5700b324925a90000246943b1314820b04043211a000031e770030000700421db2a8343b320d543f731b970770000317131a0700f41f616a843d7171241f1703a31df17a130b21582187728a500007094322f00007042409b000031dc303c31e72112700a0000000043e200000000000080630000134e29ba0000000013cb30ee323000004043282a171970107046313632dc4138440329f53083289a303b7062220931c50000706f2c5d230431c7319e15be313780154186
def LOOKUP.c264 : Nat := 0x2b1431d2409b31a9403827cf232a703129ca0000232b229a0000245c153c8030000022c82651335e2303308f701f50012ccc247f324a2f2d211b23327046329b2484316443e2430800000000709941cd26f570404195709342100000317f704c0000703c41863318303a43d13052706311312958801a500870492f2d00002469311f273021da80174401281e702a80a941c3218042888032417d28ca31f5000042c250060000311832247043706032bc257f326d40d526b429ae000029da2d1c800c7074224580272bac43d53078706a324b314f000043d92cbb22002bfe3148309b2455277c41cc315a28bf2234708127dd70364392311c00002bec22fd31c5
def LOOKUP.c265 : Nat := 0x2a424253000000002c3c70391762315b41790000311f0000329d41d6326929b470992465242732bc126d4254223000007063700b1755248631ac420533a53136319318fc41b0245f41640000706a24287046705727ff000031423134426c2f2f00002f09000029b4706131a9324716d42a162e9631df27b270877016409b41fe00000000705a0000267600000000246f404d30e22207404d704629ca136b40772f23000043fc704700008061160500003383204f80233248312c43e23196314920fe704c706843d50000317130fa809c704320e642ec32f42247326a25b12a097091210a8061329d2cac10a0000014df2f24804643f28066337720cd413840e1
def LOOKUP.c266 : Nat := 0x7056210130482468700526b57043707c248e22cf7079404e2b6c1558707280348068315b136b2b41301f2484315c330b0000703e21162adf709a00002f2f7075000042463022277c167927a170347032109680080000326a31f35001307343d1417e703f3164327c8068000020dc0000223e2e0240ec7011424b33a1242670212afb3209175a00002b4131677058413a3352707c269c27830000303c2eb3211b43d941c22211407e800b41cc4040436341ce30a3339b20b00000425320fc80278040212070362455318a308e41d531df000080662c8330ae418580a827a8248e809b3260500529d116e8417d702a000029b40000707c409c32620000807340ed
def LOOKUP.c267 : Nat := 0x31f627e031de0000805b2ae0000043b43082328f30b12d23802612f070757066321b7022000020e71859802733777093705e28f132322c1f50072b3718072d94701312cf2b78708e323e29d2805a30ed3368426628af7018233c315c2a40000032b8000031354293806e30980000264431e4000032a843f600008034705831ac22c7413a243027837069805b43d116a833a631aa17d50000709443e232540000313531c740e180562b30424b2c1f3196709c10b08008306031a8000029d028a2210c425c00002249706527b0705d412f31dd703d31f5418143f5313840ed27ee29b4413c000016d130690000803d801a326e000080623231000031722f232afb
def LOOKUP.c268 : Nat := 0x332600007037268632cb27e9000027e90000707525b132250000326032267088700c70302e762de643fc2d2942782a2420a7155e707d000080812363237c000027ae426a3248000080a629b450054229704d20b3326933a600007091429d2afd706342e42238703b319f15423288180d41d72b79430a266941d60000249b2e02319531b0700b0000211b403543e00000258943f5701e320c0000000043e27044809a2f2400007091806e7099424625817038704c000000004025306a000031732eeb41a925b1324870990000000020c52a18000020e40000319f00002a7f42fe0000323f0000329b000028d841893165310143ec70292d212adf3030804d3060
def LOOKUP.c269 : Nat := 0x706e2f1928fe704770727052424d308131ab70362467000041d713e60000709c28992072432e000032e232b726bf3107311f8041248d2dd72591706b181f2352409b31fe17662b4f30bd302241d7221225534403702226872c25317127b140c931d343d95001435841ff335f254a000031ad29f78032706b31d128cc702b2d29000042e432882a350000000023762b4327b200008018701b7070321032b3705725b1317d336b700732c1185e703a25917057707c2238425e0000705f33582800703d50067060804e706d290723c0701c411041cc246731d324563106255c248642b92c49000070582b43112d2924704e30c932712baa707a7044308e409e0000
def LOOKUP.c270 : Nat := 0x40ca437a41b941ff00001793809b2c52705a321430a628000000323e2ba1303c26ac70900000408628bb12b6300b2e0632d82c77705815e5290f000017da27832b48000028d7308c0000704f8088113d29d2701e70632bab2d7527d4305f00007025412324aa22e828ae32e117e73180703431e943310000176b709a000070135007000032ab4171415870633113709b00002d243053321a317c7059189d2b30703e432f43ec30ae707b7065330c31cd13ea2238418a0000000032bf807a417e70330000272a427132a92249429528cb000027de708832c240922d2300003300000031c5252c43f620820000420780573166000015630000249542463377311f
def LOOKUP.c271 : Nat := 0x5006433332b342e3702f0000247442ef323e401d2116337800002cce000023f1802424ab31e080631766313f40e000000000000070462467271b425d16e72c2630bf15492d500000160540ec10d980232495700c28fa2a07311f30ef32c32c89314b154841f5707b2e108027311e13c90000322724ac27d740ec30222ed980a117ed31d3108115e6706931a02f2e3174290a29f7704f7029404d8056339a70137005404f13c9707e0000122f417a29f7000030b715e570602c2b700c00002213808d42fb42c5216a3136189d41d780173114703d000021a20000211e16fd708d307541b227234266237d40eb320b000015c440d528fc42a03203211615e428d2
def LOOKUP.c272 : Nat := 0x317e3054320a315b70622b4f412b2b21249e0000233d30fc160d500842e4224a32e3244720de803c15ed000026dc429c0000404e706d307e32e2317f707c702f26dc326b31e9305e707c00002b2742a518e440918034263c290a2b3032b228fd707e00007046704c318927842a33326230fc440127e815e626bf42222e2930f0806c329e329d3316000033452eca312b321a28d92c9532b670980000303c8059316440ed705a31d442102be8404d15ca42fe2589000043332a332c79335d25503221000042b62b22701d2a290000000000003287430a701a7030440080673150236b70194339000012f4339a8019806f00002a2442c429f618a340923078260f
def LOOKUP.c273 : Nat := 0x328241af706430b3000070590000000042fb0000707133a57024425e245c2b4c706e41ff807b000070697050000028d3329e702b42c17061233e418932c3334030ef404f2d982b0418972214800d2469000031df27d670170000707f4261325680672c5b702f321331d35007407a26d2317f0000000028db33092496248e40ed70710000430526f570692c0b70652ae031e932c0322729393214000000002d9800003204421a2cb0319826bf285b2594000042b932e832e2000080a614c9270230e40000000031e9000042ae304842a4701320d24401807432a932552b5e42a17002269d110270877068803f806e0000707c40ed0000000042291613318a8048
def LOOKUP.c274 : Nat := 0x309c134924eb301531f4324b3254315a2b9842b6000070652b5e3202317400003168409d319822412496321032e530ca705124ab31d212342e3b30d842f500002a2c705142780000807300002b962b5b17773198326b000032337015703931a4311d440340e1806f321c2e4e802728162c2831df2a3332ff325530467069807825b8268b302330f026f6408f255c245f31800000321a804d28221814808231744339327731dd329d000040eb28ff803323ba324c703800002116328e31bc705b7072704180a4322770702b6142ac706e293122d832da23064103332b000011582212705731a242a7234c420720e828073194307825c242f0188b124b00002e12
def LOOKUP.c275 : Nat := 0x294b2b2e309b2d55314f0000314e129300002e73500330fb3044293232f97004000031f8700142fb33400000331d246831373108808c2b3240860000000070652a3c28af29ff2e04409e0000709c27df708f212a000000002b570000329e70597058224b43eb700e28b630fa105d000020e77046241f426a2126000080a631bc7085700d000050032623318b2806337713090000807f707c254433124024248e000029122185439d31e0702e3231000041aa0000331f2a77704670897028169d70212da424aa000000002551706a40c240bb2cd6000032541832180e4037700731f62dcc2b302c7a4333706123760000329f32d9308e32b731f7704531c73108
def LOOKUP.c276 : Nat := 0x2817323f807e000043802c56707532fd183a320e317220fd42af000033542932141c303c41d8000042b670617081807e333a2dac20e8704e7012000070762120706500000000328732fc426c30b2704680a843f7702b2cbb188c42732b2a2c8132468032807350062df92b5e706070757070000070752d3424a900002c7b709c42eb000041cd18374290706e333600000000704e2c80808e807c2ca5705e26c9700f7064206627df705c26ec439028dc4341282b3219000031808073000000003217328580877016706870754249426b3113307680a70000333840ed280f2a5b3270329428147086249f33a63258334600000000807200002d5231ae707e0000
def LOOKUP.c277 : Nat := 0x2120409831eb3249331132852b6715322e4c2e3e0000303b2cb142fe2a3170237081804d33a470242dcc418670521814707680a530ea705d808c4155000042bb2b5e2b9600002cae433832ee3240315c27c52f23179900002b322949703a808200000000709580302eab704242fb2e5d000080748088000000002c302254300b434a31f8224b28cb290832e3706232b50000413c2a6015ae708680a7708a217b2af7000000002d5833808066237f3353335a32640000324b70822911320432772da580a900007060000027460000212a2d2032220000708b807c807025d330533292704531f800002cca322f318b2357705f18bd2a0880a92d13433318144152
def LOOKUP.c278 : Nat := 0x2a0819280000000033062b6041522376807e1778708515af3348708742b9236b0000000080418047331118c5305e258a438142bb24122a5d7082322630b4427643f670388030175517783287000032fa302c00007024708718c4233d181840ed42c718e82a36431043a80000000042b64354212b314f80480000427331421613808d000027ea8030808800007073803c404d251218a34273212b000031af308a18c12d7d31c7708b00000000320d7009408d1841324a27a930a800003068808a338c43147024426b32c2223580a70000290100003038191500002b6731c813c72e4031a330177049293c00008080807f435f321832a031bc3219704131373053
def LOOKUP.c279 : Nat := 0x500a000012f5430932d9705024a943540000434e808d0000434e18c57018318543b0323324a02d86404e000018c7317c30f032ee43812da631ae2cb32cb932793345000000003138336b2b6b305e17d70000804a243732402b61703932ee1918413b32fb434233060000183a00004219438822d4220f333a431629c77080000031022b9813962b5e2cb9225616a37018705a70327010436229402c8950022254291232e340994382329240cb217b3313704022550000335f000026f5808b2eec70080000208011c32c953149000032cd326f709880a814262a6200002a6e4272225540de0000416622a670223344706132ef438230e431af421d320311fa30f0
def LOOKUP.c280 : Nat := 0x30ea4087803225cc7047205b4112205324f0000032ac255c00002941804122ae2db431202a402c96279e31737047258a3097808f32fc31e5311430074401000018ec412100002a74802f2ece0000270142c400002a3f30222a82216b41a6701b32f9270043088048709630dd705a3284000080a700002a3d4083131e2701281f00000000700243100000000041cd804141d942d8312530de436518cd2a6b18f27082706d1385314f294a801832fa0000434e42752d7d282c136400003300294300002e7a40992d530000211618cc40d5409e706e26588073706d2d8933244169000022e70000426c705825be80a8808b2b8d30fc282c704616142d583197500a
def LOOKUP.c281 : Nat := 0x2e702b8d000080a940ed0000324c2c8b281840dd23f34122804e3300000041b631a32c9280a627e9000000003287330a25c2411a000080402d0e2dc0430a2e7b306b00002701294a329f31c72c9531147087702c439c701041fe294140742b9f806e207e326f281841ac212b2b6a808e8055282d2b960000000031e00000282c312018eb18c58089228f000029f02b684388702830fc3009702b270242dd327b40732df82a7421a1000031eb43884382306a402e4310803b24a1707724eb18f200002a40402470410000184a8068207232f28081706b0000161530d2410a312e31b04387000041792dd020787041808b0000707b327b2a6d22960000808a329f
def LOOKUP.c282 : Nat := 0x7065308d00002e99404d251e291a30fc22ce00002079315c32fb805b0000418730cc316c20c032ce705343548068337718f122d82b05333a21c8209825aa706b249f00003022295432f1311470277018181c4074000020cb412d220000002d89212b80660000804d31c11319000025b741b8337042a52f2c32cd30982e98000000004112307470882cb319192cb3312530fc33a57033000026d88075183c806800002b042b1b240e7030704c000021c4800b4159701f3315207b500540d5312640413312401d332e3324300c7067434b406c27f48027000040d333398048000022d542a470120000708831c041ce0000806512e0431024a0281f41be191a7076
def LOOKUP.c283 : Nat := 0x314b19202ccd205630453315700530ea00000000335e40c512e3335312f62187312f31fc804c2943000043093069430d43998017000031e0191f13692db42ec321812b6a7020804840c20000322b0000000023392cc17053000031312e60807500004312801a70413382332f42c6000021d770393315307810ce1142800924ec00004212808130202ba2434e42f43077137b2dae00003142000030d5707e18c730ea000033745008000021a9705c20d931501640181f31f88015707b2b9943a30000324c703e32fe439330cb000040bb702a24aa700c336e207e704822360000703a00002a7e3066132340dc33302d8030522d5b40d6209c2a7842f323807088
def LOOKUP.c284 : Nat := 0x294c0000321c305b31b5702d23de31e2241d704180158018435f30ea262d22d911ea7035106a21292e9f29310000326930ec422830a733544387188d316c11c6179d40cc31684040303b314f332070030000709500002df825d630c743a330233176314f70862a7e30b3701a000070264399500a0000316411e9704026f3412c704030452ba3706b32a03364706317d200000000431232e42bb9800b18cf2cb30000000025c22381708e000000002181000023f94037157831ec805e42c4306b000021da32ab3341312f0000700e702811cc121a2ca630ec24ab000030187063131b80252e0240d52c8a2dbf209d000030b4702c804e700800002dc18068700a
def LOOKUP.c285 : Nat := 0x12e526ac00007048317b407b137f00002cd42de63047803d000000000000000023dc22aa329023812543402d2dfe4091436070072ba150063324000027d4708c33673237704522f90000265718ec704831cc406c0000332e809523e88095402e3360301621862a823175311b43a8216b703d322e31d5408532db2ba933443261212a1127707823764041000033082701701c328f21f580267050438a31300000703d1844702c149e0000000018c7426b708c33220000218132fc00000000335324687041415931380000000070142e7b335f000070788019412240dd705b805600008019000040cc258e330b000017193260000026f532fb22ce3372
def LOOKUP.c286 : Nat := 0x301631c170303131439d312700002ea10000287f40423367186b2ac3802f80a624f3307710ce32b81745000032882f20434c702630157056306033997025704000007043295430bf000021632f1a2882000070807083705c332f709613792a8243623219258a5008000020a6708c2bb42ddd202a3075500a41b9207f2741000032912057000018f13023706c267521f630b043b40000326e702333172644434b300b333b28af4111702b19312cfa219c7061000000002e60238132904040000023fe80242dbe30e22e8611cb21ce802525b021d63308704a24783164188623c07087705c2cb32a83306b24ab335e7020803b435f7017320311eb000032403371
def LOOKUP.c287 : Nat := 0x702050052e6013b72203439c3118000032c431a426563351703f32f4222316cb80947073205a3017701b14a1800c2cc40000337d7048287a31c7317112ba41b04160161d32940000173270582f1a409a707b30d22758427732613186311923f930a74188294325777020294d410a705d0000192b7097431630e0407d000040dd23251320322c234d809c8064324c32c77028708a708400000000702a7008287b30b1339032900000701032b828d428be161c2cd40000411a403540ea313e41c87092403b333619312ae226f700002a760000000043152dde000030ed700a2ed13192702b422114f880260000112a802325ad298d808f30d300007074282d7080
def LOOKUP.c288 : Nat := 0x40422571404e24300000228b50022bf6220a800c20ae336c702133233149000021d12dd14309232f40b40000402c326d269e3072312a32ef2c8c3395411a00002674801900007035000032ad32ac413b2bad2bae306c2bad2ddd00003220809b321900007043319222f527ba41bf000022d541b9000030b1000030e218f4235a70360000000000000000309841193284322c8025134e000029582ce100008056310518fb707d223c31cf3352701b313627e9803131b53046304725c2209f0000000020732dec0000704331c7130f23212427255c401d42c740257093337043a63161809a177041368019000032b80000000032462d89125931f2236920af7048
def LOOKUP.c289 : Nat := 0x70144038305430c9302440e170442ed7321c333a26f414e28018701f30eb312a14da704b8032308d701311a12ed1157b2401232f0000120d705e1933702b00002ea3254b3381703e325431887029000070131681800d00002bac809531ba33242509304570583398306c31d027e62758000040d528827075231c10987051275829ae31f72bae30f9703730160000807321d22097412227c82b15217b151731932f0921fc709a40de28bc335e423f40d441c170194174701a13494137137d3263246320c60000000032f012c8428a0000707930380000402226bf2321306000003374705a336a2ce32e6130e2808f2bad254b33733261262d31c14152702d2ed1
def LOOKUP.c290 : Nat := 0x30c53230702a7016309821f8232143c700002427172d800d00002d4c30e30000706a13c17045703080822be829ea14c2241227c217292de67003709b80a900002dff705c00002def0000500830fa24a1704a401d706032582e862581255e00002e0433092c3d3347318a32172ed1317c707f13b3314843610000439d42eb000021ad2e0042120000000026bf41b9311e41352bf432af2cd740eb13a6338200002c407049300c3324220843ad29b8800a8054245a41cd70312402327c2188000032af32432cfa0000339028c5418a2a8132d928af0000237c317d7004169421f0252640862af1000023668047318b3240125180472e83803c29a37039338f7005
def LOOKUP.c291 : Nat := 0x338f70547036312943ae2469707040eb0000236930232f2430c7303c20d2263b261e7030704c2c282ce4800c2208000031942e39408e700e332331c717a62df7704a33182b150000703340d231c5000026b1000030242cd8404c705d703f440240404158000017742df5319e2f09312b2eec4087306b15582ec43300700a41c37073807c16c8242f28a0801430487011308d808f00007054801a20a7804b2df970917063232b300c32d0000031e74245700515590000329440e02462327a2f1a308331063159706d29ad30a3314b417d15ae50070000149f29ae00002f2b7026420341cb41372bac0000135a255b30ae17a4800d338e237b26a330e300004092
def LOOKUP.c292 : Nat := 0x337670612822331800003099302f8026000043b3275c700217be3230222e00007025702b26f670050000323c417d3113269d2211264d339a3399000031453111423f27b925a9136b2eab804b0000708c70612be870648057709331b840e1313f000041d4338024aa704100008096276933812c2030fb33a7404c000015d7339750042eab30f9317b708b709240417096330c111180092afb41f5335c00002a77282d31637030701131f632af26bb2c2f30fb14c9309028824094267600008032000020dd26963381709729dc336a7006700b000070542319708842cd32dc2ad833a832020000338e313f000031ec000033080000420d2b6b41fd709131c7
def LOOKUP.c293 : Nat := 0x417300000000000080344174000043de306b24267060335c33772f242af220dd000029f043d00000301628c5338b339931a4706f33770000312a3318000040df29ae32d921230000000043ce0000323f3366707c252d2f208033704b333c00003382319813c4701e2df642ff706341fd16ca802728eb172a0000428e32e533958033420c0000306b33a133840000801a000032307001339641cc31292d80704613e4705a000000001692700b2f2a3090245d302f172c338a00000000412530d6804a30b431712c40702b413815b23167804d700f33a100003397709b31493298802650092b06409b0000236f338e306000000000804b24303060000000002998
def LOOKUP.c294 : Nat := 0x7041000042530000425c0000338f3376700b228031f322120000210d0000000031dd7093000015b7211a8027500100003348161423330000709b33540000320243b1000043e070383204417a00007071705529242c432a80708013c1404a703e000033907074409b29b42f20807412671267338032b32591707800002adf33a8404e13c131a626760000314b265831e900002af6000032cc70840000000031d3336c4138000000002f1721db806170647061339c33a470607061303029d040e0420d32552a7f25a93316000015344205338300003193413841737078311f3248707870192315265800002f183023313431b8314b3165500930a8701a43d50000
def LOOKUP.c295 : Nat := 0x211a809c330c29f580342c4000002c3041d40000000031ba43b327b130d430d743138041704a709b31de21763078705230d7319e17a9802716fd2c824330136b00003172000000000000440123e926a42d20313832bb0000706e70832689422921052c037004155d707d2f0900002bab00000000248d4277329b000020dd14e6000043b1321b000042184151409e233331eb338e314b2c0432b332f232052f232115321a0000000070432f2e326232c2434d32547092338b31ea300c0000801929d030fc29f531dd2af530a8126d702f2afa703042e20000803333302baa338415db277c43b10000338f43b131f3309a00000000305b221013be706032fd0000
def LOOKUP.c296 : Nat := 0x707343cf4218417e804d709770233248282814e043df2c090000304823342b200000000040ed21db424b0000705743b4705c0000170520fd28a730990000216a000032cc709128ac43eb31b02d5a233d000030bf33a87003704040e916f8000080613378237b2c5d31aa3283000015de4138706d14e4702e705542fc00002a0600002353402d30ee0000000041ce807c7084424c2bac15c226f6326f14e4317213de43d118e526b314e542943024706f31b000001850800d000033a2000070920000500916f821da2d1a408e700f31292f2328213249000013e03324708643f13318705725c100000000000031eb424c32ab7030326033903194323f704a2428
def LOOKUP.c297 : Nat := 0x30d627a12800320742777063318c000000000000329e176043d17093000022d8245626b3000042a6232b22b213c68062155c707d31dc171370552f2d000030cc703a338326a431a92b02000033a6000033a70000309c809c31fe413b2c25319580972c45322630303360329c31a5292b29cf3209314b24662a3532b442b7704c320a4315705822382b48700c000027a800000000311011b380242e5a2702236b20d5333c126d404d0000421833a48056500743d7705640ec41d92248409c2f2c411f31f0233226be00008065701a33a32f23300c32aa29d131f5704e00002f22703a32e4429325b10000000025ca31a7707a32b3314b708a7029277c22082d5a
def LOOKUP.c298 : Nat := 0x13e4808a245e3173704131da413a324c32cd70990000224000003384425430bc706241d828cc702d708c703600003197281770562c057084000024307018704322484294259300000000702e429a805632e22783702325d41788338f000024a23191312c319621858023432b432831737047703d188d707227a170087016412f3188413542c7424c43a6804043a6170925c131652e0900008018236c31592843702f224f802717e4136b303c41cc0000808f7091805a336c315a000043e2701330b00000432b24eb243127cf33a117d7309950052478709c0000703230b43233329c326132323377707a29b5265800000000252e2c2500007015704e2afb31df
def LOOKUP.c299 : Nat := 0x32cc000022132213307840ed31f70000000025ca0000000031c632160000418a21c233a343f300007063000013df7093705a70433366335f31c500004085700522a6292b709614e92f2e70460000332270660000181e000027c1417f801a30ef26dc00007063320940db314e30e3325717c77045319f00007039321315e015df4315803c15c431d331c6233e31dd32752a0531ba318c325731e842222bad20e8807b329e29f932f3703e804a31ff24ab29d6707e42e80000705a000029d9333f8027339c41ce804c40eb316530b4288a2b2542e3000015e0702b3333704a28ac00003274704e000000000000703329f532a9704f703311de0000703a806242e2
def LOOKUP.c300 : Nat := 0x704432903090000030d642187064705b707270950000313770600000807131e9000043f100002d2f20e84363702a00000000308a000017e78027425d00004256804b31123017321050052e020000704f43fd335e00005008702e31642d5b2c270000160943f7320a2afc182f31a120b0188f00000000703a000030f9707e28cc320442c77089312b704e708c0000333244028078413c320a2c4a24963354000018340000000029d732cd314b33a8175b8065801a31ba702041d650062b232e2317e4000029fe7020407a00002eb422082374246742eb19341890800d1605323f3322000080563083211d0000171a311e25d24224311f3090707232da28ad2212
def LOOKUP.c301 : Nat := 0x323e70734189401d413c311f311f27c2000022512b500000803432da318c000032a920de00000000291026dc30dd302f2c76281e26f67096429e31b842fc2d9d00000000318c2a1e402520b0804e178e704a0000806c000043ec0000705b333e80347061422225cb40d6707e804040c93173804a704b425e705d3274000013e532cb3201311330fc804e7046325c26be211e0000000032c3806b2bad707b28da432d702b707a292b70922334156129fc80590000702f248c32fb0000154942e92c2d3263326b7097326c27e73018292b26a400002c78701b7051000029da248d000027cc23ce323241cd15694336807e31bc30a8312a702e327600002a250000
def LOOKUP.c302 : Nat := 0x12f9807870712a6c42a641c380582956412f2d9e709442a370220000161d180a2c4c5005704b311e22490000437e280f4332329e31ec329f00002213701342b700002d503098123a29082c280000707d26f72c2a707125ca7089000031ec255b3225409e32760000709442a83214000000000000177129fc000042f02d4f4401702830ba18ba706f2a2a704910a88008703930b30000317041ff188741cc701d2914700840de7055700c309c42710000321315e532b7320f000018bf701d31ae413a4267417e327b29fe707c331c15693307306c26a327d642eb27d732db41690000000015ca32b5404015c9318980343172261180572d4b18317093327c15ec
def LOOKUP.c303 : Nat := 0x32cc70790000000031ec000043322a7532e318bb704e15e723de7065311343117097330011f6705c156b2496314d249f706741c27094704c305e000000003233327615e7178d500300000000258913373338000031982b5f29b57024708e0000290827e72a2930c73276177732d82241421a804e2a0000002e3e80591420425570902b2b80797057160c310700000000440100002dd0000026b300008062327c2b5541612b30702f50062a5b70583227306a181f233e319f32db31bc302d7063233a7081803d17dd807832aa308d25c0425500000000320e2e0e22f42468000027e7000024a1317470432b551714427128072581706e000000007097805921db
def LOOKUP.c304 : Nat := 0x807126f72a2a28d3418a27de321b0000171a25263345805813c0233d2909000070440000703326f612f331702c4d280e0000282d31ba323244030000210d00000000704600000000335a12a4311e7015808870712d77322e2ae02e35183430184134318b7094270041b0208130fa32702b500000334f18e92b547003806431e541b8000042122b5432a83116236c00002caa00007047000024690000701728fa000030e028d33263319917f300002c2d30bf28ad26ed806c708927742c522b86805740d30000179231c841d8806a707a308e70472c0b708232ed418a70868070708970987075705e22092bac4242704f704e2c2d0000252b26860000
def LOOKUP.c305 : Nat := 0x8077326432e3706a31b03255327b329d22ec18a22a5b0000314e42ec0000254b224b437f2c01326b000030900000426c705e25d62d7700003142329f4099308431e01566704f31d031df2e49171a333f27e723630000412e704d31ab315c2af60000705580a131742cab246824978058700530ca233e1346807231ea408f70420000191631ae2931183870982caf500632d916107074707018142a83000024ac704400000000237f806531de707470700000333b000021ad42f230cc32d92a33269a707d3173334e41ff32db000042fd702b2334404e2b3300000000706a00000000333a324600003212707c430a42ac290b255c0000000000000000704f0000
def LOOKUP.c306 : Nat := 0x8040225532c3702b707e331600004342000025d7708c181626f7804170803292706900007038705118a320e82b862c2d0000312c2a0614e330fb25d740e12c307008705f705d00008088700d307332b622532a332d78500343071547000014cf41ce80730000000000005004702c41ce25d6161d2b8a3182703718bf702d4339705420db000070037039703f42f5233e26ed2a5b5004325043c98088320e18c44025707442c12b875007304e2dac32cd70722b612b6732c100000000709721d2000000002c0b000029322da632ed32dc42b8335a2240427132db7041315a2c5e324032192e3d000040d531af00008074410343a50000304731a033980000417a
def LOOKUP.c307 : Nat := 0x29080000249718e72cb180722a2c294841d9421b702732e42376293f280b329032642932421c807b3279000028e54024321b40d131eb328400002b2a30a32d772a2a00002e9b2d7c312f281f42fc0000327c10a700002daa31bc2c894122321a0000709c2e4a325e0000430570182d772380245f708a702a31c70000702e2a5c20d5161b000032fe21200000434e31e20000000028dd2c5d8073705932d0000032b718c341182b5f18e418e2211f700b803430b40000335029fe31082b9640910000703c166e000042eb30d8708f7030178e00000000704431eb11760000417c223032570000320e2b6000002e5a41d92a362b6b42f870277065807e7090324a
def LOOKUP.c308 : Nat := 0x290b432c326f7075706f437f25942b5b332f000024d080a57036000029137094329f17942b572d36295032b73292294a2c8327003320276b305f000042b02c7b421c25892d5820592cd630b0804e42b7700b31e0000070242b5580a5434a000000007053181c000070137014319f4024216a2c2841a540491917230541a10000708c225631f8703f2d9f183b437f27232cb53081000000003323000029ff2a402078707b2e02312c3173253c42ec27274246408e433332ee323e2860704e25d7701e161580800000703325b929092d862b29327a3353706a26ac2e4d704700008066126f800b293243320000708c00000000705932cd42b380a2707d00000000
def LOOKUP.c309 : Nat := 0x22ed2674211f000070817063409d000032cf801a233d434e312c413b2b962cb2707c00007028308041f42255321a80482e5a415900000000703b30fc30e22c8232072d5b00004029312c3114161200002d53706d42ff435731982dee703b808e2c7b32f332c328228015295825ca161b229122f9805b31bc709c7067000022d832322c08330643442d7d0000000032c7280e000031d4804e31ac265d32fa7022212018cb237600002cfe7037324a2466704031bc4070323422543090804b30a832e8705d2074706623f170462952700d704e30b133063366335d0000314f438132562dd57088807e41192594324b401b410520dd422630f9328370272b3332b8
def LOOKUP.c310 : Nat := 0x80a8322c3354707424ab31df294921da11e62a743279804e703f0000220840ca2040339826bd0000289f122018eb32ef333a32c330a3314243813330327a7068808a33788080804731444355440320872d5a0000706b8074238000002381421d430822ce237c00002db72e441136702a30e22d2b294a2c897067000032c2235a3008422500001363314e32c2299800004111179a232b808e2a3f702e00000000290a179a3338703700002256000024532952426c3264000080a800004167329332932e71183b0000000000002e5826fe1615218630230000255132a031e918e87031000041242577310500000000300a25c233962e442cd532d021d632ab2da5
def LOOKUP.c311 : Nat := 0x425a00000000318c0000703c26bf000032aa000021fc336b12df3321700c407d0000430a311b22ed33222501422700007066131a800b41af2ec830ba31c5161d807e2c2643a342ba330b708b706431af3287000010ca21a330c070252db58041700231f73103000000000000330a18eb703b434425712cb626c2800d17fa251e2db70000306c311432fa3099705432c100003037802229672a3f181c31fe703d435413c82ac33228331600002e5a00002b6a701529cf7010309a18c670162cb229513174000000000000707e281f22b127023344181c0000207e802425bd0000417e19174309709a18a92a6b42af421d000016e421a0805b4252426c4381252e
def LOOKUP.c312 : Nat := 0x318b431330a800003240708e31bc32b72bad00001548280580822a6b805a31ec702c0000706b2f03701f2c952e9e26552ecc0000275e18ed000032fd80482cb7315c3348704410e9802318eb21a28024212b80172a23335e703d000030fc43094036702f000032583293302233080000805a70807022231a2ed84232294124db290a4040805b18eb18cb70782eaa411a2cba265f41d90000143932cd8019335f30d5408e0000705e00002c0a33382a92703c305d32d600002129000029f10000176f2932113e2d120000316042e1326d16a00000435600002dc12dc12c95184180a940d531a37004700100000000115b7082165170135005438270472ba117c2
def LOOKUP.c313 : Nat := 0x7063416732a04074327a2c96708c20cb00008046236a18fc31eb42347098000030ee805b70202ba32ba30000326e3291181700003066267921a94202330a18fd00003127220818ec31cf3138704900002de4308242c340232ba928830000708922561701800d7036212b00002b4e000022ce3323700a3108318c330a000022ed315c32302a233288000043a34382704680410000300a43b0251e32542b6a3366336a80a9307f25fb802142c6333b7029316c3315235222934038431414eb18cf40cc707e2e9f323717ee000000001817701a321a0000317431082dad314430b931a332e40000000080322c5d706a7040300a40d928291207808d435732037020
def LOOKUP.c314 : Nat := 0x2ccd0000181f00002cc130b4325d0000413b207100002dc04344294b32fe7059277a252b000018fa237623fb0000412c2cce40cc308f1121335d32348075268421ce2ea232b800002a837073207900003321000031922cd70000500840ec21ac707d000040c920d9252118442296307541b670137083803370974036267d41b0702d2dc130b10000434b0000438927e83286329300002dc0430c80a82b4e000025430000702c000000002a762cc37058418b2cc2000030b32757203f410a30ed80182ba343932a6531cc4161412c2d87707d31333020298d2a6c3286411f00007059701b0000413030fc808020ab80252742707e708d2db73203703024207086
def LOOKUP.c315 : Nat := 0x30ea7029149b802632ac310630b3703c330931e0700d32db12af500926a90000302d80332f00000031ec2dd72ea223dc000000000000303022fa305f146333082a82184d251d33a5704730bf25a12ce58026416040d47030322340e0316b706632f1801827dd4092407d3197436200000000321b3076709542c6435e216b31b700008068193142c443142098705232f3439900007064000013f141ad2ea9209f4387808a411a705e000000003279000033717048000042c60000252e427733152ba1317400000000251e802f807f803420d131eb0000438118ec134f2b90409e316c2f223141301328f842ba3367431132c48032702200000000334420fe
def LOOKUP.c316 : Nat := 0x2834800820ab439d00001934336770483350702121a3708f00004228300b000041b643a5184b310510bd241b00003316704011c84160310e31ec809b27a926c1709b407b0000222e3367702000002541000024a831778023706e2ecd0000500500002cc4233700003014308320d4808232cc0000000031cb0000000030f470262505328731f7402e13a33157114a0000701a70241600327c2953700f2186183c2b99407331ea804641ae310e209d41232de42cd643c300002e82112770137082707e21d732a07025000031c8335770552ba33373000011cb802418f325d0302b0000191a2ba2407d000070922f2c708530f2437b7014000025cb50074159708f
def LOOKUP.c317 : Nat := 0x305c42292615000030d000002bb8439120be3322700b241e3373294d70463308500432b72dde18fc803f7013000021f143a541232cce32ff2d880000403541e518e532940000707721860000320e2f072a77331541ae29573044706230907061803c4225000022ac0000803131d7708a30f3000020d98026439c2e9c00002a7640380000000000007044303a32a020a4141b20fd0000709300002ba9704350012dec2aba235326da41598073325641da332d307732b823f40000318c33713250809b27db000070462ba1808f700a0000333970483161280712280000000032a030e41921000024ac000030760000408618f140c223fe0000708d322f331332e5
def LOOKUP.c318 : Nat := 0x808d407d00008015212b32013048211670660000326221a531312ed30000149d000000002def708d70153372305d0000306c23c3702c32c4702d302c10de23fa32db70672cd431eb2eab2ccb30f3408f41b02da332ac32f2122a412f309c32c4332f251f701a307833244124301632642669228b00002afc2e832979330940e1215221c133712f06321d2758000011602f2e42292df800000000708c40e0000023ff14c5306817a8800d25d7309b315c701f176e3150337e294c708a4161258a2ce0800c18fd425626ff27e3000030972d34311b330033735009000032404124412e000030512857154000003024407b000033480000000040833105702922c9
def LOOKUP.c319 : Nat := 0x32393338404b00000000000023fb236632b8294c000023ff7095333b43d8000032ca300b0000310a707227740000000031962ed02ed8319270127058000021d7707200002755407c30d67092702c328f40bb41b62dde2dec31bc705131a43133305f2cce219e7043803331a230ba305140ec00002bc329582cd670730000409b309c2ea82a7831772df60000311e24a02bbd29ad7009241e30f920d08019000050052e29426d2204802670030000425f7095702222ee22fa0000303040c7114a00004099809743160000404f33773347700e27422e0416c71922706122ac25a8708e18fc0000307443ae32fe330c2eb115c1322841bf304740d62dee809423d7
def LOOKUP.c320 : Nat := 0x302170962f08211f2add3193703f220530ec40df11697091404e232f41122a837056000042af17f800003383704343ae43a8417342f52f2021037078323840cc40d525094357322d257332c400000000709316067027000000002523000000000000235b702d30bb704830183103403531052eb41208254640c3706e41b741bf40cc000000002328704e32b80000184c7007000020ea00000000315520ad31d723762327403e41f7700b7093000028440000708a7049120b00002a772c0a709614fc245541c9700200002dfe701a1934809831db0000267a30c040de7053000070402ed531282f07295723d78033412541b82ae73324144170551489311a7013
def LOOKUP.c321 : Nat := 0x335b29ad2328439330f92cce2eab13c5337e41bd220e2ceb800c42032df826e3157d7021275e000030c440d500002418409229da2bae2bf92df828830000124622fd41c922fc329b22d8337733802ee17078707822a621fd00007025300c32472547409b0000000013a400000000407c125627de00008065325d8099700241c100001468802641b8000041fd2cd421117060804732643106302321a5000024861445803f314140847066294d000031632a9d20af702d417b30e227070000000030e130f0246280263314402e14eb708d2ba2325830b0000026dd298c802330e1316432f4333c11692f2e708831060000801a2bc44309000013cc800b4314
def LOOKUP.c322 : Nat := 0x70187040423900004098287b224e705b311b303000007008335232232ad8706c3395704c0000704980412f2030df706c333c4228332f418600000000327b27af248670332ccd3270410a232b00007010803c13563080704a00002edf267c43b1000070600000338c300b000070860000338128d42f0d700370111349333c304616fe2df93330700f31a20000309b30bc330c409d708b00003240000021d1148a3287309c00004130270026582edf31df311e323830a714ab2cd913832684337400003106311124fb31c321da420621d9322d0000702e404030b3706524582ee9801926ea16c9800d708e80643140702a308b00002ab7404d436531c470362684
def LOOKUP.c323 : Nat := 0x801a311d435529922377304714c9407d700f3083000030a8404c703829920000701e412500002a83709a3188404131bb30d7333c336c431618df33773111701226972ea3257926f7124b31290000338d2103258f403f30bc32620000304600007056125a23231731311b000070432526338d0000709840cb301800003196286b709130bd14c73170338d0000423f41fd80160000000040922188000041fb0000320243b441af50057029000070582992320b252c311c27563024300c00007037702e705440df337330600000312814e4326132300000409b700a408741d5409225d43023338221bd26763200205a3047305c704370243291703614677022211d
def LOOKUP.c324 : Nat := 0x2508000000002ed8000028b531f231b8500930c0000070933147246613a6805441cc7038148600002c0420a741ca248a312b303000007092806830a740ca700280a331e831120000702c00000000807522be312a220d000027d5421b703c41cb00000000408670600000703f801940d4404e3189702a22ac0000244e409922f12ee200000000706c5004279630842eeb70372231800d40c327c70000126617ce312a312930d612bf0000337425d500007093112980480000312943b431db32bc00008030254b2abd2eb270483131338312512e0328a026aa70944261323b3298280f3197220041ce0000703770217066240225a5000000003067325e707843cc
def LOOKUP.c325 : Nat := 0x13b3256943d421c32f2f0000000041397038000026cf13b0704a409e118600002eec320d0000166320ae803230182685804941bf703929ad288328f430f9325633a7329970180000255a2e0d30303076324600001365324c128900002229000029ef42a632ef70292339704e30a72823706f0000000031d833240000000000002c454139000020dd000032b0700d325641fb43a62cec2ed880404228222032e440ba23322af5264a20af302433240000240041240000700f41fd000025fa704a313f4130211f806770032c30311400002229412f43b041382eec000011ec4125000032ec0000338f7035402e703140df333c000033812cac7094704c3330703a
def LOOKUP.c326 : Nat := 0x3380413925cf41fc2bf1800b302132553017110580237059702b3378300c2cef00002f22127f800b0000322422d8205d3120334517ab325f43f32484252643d1409e312b706043b421f024e5804141cb258a427429a300007049277531ac0000314824542da413c231de704026bb324770987094704a806333a742f5317b2210332b702740bf2d2430e300002be315b01266155e189e702626bb1843404a4403306b7050702a29ef3323159f13de2ee22bf04130700e42dc24251085314c0000709230be80a87016325700000000703b00003399702e265815a6000043ae286c31da70942be7417421db00000000700f313532f4402b2ddb33a4000070963224
def LOOKUP.c327 : Nat := 0x310830902a3d2403000032a5704b702f0000404a70184032000014d6000031062d1d70382d06800c307f14e57049705814d2800c135a302d319f216800007028319b14c9333a43ea26ab2208801a000043d03134308d26b20000252d152f800c801a30b9701313dd700b0000702c000040e5427f70841267709426e070897099245526bd70563147324229ef26a4704a30182df831db0000000015e0409d000027e8707e335f80984174279a31132883338e0000804e428d0000705127e52b1a43b014d529ae704c000070492634312a40e915c2808040de70497004407d336b00001731222f32b841b9324828820000804e27c42b5829b6700f15ae205d0000
def LOOKUP.c328 : Nat := 0x3188331b2f2d25ab704a26a4243017528040706e00003291430831922b68303080320000409b00003149703a2c02409232552f2a70422cd831eb000000001205802430f042170000432a30b42227802731ff704a706c000031fb32b331b900004138705a7012320223de24a323688055700a20e5000020af00007035233b43f23081245f30f0409220dd2ae770690000803f31083053000017b2302f314a1779221140912af532da4121126d00000000707b8054706330c731ea803321da000040d433840000709a41c32e5f00002af5308f309a236b706500002f2f2ad97026237023323369310f2cd717af800d701500007014000018e500007014403d415f
def LOOKUP.c329 : Nat := 0x26e231a423b380a633a40000000032083107335f31e9339c329d30c8701a434d70750000806040e17012703140e130b425cb327000003327708b80a8333b232b16f732e4245e4210404f311d0000000030d521ad30b100003024233d0000804b26ea000013db276e412e704f319017628068174c17b3329c0000704d804d3111242843e9000033a242783256310670423377320240382114804d42b0339c0000000026ea302f2658326431933226404b305f5005177230fb43e2185f800d301515db30b330bd185a230529ad3047308e40ea0000247e224f30b3339017e831350000409b2c9526fd809c286228f3705a3039000032f431a825922def41b7326f
def LOOKUP.c330 : Nat := 0x3256314b0000300830d8245532d629cb312c26e332a7708932e740e033322c733198702f000042af0000000015ae00005009329b27e080613257225000002c403142000000002c0a00007026000021d980a5319f7039304527a520670000000000005004413b304f22c82c44233e312c70067080000017e0800d27a0404e224031a3224f31f043e8309016533359705714d8304831065003335f31bb258a294228a62c037092000040eb2779707f33a622fd42ff70941132700d42e40000211d332430be426b133f409c70017054701b0000336b26e220b043e84111310830cc29b341cc000032542eeb32483118703e80670000308d1703324713df2333267b
def LOOKUP.c331 : Nat := 0x30b33341702770932238312941b9307850010000000070917040801a701b319e4118235543e2424631e924860000407416f843eb422630770000805f702b500832492e34339c0000432915a813650000155927e800002d1b40c2701532cb7090267e127e707f319425b1312242c2429412b943272c7241cd4022702f23342a19314b000031ad336c43e241da317d24e92b200000803311f1278327a7413a5005319e1602300c000026b170962d19315b304f00008074000031c7804d31a331a126870000701e15e0705a40b480582211311c13e300003048704c329b31832c1d30ca707e7097500400003233500670713324709b809625d12ade709626f72db7
def LOOKUP.c332 : Nat := 0x282243e0255c126d2b473022221332aa41250000300c29d100003159000028a6000070622783253d2a50000031de28db30b48041223831fe00003196277c000031f628cb221170640000425450083333804d70580000707128f915df30d4317c43f640ed0000282221ff41d643e2181f26bf2425305427cf2209707d0000407d2c20319e15df32b50000312031f84215801a0000418732ce00000000704312ea308f25cb27ff704e000027ea00000000000000004223705f2c043129404c2903402d806132552b3530ef000017f3210d00004138320327a125882362700a30ed00007030319411be2918800d000000002a1c268531e329b2185c314432a97081
def LOOKUP.c333 : Nat := 0x70553112217f31bb2ddc17717067705b26fd28ad403f2c0a20af0000311e29f60000187e33a33234327030af000042e317d242e3702d70942afd000022950000160b29fc33a5701427b02f2e709a187c000070393261413c00000000326e31dd31a8425d30e930c013ea224825d7000000007068000031dc413b28d2188432cd0000312a7089000017d65006178d420740e0303c0000240226b513c70000704331950000176125538057167c31ff424d245e320917713209707d175d2d47000032ab7020434e31442099232b335d31d100000000326d30b230e031970000413a801a00000000337322110000412200000000307827da701a1714500431f40000
def LOOKUP.c334 : Nat := 0x326b0000326b3114178c70261608439241b8303b25c0701e000000002d2433a3323e31de26ff000028d300002a557045706832cc27a832c025cc70193256332900002590317c290121204206280031364208262f328570662b2732cb16fe2827703b7090706f000031ff70342c4b2c2931ab703418a132083168000030a732e82c94804d2375803e320d0000274b0000708a22c715e1000029fb303c0000000030773112233350072b4817de0000311e806620e70000000028d9315a0000331c802724035001162c2593706d00000000000040eb500932ce25b8211e000070990000224831a3310627b030a7706631c60000804100003189804d000013e5
def LOOKUP.c335 : Nat := 0x3257329427d628da2a36220940c3266f0000248d312042a6805b7043314d30bd807113e5804c31ec2caa2252000030be805914e70000000043780000324a337343ff28531891323f2374705d2ccc32ce000070345007333a292b28890000704e176527d640e900007063258921db000031f5000000003277336800000000500515642a292a07429d000080582d6b2e14701e31c8231b0000000030692b308041708700002594310600002b67801915c800002b2614ea224170924047326b80a5701631088067439d7010806a255b804a704500002b1d329242f22b2131ae3232322533903172307870920000707442673112326b706f000080a970957017702b
def LOOKUP.c336 : Nat := 0x325643310000000032cc2b547036327628fa32cd500800002e1829052249709713eb32e1314e30902d4d704d802f25cc320d33757098703e32742ade7014245f8099319c43ea25b9242e410331ae267d8066311325d50000306900001364702e805a000018ba000031360000236b3228702026dc701c3201312b1489702c225329d9291331a0424315e6154830cb2d35320c70903021329f27c64332258100003348253529f3114131ad4154422241ad4189704142e17081804e334e700a3204706431740000328680634111809c321c8066225225cb000031b0431543a8702370803212704a14eb7056703931ae705f254a315b3171318c211e2c4b70892249
def LOOKUP.c337 : Nat := 0x21cd31bc305e700c7025429d707980680000160e15e6500470062e452a5b42b0290029da310700002c2d26e915c9807f0000707c80170000000018772a24421120c480262a8130f032d7312b418a80647072706330a83140000031fc3352310725428070703b30c0311f324c31070000805a000030520000295726be2cd9211f42673366250a18e3702125ca0000249f30d45002000026ed42eb30b03200178e7055317f2a0870874188704f21802a2470250000807e7096334332852b1e2b683118807c12cf000032cf30c92b33329d40ed245d3351336b70222b7b42c7806400002c73409a2d7632d8422527e6156032623328156532633021807626be2e58
def LOOKUP.c338 : Nat := 0x2b553261700380673054707e80a5237e2c7f705400002b3180712593332b31a127e72589000080a6161b000070424261000030fc2b8642ff2c7a2a2a323313ed808830462912328f331f701b70185004702e702343af3008434d28782bac709832b70000329c328415f0000032607089290a18a02dd5179242233218434a00002594704628122b338018240d80251910433270570000703f00002c9222130000335e23de25cc7052311332e625b732700000211f705730e6314f8058326c705d00000000703a4139418b409e0000708a805a707b31a320e729070000177770057052182f212031682a2a24ac436127de70121749428e804e0000329080560000
def LOOKUP.c339 : Nat := 0x133d26bd3107307815ef32ec000032eb701d320f3197305f2128806300003258183532b5180f181000002cce2d892a2d3082701e440011c280742cac30e300004344707a3240335143b280713374000032e3323f32e3707d32862469312c7015331232ed167d26f425cb30be328f803033207083329180401771803d00000000708e000000002620702d302026ec161b2c7a17f1321926eb312b7069328680410000707d00000000161030d62d860000808a70392374429d3180320c0000801a0000220930b1281580153291319841cd30a530c242af124a40422c797079000032c4702f31f611ad000070332ca8708d3263421b40ed282a208131af13df31c8
def LOOKUP.c340 : Nat := 0x2822328412a542722d79000000002e380000704370672c5d313b331f3279705f4161307631417069000031f8430932f325d52d3620d88058000000004365000015f032fa24682b58426a25b930e4000000002736335a0000805a705970132784161c32192dd670630000701530460000808b2c8c293232a0338d30b4315c000031a42f19339b2255707932c218a925594137338c7087000031f732cd702f24932a3641ee32ef2585211e0000807e234818e2807f7076809b2b4926b431f5000080a3000032ef0000000025a3708042a631e029417081707f00007047709c244a403722d431f8293118a232dc2b3312a63060156d421c3201000032eb22c318be
def LOOKUP.c341 : Nat := 0x2bad418a26bf32fd326f30cb705e115a42a50000161c808832900000434300007045000025c141d880a780a90000437a32ab409e2a7e000018c015722a6122493257708a0000293e707f701227a92d76319000004257316c335f00000000705f41da4344161d000031d332c2334417772e3d0000272d252c000032ab00002c552c8c32fd32ec2e3c314f3108000023812b992b8b33502954000040250000327a264f70552940323e00001123800928af0000707f42bb306817f9700b500a31f82d560000430970072ec842a61922701f0000312030bf5008327930e100003285319818ea2a62143831684037000015c84365707e2c8c2d350000000032e7
def LOOKUP.c342 : Nat := 0x702300003084320e00002b6132283178179915233234321a30ef294a000030a6330980a541232afc309c00002b6032d72a3e40c04042806717942e0132b40000706f2375000017f9708c42c141242ba929ff700700002b8c702a000040732180000031f83114000024da32db4276416a5003283a426c000070180000000070220000184d30c826f717f9417a000000002a6b426c2935310723c1308e30a8000018162c8b0000281f257f281f2939000043562e9b334426484260321730ea703600007071330822410000706a2c5e29392a65308f00000000334f42ff2256335225923233704d429925c2703a245431ae25893120000025d63291000000002b8d
def LOOKUP.c343 : Nat := 0x11c52a76701f000040382b5800002a3e000033233252224a2943404e329314fa0000000070202955708a707b0000332b32fb32ac7012809b0000423530b4246500000000000025992a582a7f808b8034181700000000000042c411480000438632f37040294b707032c20000293818c729132116308230f0335120ab0000334832fc0000327c706e42204381426f300b0000701725b0700f7015707f000031d4282b2e570000329f2c550000500842772b98000032fc2daa221332d8801a266c11883286705f146543102dbd2ec8332200008031805b2373327c41b680742da524a100000000282a439923810000305331da2a2d705330752375000043552b01
def LOOKUP.c344 : Nat := 0x30a3707723760000708723f931db286780a500002543416a2b9f0000803e2700700e332132e71577803c2b6b706a3350302e807e22942ba97076704c7021280f11f9404b000025cc3292804c2b8d702e70243398314c30b42363803b32e42a772b822baa000032ff167e32873248706f2b9932f311ba328f2df95008325a317e31562bba80251912000040eb311d80a62db732b842692957112b27020000312c2700000032cf00002a65312b27e9809533123131000000002a6e5007805832f32e4b408227ea70252f2d708133080000229630d52c9330a4209d707631207076708330a640cb31de331f32fe2952805b31b02ba3241720983100802280683314
def LOOKUP.c345 : Nat := 0x32e732b800002c952a763210416a26f522fb242f308f2657706f4091705e2cca315b338e327a250c800a409c247243a32efd2cb22dc1703170618018193118ea00003292000025b94228704e4277000031f7417230817053116d284e804e31cd00003167325f702f4227703c33303198212b25d54229225232dc15152a6c41673293500500002dbe3138707e26a833981843149e282c2aa6801630783313305442c216c5800d259b2dad2380809c7068000021ce31bc2116000013093315439343902594707f0000109123212a6d3278411b326e23de3347279842bb290a42bb31804390224b225330a4706f4103703c000031df2ec8702430ec00007044
def LOOKUP.c346 : Nat := 0x70412dff00002d5b43592ccd18fd32cf00007009000027022d8923c1704032e729fe8080219e2b81704540cb303a439318fa20a62e5800002b52809712622a7840d432fe18c611ca245018ee30d880822b6b4361321b702a0000705f266b70672a4032403161138130143350301743578081703f0000000043a5309a0000500210a60000404331f829557030808b31da224b330a707321f14087303722ac00002f1930c518a980460000331643572e044357191e305f31302b97707a314e294d7077282941604227433200002d804393706100003367300a3284804832e51919290200003048295442fd161532f210cd30f0000000002b6b29712ccd2cca
def LOOKUP.c347 : Nat := 0x32887041709c2d5b402b338425d50000000000004362192b7026317e2dc1000000002db72445706400007070281821c3000025bf0000282a70192b290000339c2914000000007087703940843320327b8075702440ed80314315439c00002a4031d72ddb7067192a21d100002ccd80812bbe0000707380160000327028c41931700900002ba322c93074808b707830a84124412d33522969701870642d80000031bc703e16ea15934260296818ce30a6336a23b980220000235b31c80000434432b7263b708d000070362e7770232eec7095702b40e0305a23ff438a15e721c322b13043326f2cc4333b31b942b8000031cf30097041706600003258000024ab
def LOOKUP.c348 : Nat := 0x112b191e31f770320000220533663197208f22c9302d337e404d3131309670162ddc439a1844192b18f4336a7077701e2bf88025702c339a2bab708b28dd335422e52ba1294d301780753076809732d924a6333b43930000327042c721c80000314f30443353204a703d708e32fe43c821c80000296b703c000012c641bf2b6b000014a3700f000032e52df7282b12c642c5321c18a7708c435770162c8c805870892a81336a805a282c000080302a93000018cf801a105f800722962035802231d83072701b30788068265c800b2c5e000042c620c6306a0000202800000000242133600000421120d9427700000000244d4313320432e52a8121ba24242040
def LOOKUP.c349 : Nat := 0x702f8082336f2424000000000000702c000040814278212b000032f0000040ec70702eb40000804d2e600000000031f83144335d8068411b000026d411cc14da32c42ee0701723dc702d158e30f480a8500723ee21c333a5803d70142b0531e030fb1519800c282b0000282b184d3143323832703360311f314d32a92f0200002081192b219e33662a95800a2ccd32ed0000330a216b23dc0000703780978075192b801600002db7421d2256808c4277242b8025708d18fb000041600000233b33072848242b2dde431500003298335c803d2ddd00002e7d703a703b184f23dc2e5e00002b6a2b9000003009157a802623f943572ea3707a00008095
def LOOKUP.c350 : Nat := 0x43a62a75802f7037402b2dff8047236130b880210000316d30f28098408e2111192130c92ea250053072702d70440000302f2943305d807532cf26f62188000020a4706e317420e412c970472df532904234138241ae31af00002de218fc2413309826d0337731a25008315c705f2ea1306a80a9297180237020702d179d706c703f305c802f2e02704923f4000031e0418b303a43c3706532fe30d470362820301570710000335f315c70072506116731803321706d41af2ece321c20cb33732330000043572103413833202ea242c7708e30390000284e00008033705f41b64269803b411280a4000027e88096210b11cc00003228301731c830c000005005
def LOOKUP.c351 : Nat := 0x803d30f32ac3417121d1412430772a83000040708023220d80482ba00000431623f43180407d17a700002508320431cd21d7708b2def30452461316632cf70142ed11329333b00000000215f31f770252b1500002dff0000708a2bc0800b0000411a806832a7221d30ee7025294243b2309024d0802142271932411221033144300a4315416832033105332f2a9c0000702131951245338e247d255c2972416070132e01701732781324700424f93323000042ad00007061282d2e7c303043a62bae706f803131b0700f404331a1245130fc310e7061307f2b90329333151913312021e9700330f4308d706031572ba3702933712e7e427820a4403540bb311a
def LOOKUP.c352 : Nat := 0x702a333b000041242a8200003155808f00007048411b3380421b80162d89303010d88009704d2bae809840ea2df67018000070274362000040387007000040ca30cc2e0025060000803f8099336c3300804c00004084304316cd000000002cc416b8302e000030520000333914a5310200000000294b233833743066708a27b20000123b42c70000801a2eb443a60000801818f47046302c000043c8708c24380000117d800a4086333a339b303b418a32622e5f33a6708b2c8a32a0701320c67054700230240000305221d700002bad000024202de53244282c22ac00003198233e241e3006321c284a80082ba3000032a631f83131267c212b80190000703b
def LOOKUP.c353 : Nat := 0x28823047320c2a82311a000070280000706c00002cd742af2e0220a44124325e309c00002a9c802422e315002eb400002bdf436230e42eb3415d00003244223e3221264a417b30b12e0121fd13d9805f7028280f41ce2cd722c825d2000033543396709541097077806e21c332a53111431314fe800c0000702d0000210a329c282c2eb42f082cd9704a7011426b421d00002955230200002e0121fd2bad809833a82ee8338211338009417b403231580000337630bd236113d90000703f20ac307842777012313d2cd80000305d00008055334543ae500120a42df9311826ac409c2bae2e04287c32a630af402e2e012eea7060409131f80000417b33a580a2
def LOOKUP.c354 : Nat := 0x20c63126707b40dc18eb2f1916fe2f092eeb3030000041e970172f087003322226162f2030822def338e0000000021aa24633018290a30b1704c233020dc00003022232a192b41d7404e1872427530b2703220d22c1b00000000704c500530be00004035303c25232def32390000701b41d42f1720e7702b303b338b1251230241ca167900000000282d2ee2000041682ee9126b809b000031a3437a2bc23022306a14490000297226f32b047026236127d70000301642c28019206c326425668026000032e82acd80243395312825d22b60247380270000210c193442692df87055330721fd244e33480000804e0000702600002dc13270339826db00007033
def LOOKUP.c355 : Nat := 0x169780275005323f00001503703500002553336a169711fb00004315417b16742a75000031920000303c13560000416a0000167326482205411a70253314224700001584159c4073330c2b322dae417e40d920a63324317a0000411a251f33522e7740e032fe2a18704443ca30af26c07004184d297d706c801a413040df3024269c410a00002bc470910000000043b070833330803d412f702b13680000163e248a2867338330e98031306c00002328707825758082703400005005413a2a9d30d31297802532f2311f32dc21153380409a1671800d500814a7300b41d4306c2463000024410000000070492df822290000295800000000707f2587804e2616
def LOOKUP.c356 : Nat := 0x7084701e300b7085219f800a0000286c41300000417300003110336b42c7312b4091803f7091273530ee2f1a27020000305340ca2eeb41737096318a266a209e4043325f00000000804b7071150232cc31cf2f233158408a2490310f192b30bc12f700001363282d13d931f6248f31da704900000000338270370000244c22d7113530f93381708a7047325700007007310470291857803f2328231c2592339841f0249e00002f0d2cea0000308d500231b6408720f4701f29b7412f40900000000022462644708a1934704329a080330000409217e6000043a60000700d40ea294332700000338c23807023416a22090000000041257092302f23fb407d3382
def LOOKUP.c357 : Nat := 0x25074207803d804a312b000041a829987048000022d60000703e0000255322ac0000702330971934703700002579701b30bd801800002491802700000000312030783228339841ef702b00005004427470942c4041fa4043139c409d43ce30d0301643080000300c804d2eea2aca0000125b8024703143337041706c339721da33602e02313f338330b3703d0000282a7044312a31b720ad33181844338d41c1313d000032f32d6b2899704b317b80a72f191205303c0000138f5001702d704c220f305e2f1a7031300a0000702e315b42c87017412f2df830e230df8034222e20963261323b000022fb703d313a808e31c670471600135a00003254167532da
def LOOKUP.c358 : Nat := 0x3201707b409031e832dc2c8b2d46702f0000000030607096336b420b0000706130a621122ac3705413a6306c43cf333c2465424528212786311c31462f115008312b32e830a5317d805d33993112408c709131703080240030d511fd40422bd900001559257926ec000040e0266e7059267b13af800b336a230515b5329b702a2f0215264118703a32bc000000007049338e30be00003048000025c141fa237d422720e5219e116b289f000033a2323b00000000000032c47016000031f7318a13ac2f10000070430000409020dd7096282c245500002ee215842a50412e303c2ca6210a2b570000702316763137418b000043e1173031ac3354000024aa
def LOOKUP.c359 : Nat := 0x2c8b220025b930183300305432247033420f2883252970425006237a410340d6702b704b23540000309028dc7023337833a5803c409c413a31b940e0000021a400000000319532e700002235259200000000000026f70000000043121929000070702579000020e6803f704b15db1734802714be23392486278231a22a807066704221ef802630ca70350000305231a20000312a31db7005220026e20000701640cc709141cc13b68025418616ef41f614b228c48081115032b150017027152c000000003333412d00000000428b4211700614b1172e28a00000704d705d2a6c31d9000043d1808f709331e932d0808a3230294d2b7b43f52579308e500117ad
def LOOKUP.c360 : Nat := 0x2080702e43f240eb704a32947065167828a00000326d10dd2883000030967017000013c11593337822367032704e30b3325430b3324729ae3120324b300c32ef2def29c6152c8015126522c130772288315825497087436313ac25521788413a23232634438a3017420312667098000022ee0000803f20af413950017017803d314731d10000000041862eeb0000706540412333805531f525b90000704c307720e6000026813202210a41390000000070653076000043df316430a52ed9255c804b0000311f8055000000003018809a000031482cee41c13399000014cf20c5412c32562af333a3000000008041000041c2704a808233742229220743e843b4
def LOOKUP.c361 : Nat := 0x420b14e31516420421da41f616f82371325531c6804c326943d9702f24a4802729ae2368317e20e600002ad9000029fe32d932b343e900004205322425777020415f23602902300c32cc20e5335a2ad915151292800b30393018206d80a3701c335f707e224631f62ad82611703843f4420924661267416a2b7b2f2c21692bf71364705a0000311e419f13dd000029ca702400004139803e28a9336b30824078802432e230dd32330000242d257841f6440300002d807065325242c43149210a14d9703470913255326e00002349304431c4000017cd30e20000422932fa0000249b409931c8416a00002f1a33a4704b2c0131c43239708442033166417f804b
def LOOKUP.c362 : Nat := 0x70412b903171323c32a63129708b706228f332003378412c220813e40000413c4229318b703d248d30e317b180a8235432a013c2000000002ad943ea000017153138316570082b29705a000031e943eb318a13c80000705d1594000043a83330305f27d52455164430b3707e409c31872f23000032db0000701f4205319f704a4363314924a5000070710000318a707d14da2303000050070000000032708097709c252d707f42dc1267000080334092000028c5000000000000428d290a26a7804030a5705a2658323c409c265131e9313f000024a5425c318b000032603348313522fd23632eeb2ed92ec9700c126600000000809700002ad831a025933149
def LOOKUP.c363 : Nat := 0x2f1a21db16a5801a1712267e804e325530c040cc804c1600336c7042136930bc2701000000007071703032250000804d50060000804d0000337531eb3060329c25d443f427a7000028a6233b332e28f30000234980552240192130e4706d415e703e255a32562e17413a00002f2330fb0000336942f5225228c531722a50000026b5000020a700005003706f31c50000702b705e707d220e32d57073803413dd2593000024a73096242723813352282b33a42c6e25b9317d3143000031a8259270410000337f32a63105709a80601704804d30a800007023701b70883170292900002e28000018611879000031e726ac30d830e3000013643240000040d64205
def LOOKUP.c364 : Nat := 0x319300002eb30000000031de0000417931eb223e302e80a6000031343284703a176580270000413c70993043402d337500002a23312c32dc300970990000316626a4314b703d000040b413de0000326f20b530a5709228d8700b0000702c804d0000187525c213c23256210c211b413b000041fd804d7056707d4217804a2d137057704326f6237300002361704c224000002b7b7097000030fb31ea25ca2552000040872c1e412f2bae703f32c31215205a413c7095000070522af527cf312b00000000000031d13114000040ea3167268732082c963225701f417f336023ed2104404f70320000000032a7237d0000000013657001000030b132cc0000
def LOOKUP.c365 : Nat := 0x31712b47313532303159000000004400000026d40000409b175c31f331a815c2189328aa00002129806800002591190c2528417d32c380a30000323d2247329c409132cd40d43090324b00008041304f702f312c31d3803f0000207970392247327332e5318c175b3096314222ed323e0000707d126725b1000032e7245e186230cc32bf70272ec400002c0a2115171226862f24420e7079000022560000000025888040421226a422114130000015ae00002362704b00002a1c327a705700007083237300002782000027af7066404f3196310731c64099420e2b2028d5804c421743e1309930a8240f3108000012de41d58061000050014022417d704a3328
def LOOKUP.c366 : Nat := 0x7066259331f57072318c1603305f7027409e31eb21a4307e30b4180a29f531a442e2000031dd2151800727f87057413c305430660000312c288a706711d1000027de22487055402b42a31764702043b220dd8061404a70570000701416042c4b0000705600000000808d000070722549000028fe28cb42742d2e33602594000040e014e525930000700b22e222b2000032dc27a117e13074000014eb14eb26e9334041183111707b422528ae322415c2315b2685154115424358803d00000000421f3232803d30a82adf32e82212175532f2312b31b843b413c2336970180000245e2c4b31f5000031f62783306030bc707d2923437400003234312b24a14293
def LOOKUP.c367 : Nat := 0x708527c1406f262d40ec7039318c21f02c04704e7018311e705630814400403620b031ba705f0000308480a9193343eb15c431202b20701428ae00000000160323b10000409b43b226e67026409d0000302d703570432f2f15c6311d00005006432a704924cd2c2000000000707b292b1564312932ce417e7059704a31c7333f312c00000000192b434d339b211530e2408f307741d7252e0000230641c600001542709025b1230621bd323d15424299211e31a7809c15e00000308415c3319e2e85310830a3704b2b4600002430415e0000700e0000429423c220e813c80000315b707a41c30000707b32e8000015c4421d27a815643196203a701330b9702a
def LOOKUP.c368 : Nat := 0x704327dd7057707d2e1a0000401b0000305f70432b6116fe42933227704130ef26b0265b439d700b00002c48408c144e7025703631a93232336a500531a930d730cc277c000080340000190c30e100007017325731140000000031d170560000237d335931f500007043702e3016703a28ac233d424c704400007067700540e18073339b33403107285d00003377203d3261000017ef700226b330fc33542a537049275f0000703029d3000042212c25808932ce15c47006282100007059248b32a8409d701f1770804c320726ab418b7017336b42940000249e703c2594801a331d000030b400002d0231ec30c02afc307814e5305225af2b484254175b0000
def LOOKUP.c369 : Nat := 0x2afe7003204a410b278f000022403286805830d62363313770223106248e2d2e422032e2000026b6700631de32e6318c31a13168236900002a2315630000336b25b84130703f220980197088701924972253320921542d49179c703441b9329433424029171a245b317e000031127093000000004256245e41c313c84266705b00000000236300003233000043c9323f706425b83339803327b00000208532633197421e327330ef70181770804b2bd8323e27b02b7e29d132cf317e316731732c8a13e42da632cf2128705e31e620b03166311d31ec00002d6f0000211e32cc317a30b328d100004297326b80a4000013c92d48163f413c32b6705631a9
def LOOKUP.c370 : Nat := 0x25c9288a302e702825cc1605327421e22d6f5005000000004210700c80612a55000042660000258231d418ba21db305e2700705b311227df245f1867807e32cf28d9178c15e22dd00000707341c3243132c02b4e2d35190d4226327b00003273237d25d43112700d309030e4804a2128806e328200000000700c30be41b97093317e41737089000023d72c4c7036700d32cf29fa31367088000030fc0000326332dc42e829f62551707e27b0000032ea00002211706f278331134269320817930000500331c70000433130822c263078267331ab31de25592d35315928d0000029057014700b2909425d0000412c326e32db231632f2000030181548328e27d6
def LOOKUP.c371 : Nat := 0x41722b5100004277705b0000314d42e94238331d804b30f02d9c26a00000325822403273000017770000335d246470152da432ab806e24a80000404d704e26f721dd000031ab00002240180b2c2731ff31e5805827bc2120179c321042942c262a55804031aa2209326b7089000026dc70500000425442087062500a211f25d6291527dd314c00003197328e30b331a28058433241cc31ab171424ab30467073409d2c730000178c704c2b252d76417432d9425d27e9320a804e26be0000288a1718000028d830ef32cf31c825d627d6500370562a25160a318815e6249f2a232b98000043e1000041892a27703a3054702d42d9804b31590000700b00000000
def LOOKUP.c372 : Nat := 0x806f2e252944000026f63084402500002309800c27b031f5000030fa33182454322770753138709b27de13e6221317f9306c2d3526ec00004223322800002efb2120000070372c4b3350704b18a100000000188d1249429a25583228278340bb113c802331b0000032900000308f281529d97011188d2b042b800000320a42fe309b180e420730242306307725cc116431f4168c00002a06284170572b5e249e31f7000015e7000020e6000070122d9d404e00002d4b409b0000326229d7418a25d6000027d60000807570512c4a806227cf705a32632dc02877802380732c75288a806e2a550000429c323f2b31806f704f312c310613e531298061293e31f8
def LOOKUP.c373 : Nat := 0x32b6183a427129f830b2290f000029012a240000707c42e8293112bf3277705c25d6806f2c5b000041122467311f234741d615ca421030b22e4626ac4130303b0000403d00002a40305c15412129702d211e18a1705613e9000080a2703031f1704e0000424e1833708542240000000018bd406b704c13e532aa709032a9804442b92d532d7431c52d9e000025d70000318b130932587087702727cf2ec3310d705732d8161b4207803b17f927de701330d6402c436300002c270000703b30bd0000700c311f4042701800000000000033a72efb42e9707932c441c332e223342e252126700631e840e9701a24ac41cd2d5028f327e7000040ec2b86702329d6
def LOOKUP.c374 : Nat := 0x40d400002caa50072da3180f000080572c4c326b706870682e3e000070890000702a28ae409e3346418b30b12ccd3060706532e128db705d0000321711bd236c420831742a25332e17933306165026be708670072c4c29d9322518bf437932fe24a900004268312b000080a2210d0000700a421200003264704b32db32c400001777000025d32cb142682c79000080a230d628d3707c806f29f729da147322f300000000324b25d500000000290718e025d67037500840cb2306328200002e71310030bf31ea000000002a240000704218a1207326be308e4379303000008065421a2c8127802e3c41ff242f3337708a4393314d32eb20778024339623762d03
def LOOKUP.c375 : Nat := 0x2807246930fb306b29092c5180154087171a418a0000237f7056433a0000307332670000805743f7808128d3000030de70982c4c30ec705000007089326318fd41ca293e12b7800b709100001745000000002dbd2b0531ad000032ec703030bb707100002c5c332c00000000237100002a282b293374707713ed705b211f41d931e900004363131e2c7a0000000000008089224b248b323e18c52c7932b531ad80622c5c70232468000080a9700b32172b22421c42b07051709832ff000022f342a3404b804a31c815cb8041327500002f222b85314c18347046705b708c4120290918e131a130a83256804c27a44136332c3342320d230132d828fa22563135
def LOOKUP.c376 : Nat := 0x707f00008066000026bd00002c9532402327293f7079708a30b32d75233443561777000070732082000080a615ef1911803d30cb0000310641ea705e00002469408f421d270226bd80722946000029010000705817c723762a2d2592280e17950000703b1240000070132dde31ac15e732eb705930692a5c313830fb70620000421d31d3000080642a747009000000007047704d4260706d705a2d522b31225500002c8a70580000703923802d51280e806570493322301430a870568072212b3338000016110000313830b042ff0000500a314d3163704a42f218387038258a000080a2336a410f7013000000002efb433332e341a650010000707370732bbb
def LOOKUP.c377 : Nat := 0x23c83108324b161c293d300c24a000000000321b701d329032c32c8933512d8930bf2da03180804d40900000703080318015326c32d02a5f23fa2912703e320c28167057334e408500002c5c15e74065210427df293718a3707c703a426170952c920000412d00007058809c805932932b5830cc26d900000000308425342a3d24697057320c701c2571161142724306000025892d7624972204171a807100002b9f22f500000000000000002c2827f5238120792a782c5530b370870000000029ff00008082262c0000143f2c7c807442ec704d32fe00002a07706970523351313280710000707343ff707231c319322b86707b23aa00004277221200002617
def LOOKUP.c378 : Nat := 0x80811815500618ea000032ef18ec000000002698807e705b339725c270133108328533517012326e41a8316830d831ea707431a4300a331625c241a031a2000030f07043332d42b033a2808f00002b8931af43428058807f326c2a0729128071262c41ef332d32aa31d4707332d0707900002d86328e427442c531e027d73150249d000022fb21ac700f418b000031b6418b000000002d870000311d2da47051704f4043334f000032c841092bd318e42947309900002a342ea34042700c290b0000804c33662a07156e000032347090179425bf000030c2293500002c542d5727af433a707d703670712129304741740000807f8072404f426011fe800a316f
def LOOKUP.c379 : Nat := 0x212b0000700312a515f0276f803f00003191322e7026143c32ed0000305f0000270100002e752c82304e236c8067161d26a380a5328580662a6c00000000709c308e330642fe32572c95259440ec41ca32ac2952702f8040000022b32d77280780722a3d24a1320f27d730e3701c183942fd706f3219224b2db4434a704a80753352407b00003338224b332041102ec417f900001393208017940000318f4257329e41870000430732d80000707c00000000184470490000267a2dd22329327820e232dc294632ce00007072321a24a62c2f2ddc2ddb00000000308a2c93224a2a6470532701326a3080426c00001816338a0000320e433b332222a930b0
def LOOKUP.c380 : Nat := 0x413b80592b2a21a52e9a00005008290b325e703d31c7702443f740830000707e2ea1333a21fe705931f12dd6427800000000335e16b8704d7069434c30c043c380890000707f42b941b000002e6000003114704b70532d7c11952c96417f0000316880732da52dad0000270232df26e4500742b800007055332d50080000116530cb27575004319730a74084161b706a706816152d7728292496438000002c920000245f282d416a4226335d332e3120329e31c80000426a335233532c5d33a825b9319800007053700d31af706618eb26502a3e31ae8032334f00003317421b80a421a500003290183a221300002d874040000015ef315027d500000000
def LOOKUP.c381 : Nat := 0x309a161d0000304332f35001000043f73293000032ee42277035335f426c32dc314f2e5a7083401b00002ecf3294702f7076333000003246294830d62433708870702359000031070000000024ce24ac31c8807f314131a00000805a32b870282da7128e800b702327642a640000306a30fc32192dbd0000707326e13108808c42732a7442b000002b60000023dd30e132d80000807f00007002806332cc43f231f72b87309a191732922497807f295114b52d860000808e319300002081166e7028000000003018184a70530000335430bf000032e4000030c8421d161d1409704f00003120808f70912b692b694036439d0000000031372db517972b57248d
def LOOKUP.c382 : Nat := 0x703b0000335c0000184b13390000418a3335000031ec2b8f40bb2ddc3354224a27ea281700002c5d2a2d16cc417229151918706218c72e9b20c3705f335f336680a970640000184b2454339027be31387043703400002c8b42c5409a70192bad2dc07065330832860000500980670000294880a52915808000002e9b000025ca3285413521203286205d280f704900002808318b3263335f28290000409a32cf2f05705f422731d4000021eb332f00003354439a183b1843308c321b2813294180a915242939417f33163348000000000000000032522cc22a3e2b6a42b0332c80a5705e2b87184a43072380217080092c55317d2d71703c183b2d5380322a64
def LOOKUP.c383 : Nat := 0x31d40000805a24ab000015f000008097805918c680334356339b801632fc402e282930802a65321b407a0000278432f200000000217e000070312f1042c3000000002b81809a00007017205c00000000706430452dc023db0000324731e02dbf705f000022ea000032fc2e7b335e32fd43144087700c000042ba305c80802e9d302230a72a40319843605005000031192ba021d830e80000708f3354701a707610fb00002b8f00002f2a0000327b18407079223c8027000000000000702a2cba00002b9f281b4025403e000030fc31c8801524ab000000002129803b708a000020817034706a00001664133027ad0000707d329142ff32fc00002cfe00000000
def LOOKUP.c384 : Nat := 0x3037703d402427d32129000080483339704e2e0040e84344000070100000703700002a7f00007070294a43e0435642f4205b320227a9000023f8804133128081416c33212a6d337823692a07700c0000181718ce0000701e2255807d305d2a8226842cfd80260000435500002455330700002304316b43892256320f2a6d706223c1412232fd3309332380a80000426142a42f2100007089439c2a3e706018ca42bb315c2cd733698068000000002ba24309333b2eb1320d321b29588017805b4276000022c47033331230fb2954193218ce2f003068000025d73114705e318b803e4389000041da0000705d31f5336d3081804e326580740000708732c42296
def LOOKUP.c385 : Nat := 0x40c2302c308321ee302d30f4335e000031d7308428a432583114000000004042701480194276305c2a3f40d7000041880000321b230310cb33462847700d2db6241c42763202404f28204077708332f317c23204119f800a191980754112422870332db70000708a325e2a6d2c8c00002ecf32bf24aa2ba070950000700a321c250100003110803b0000329f409030cb3045705332e7807e000031bb330950083314331432ca290b42f318fb000042762300803020a2337d2b6b2ba1809926ec3261229980090000244d704900003014808131c6708920730000708922f4000026b90000314a00003130222b2572426b708a4261703f3037704c705280173367
def LOOKUP.c386 : Nat := 0x33a8308f434b70140000421c313c314d24222991312023f42cc340d62ea2000080a44229707e20e43323333030692ea100001149404c2e6070193045000027018064803030392737000041ae421d500111253395700121a80000303a704521c3191a0000000030742b69336e000030507045321c2c5527df000026aa32617077327924a12e7a701e302100000000309c33150000000020aa000000000000411233713264707b0000336f32043198700850012e607087251d2bb5800b23d75005000040d42a77801630cc80313316316929022a6e4313332c20f3802730f412c331a422b10000212b0000804e00007084000031c826952c95326400002b902c8c
def LOOKUP.c387 : Nat := 0x307e3150000032f180750000801621aa205c192222ad435831f280180000300b500743440000707c33092abc30f570872224800d254818f418f40000805b70893030300a70462cd531233227205631b500004091337040907028192126864260403733733348313180302525305b416820c2433a2d882a8031e00000000041bf000032d329da316d338123fc709b32f218fb302f302227ae704a40d633682bb2703f2a7e4392332443572982000028950000804132fe256f17c120a342787079304831d841ae31b580652326192100005002703e18fc2ecf219e2a771415801743578095000026e70000431325d719343240336c439b80310000000070202e7c
def LOOKUP.c388 : Nat := 0x321c3315163b000080170000702c411a000030ca21cf2df530f00000301640c343630000295742c5000032d723f432f33351403821984091702543a600002f0931d4706630d3309c2f0670222524803000002180283e40d67033700141a67075700c32407095283b2a4000007028701c702031024171327c410a00000000000021aa00007025707443c832102bab7062404b0000000030de000021a131cd302e0000704741692503320f000022a6149733a8703628b970342ba92a78000022232aad11c080244123434b7077701f2cc2284b000050052bc77035337e41112ccc4168707e14f3800c32702ecf300a318c804930f4708e2381316d13288025
def LOOKUP.c389 : Nat := 0x30c02ee941254124321c2a780000801623d700003371305e304680820000146940d5335a184c2bbc3322313170360000000032382a8324ab32477096315631384034703e299100005005802f2b6a337e43c7419a21c325498018337f21fc802618cf00002db72a778031418b26e130720000409111593120333070598065000023fb430a0000000042382eb1403700000000702e14650000709c000022d526ab337e22f4000040363021319232f42eb1706d291580977085000022562571000042780000000024272e7d5004709180183090803143157022000041b6161c40d320e4000011bb0000708314a940400000404318fc338a702f00003021282b13f2
def LOOKUP.c390 : Nat := 0x700d2df731272cdf31af324f0000000000001447115a223e708b4242337e3314808200003018000030eb704c4087306a404200002c9417452327704d2dc011167024319840df325e2cc40000701f20d4000000002aa78024000033842abc3073282d00000000338a33610000000013858025338b2295704043af1468500433737027411a706b000000002381000016de000014f03258709314448067704a7097000011801325000000000000324424ac21c6000000000000338a43930000708a70472e81231c20e22d08184c21ac00007098416a2f0742c712be80252eaa306028950000705f302f32ac241714f98097704e0000500a20980000192a21a431af
def LOOKUP.c391 : Nat := 0x3192337f20e34130335300002cd55002701d316f7044236a403f703d2f18412e707441a830543396000025c7227e2e000000427670262f0870563244809a2a80286c000000002650335320da120b2cc480a80000808f7057801a402d500442c32867000030c92dae3076277321f1000023312f21412c7038302331072ed02740276f42780000223725477060317b2d88000000008016334743b124ac30d300000000411231ac32d0302e80250000333b434d184d80324117000026474314304722042d8000000000407432d930823022705824570000319a31b530c82748139d0000412e32ef30f028b7808e19340000308b30a831332ccd2df833763354412f
def LOOKUP.c392 : Nat := 0x13322ccd00002def70287004267c7009192b440243cf703631f2338b00002ded00003076700e2cf1336b110f3322310600003103402d1502255300000000254a000029582e01338d50010000701b0000338c0000236500002108000030a500003043209f43a723e570173247000021d0329f298a33952b98159727ea407d336c235a244c30e82de614a831b0700f7039000000000000702a0000407d335300000000000031db31580000320b809b7093000000003048423323fb2cc4253514ff2dad7044300c4393220d000043f6500431a442c5000023fb7019808030ed70871384319232002bdb800b3138329531f93104000029897021208030ed00002913
def LOOKUP.c393 : Nat := 0x802716720000301630bc00007073703a7043704d000020ae184431ea25ae413026f6000042612ed870620000124350015005000020ae803d303a211040861580800c000041c00000000030d3701a704e2cba31112255430a8082000017a241b8134f0000000040e9312c2df770402406800b21888032701c302e7037245500004091167000007057318a40d62f10000013df25fe43ae13962774702330ee70204364309927098007299c7001244d0000321932d825d631630000000033742ad5294b43eb31cf3106332f311c2a81337431b870361168000020da000042bb2420300c7016248026aa3204309932e1000032b032f4703041da14c031f22f080000
def LOOKUP.c394 : Nat := 0x26ec30a7404c00002657158f704f706722d824002cd82cba30f80000308e1254800a41d43068325d000032e8000030d741b7500531c5404a235828142bda40eb3376179f2eea318c30d52524412d41b830b270152eb40000706b42c72e267010247e1348317b41c10000242080670000000000001735311c700300007035000032b00000411a32bf30e170140000300c0000333b3200000080982431325100002799000031f270177058325b29da319230b07012704344012657268431f230162ac6800a0000411233301246139d30803104702d18c00000112f40d632b10000157f2806000040e9703130ec000030df80657037439a7043404514a600002477
def LOOKUP.c395 : Nat := 0x404f21ff2abd311230ef0000000040e8000000002ace28f2135430a70000310f40c3709620a6275c18ce40eb432c000014bb26d4000000000000286c2754801a803f0000337743434086000030be14bf33a82332709a3133700b291d28ba290b33827036704e293a00003018236032bc70032f102ee000007099000017b433900000439b24200000266f13080000301743cf20fe2db7322f31c430d60000000016d6439c000032b3703641d442a40000000000000000000000002cd82899409d3016212731702cc4000000002e03408331cf31104037700a20ae80184040804a29020000000021118027408700000000809a000032f20000000032bc31582f10
def LOOKUP.c396 : Nat := 0x31cf703e802f00002baa206c70480000000070367010000041ca803113b432d5301200003360402e2509299100000000404c702b2d053110233231ac0000330c244e703d3192235a3048404b124b30833078286c00000000804b15a300002f1921ee70412359323b701f4099413a423831987013804100007078709330bc705e436140e821267046415b428e339940d5312a30f970143133000027e82def423621da33a81526704321ff1592802630c929a2203a317f277527fd16d0800d00007052242e28bd30b22bde40d6330040eb3128000026aa22072a8133600000000030df13a143ec32bc404170345006000040ec00002509311032470000332f2cf3
def LOOKUP.c397 : Nat := 0x7050151f000041cb408330d6252d173320c629a280230000277525261309311080540000427e308f408f20a732a50000701b299f3378207a000027983324337727c7322f16d2134f2368287c249b30f01685800d30b2302d117f31572f24220770378055275821240000267d0000211c43080000408620c0166c700c19227037803f20e62077242033a3247d426a2eb4310420dc33a720fe000030b231030000325e43e9404c000070171487803221ac4123323b32bf25ad30480000310333a1000028953164700900002775000000007044237030ee232a249e000000003223404920af00002be0000000002bac14c740eb436016788027409d318b
def LOOKUP.c398 : Nat := 0x14d670150000249540922de670387045701f3223409d2082416a7044237a2c8b43d000003232311e20d4233225ac2acd30d4000041d400000000709429ad00002ae57031313f313f242f702b30302aca424400002634151e00000000703b7049126424078025000000002210312b7059000023612eeb2abd242f125c338341f541f5174b2207312024660000000041fc12db802570950000310f704b2c1b15a5804a240280490000243110f7800930543165000041873074000000004041407d00008033704a000040df321930d83233223d33a431a33111193330f82454704e2df8000000002f110000500170452bf27090300c20d426843112312914c41487
def LOOKUP.c399 : Nat := 0x28f2704900003144704130c9401c249e327916e330b443a7709400003165000026bb2d0420d4804c7017702a4072338d26bf000000002ad941ca3378317e301628052af4407d308f263128c530a7337700007014703400004038000070582e9c259a3105216530f8702570911858800d000040e832d529ca4130313f416a23053129274d4037704c409117c824d6240300000000428e701e70502ad8000028c42082420c2526000021250000709531733293252d41f5000030c929ab29ac0000804a000000000000706e428c277b334d13490000701643d8413c43e98041338d32b2807e2998709a2be732c940d643f222fc2ee2706540ea700b409c703b7037
def LOOKUP.c400 : Nat := 0x31d2309a315940df42ad31b8700e27c8804b246a2685323c13ac0000000019347079418832230000000032bf41d640eb000040d622fd318a26ea000028e9701d30f0000000004316404c13dc3009219c30a743644173293a2eab3374231b2230152d7041337430e4303041d543e12553806841c1701f233341f632b6000029ef00007065804b2246000070252c5d42dc000024550000803f31a4409c00001526000013c127a9252c135816e8704c2f1a70517074701100007002233b119c31e93077426c2054111380a8233c00007095308d31087009420c3384000025b9307430cb25b0329b7080317200003399000030a87008323c406c7071232a2ac331f3
def LOOKUP.c401 : Nat := 0x7007000032b316f7704e000029c88071703c311425fc707633a4703242dc703d2b31702f30bc418b4217309841cd801a3267211400003255701a320f242e705930780000309a28c5245d32fb804d308470347038211d40d330c07019326d28eb32302be8704b300a7071000043fd215e174a20d57007703e323100000000702e40432466000030fb2c032210175b30237092000043b22651701c703900002a350000000030a815a843e126bc255c412d7073418a32b340e1000028c52ee02e003018804c2ad9403432f043d842c4244e42040000326313c1325333a5248620af2237185d000025b93210000020b0236313c08055708700000000000030fa3286
def LOOKUP.c402 : Nat := 0x29202333335f2a1a21ad705a15a825b00000411b3230000042bb3335437b000032c200003077706d430920e615a716b728cc14cf705030ef2def17cb329c30d870380000314930cb318b136470364118809c314630980000267620d57012313e70973328240370082526709a32a8425228622223232a0000704a00002114409d29ac000070070000265831670000223f7038704c2d13230630df429100007006000031354174704d709600003048186d00000000126d153500008016704d15a826e200003230117a802430a870343270339b709813de311d262c000023337056408d7097318a32d943ea2580423f26a430483132000023bb0000700a000022d8
def LOOKUP.c403 : Nat := 0x317f42532871282b8019237332cc24e62312808a4359000020a5307726b52b4423d632a8000000007012705a260030fb43f540ea312c804d0000309b000030cf42160000175e800d707d432600001870233c40eb209230a8805f123600003204424528f2314929b4292140dc439230c643b02d6b704b41757094308d000031bb70630000426c7020704d806070182401267d22cf42e2705d319870380000000043e9707a000029fc152c291927b0809b00002af9421542e940923197136b804a000031dd00003193801828ab707c29ef320c000000002200703830b12c2042dc0000701815b500007098709a2237000014e4319031a3210c14e1000031ea0000
def LOOKUP.c404 : Nat := 0x420f000032611267702e0000312a31cf316626e3424b331e31df312c22374208706e00002f1141d6702b2128224831640000310542060000314d704424a84124154130b4233e428d700131c6701b000031ac211b31404211000023730000703530e413332d6b23ee70243053417f409d25527018245e22090000000030f02adf3343249e00002eb43024211541b330ec000032162592319e31d12676126a32bf33292593000026512ccc803420e8259415ae15ae26bc807f00003024000029d0258913dd42110000000000002700801a000028cf420d2588000021263398152c420531df803d308f3113703a70292a1d13c70000320b30be707140253023708e
def LOOKUP.c405 : Nat := 0x268620de2c74246b324b00007066187a800d000030b413a143eb80650000259400000000317070440000703930a8000030c930e31688706d000030e22a8326870000808f30b2000028f300002497334100007045323113ed8034702031962af531a4000032b42dc00000327c707200003060191330178034000032600000417370380000000021d10000288940d43196126d17df16b8000070183090291c70724029802432707049275f000030b231fe222130d8326a413b20e6311200001308709830be16b8000031952c1c000032a731590000000042e2311128ca31d2704a30b47091000030ee301817d7246924692cd7000017144139804d70312e0428d3
def LOOKUP.c406 : Nat := 0x313428ad2afb310732c1118200004210707b2d32417d701400002127223f224800007088000032570000224a00002237701f321932ce440031b97056000020cc43f5292a00002d2a0000151400000000000030a42bae32d700003225312c0000326a00002209432b32cd2c0780610000272a257816f830b02249333f190d700b41f7000032cd15c332b4418a702a70360000500123628072703926fd2c2041cd000030d713c6000043ec40ce2252329c806631d40000282b3329703e703000007057192a25882d49182f3120000028cb0000160400002d2e701820de2a1c0000412e2403308e706e42ec32572495000032f332a80000808f26ac000032927090
def LOOKUP.c407 : Nat := 0x31e9223827ce2afb7083000028db303a4360178c30ca320226ac309c3196317d292b3114000028d82e1a0000700e804e00001458707d32cd70123144702013e1000020de707d7069160a0000705713c842a430e300002592323c0000237d433a2d2d25b17006000030fc233e1542803429f7424c30e415e0422114e97012314142e4402d314f41cb320a705a41b1409d326d233e20db0000704d33a3000031a8704a0000312c700c00002c072a1d126d32572ba2425e40ea30e12ba3000070844219704e314b000029d733a7000031ff43f50000708c26872c6f0000704d318030183193319f000026fd28a1292b4293707f2250319c7049803f223f7037
def LOOKUP.c408 : Nat := 0x432a17f00000000020f6000032070000708827a8000030be3315180d00001714323d27a124a80000803d17f218854208700a2686707270705002314e0000290a154200004091318b00003023707b707d2c7731ff24972ee240ed30ef0000177533a331a0804e3098318b40df27ae17dd306732aa00000000177041cb2c09708f704b31d328ab25b00000000040d4706e29cf176f00002d9941512c7a000030fc28f931a3703a8063415826ac00003082401d7023421926eb2374807b14e932ce000032cd2b480000259031430000281725c2000040eb708b318c0000300c2adf42e9000027d52cab2a3f2d4a1789329f433a322533a34188323e31f331ff
def LOOKUP.c409 : Nat := 0x2b80708070897052000031a9000027e927de4211233d0000000032a980722b4d7064332c27e6314d315b31a825cc000000000000705b00007066236c404f7061230530d400002d34418931f770242431709632d9309b703843752a1f31330000000018872d50000017f614eb0000805a24a000007092704a306732cb41744189804828ae0000306c31f57097160a28cd00007022704e15c4707229f330ca426429fe320b706c30c1800742e1123b2d5242eb210d0000290231ea0000310500000000310640e132cf000022be00002d990000701830c0801a000025cb0000705631aa701125254295249f709b0000000070118056707e136b331f40e822124212
def LOOKUP.c410 : Nat := 0x27a82a060000328f70520000804100002c2613ed32570000421b28a723760000221128ac805a16093014000041ce4117302327d13257000070897086293150072b4e26bf23742ca943412a6232c90000803f437b70632b015002702622530000808f70630000804640ed2adf4095705770552a55424c2240420828a724020000807d804e188742941892225642540000706231113233707e31ab31a9221341b900002d51323e4212433000003196000070934358700927a817f12436708800002b0231c827c031363359424c301f212822c3314f26be708027832d3542782e3017dd807f2e710000154826bd70171713318831355004706200008062311c2b29
def LOOKUP.c411 : Nat := 0x237f290631a116e0706f706d50032b2231d2332b27a87075156d335a0000707c00002a2333a63343236b00003337000026dc0000305e704d25d418a3704b26dc708b0000000025d54256702e31060000212a25d67041242818be000026da13e731710000000032b34226704c0000268618a22cd800002933422200003142326c000021282427000031800000000032db00000000177630e4275a2a3330c02afc704a80640000238042120000433000003264236c32cf4210329c233d210b70332901000031f6000028d300002d7832602afc30ca7055315c0000804e28fd706e317426ad4333429c31af292a15482ca632407008303c705820f8000029098072
def LOOKUP.c412 : Nat := 0x22d625cc327921150000290e500300002b26000033502f0280650000434b2067411300008088267e31f716f28027330a40e92508000031ac31e8705a28db2b6b31f4700b704f2213294d0000314441253171420e3272425f00007030412e292f704c16b731684268700c30cc80a27081211d2b67314d20bb8026705132b7293021db4227000028063231000027842e3e27d7701b259215ca161100003275806f29f72939268d000026f6706d0000329f312c20b02a53314321bc80250000233d160c41c330f0000023b5704d000020de2e388027705830c8705041c213c827a8255b000031801061703a433100002b7e704c70710000701829fb2d3127b02b04
def LOOKUP.c413 : Nat := 0x43750000304422b333767076000017f5709631c270077055707d24d62e4800002efc000028fa128015663227000029fe0000327630bf31f728e4248e31980000705c32db20e8700d1775000028ad421d806b13c22c273107708730a62c5e30f020cd3141433728fe809831f82e96323432030000000031a40000000020c032e933160000707d708226ed123b433225d7705a804e705c323432c03018420732cf437d700a2908312c191370772901311f7065323d2c27321742b0433a00003274413c4386425d3180807f314e31ae700932fc8065328e000031c5317e70740000267d31ea315b2129325843791606160b00000000706531951815313641c30000
def LOOKUP.c414 : Nat := 0x2da443af2cba32d0294d70528074807123803257319300002b5f707d70443172233c418b30fb156d707d70465006808930090000332c2c8a2380000031142a0629420000290018a2000041ce707132d917f4703100000000319442738096000042a42907326b43f63213703142c62a36703f00004332233d161c805926ed0000706730c027e72120000041cd323300003051705041d7327050093167313833820000000031a480a5315326f330d53084335a704e2c8219110000217a0000317f314c2e39424e2a2431e940ec2a282e71701f00002687433142b02d5232fd256142a10000000015ef000032560000311300002ae0401c7038000025812b557014
def LOOKUP.c415 : Nat := 0x310780a2000030b10000291000000000000028142e4418ce708b317e421b3194425700002b55323a17940000212a15ef3080705d314e40c080a300002251437a704d11150000000032fb703a700f706531a2327933073264319d31ac2c822d5131137089703070683343291024e0000050030000320d50087042229531a32b4f80593320429d15e7802f1068707a00007041703c32a029da211f00004244702e000041c018e430bf32e841f770340000320c805a3030802770892806320400002a89327b000000002468700c293e30a8326000007072319600002c5d32582b4f31a243892b5331db3383804d805918e93337706d24a72da300000000318b0000
def LOOKUP.c416 : Nat := 0x807c429c430725d60000211f2e5b2a06705c704d2b53000033a6333c245f807c332c30be2b96440233120000320042ae421d000024a15006426c31fb31a22a572816804023763264328429417073183a331f000032ed32ab701732c12dbe2c82328f2e443218310870630000000025780000320c25d60000703c701828dd7071425f426f43eb000000008070334470722b5732fb0000418b3264171a2c28000018c380344332308d2e568066000042ec804e2c552c93703a70687046708832f42e72000023e6803e136d407b2c5c30472a34805632f1000026ec30d82af6708a30c926ac257800000000000028dc708b30ca437832581914808b30fc315b32dc
def LOOKUP.c417 : Nat := 0x30772249000032da302f3377000041d93075328f2c552320311f2375333900002c04808132e726f50000426b2f01161431ad000032d0192100002a07704a18e300002a2c2b32000042272cb02a64319832f142a53284000080892e58293943b4422832c000003350329f000000007089331270270000308c808a320f00008070326c0000807d338f707b000026ff2a2d2a75705a31c670860000334670050000809930a6807f2ec427001793417f000030c824a042260000705e327a00000000309a00002d872828803270443150320d425680672d5230af0000000032db314f332213df302e43063150324b500825c870452a3e31ea426080a180342c92
def LOOKUP.c418 : Nat := 0x707000008067000041ef2cd925d4280e000026ec2957705e2db400003254323231440000329f33783138421c32862b97318032dc32848058000026b4500500000000704542fd42a42807404f4227000000002912335f2700000042252b57237f000024a10000703b0000324c27d73290700c3260421c27fd705e161c0000326e704500008041000000002b2a707a000031ea314f290132840000707a437e00002b32329d280e706f31412ba03269804b28dd2daa1815179c25d7320132a0326c43592c8318a82b50220f18e615f08099000032cf4382704f320e705e00002cd92a6c278432a02a3d33382ec6707d4383320d32844225430640dc000000002c5d
def LOOKUP.c419 : Nat := 0x237618c531a341d84343703c000027e00000434332c324d980080000413b701e25cc42601798318c426a290b18162581000027b23168808a25d418a918f02c5d28168067000042b824972d5a3136703c3353805b42692116000080a41646802770892a2d31ae41d87043000032ed23dd255923117074411a28dd32db331320c42b60280e43910000427340db70792a3f2da5434425d52b614316248e233b2f2f281627e8000000007063328422540000000042af3371426130bc3143701125d630d82da52c8a32dc31144269706841a8000070532d5b2914305443803344807d5006161200002255804c0000211c00003240702227ce704a4228705e43634344
def LOOKUP.c420 : Nat := 0x329e439a25ff70742cb700002c942b49183b2ed4314c30c300002a3e42b0332c000000002e032cc20000804e161d0000000033542c5d418a2f012ec73285805b8065000026bf703b0000328531f7000000002cba70862ba370874226000031ef336c00000000184a700e32642a35118731b0000070893284804128dd25487069335e41c326e3805832798063335300002128000032fb0000704b429d2e7c31382915706d32dc2b6a294c4389703c294e31bc00003308323e42282a35421200002ccb27e82080421b435f000017950000804d294726b532da27012daa335442ae40c0434c3279707c426c18e9311242f400000000336c28dd00002d70703c426b
def LOOKUP.c421 : Nat := 0x809b2a7e00000000807432f2707a3218000040ca000070942cb2237f2469805b31f73198702e181f425f33220000000019180000709943822a2d70882b69294240c9806f808a31970000335c31a3335a000000007060701c00002f0031a4707f113780092954703a20e8335c33243292320c8072411e802526ed2cb142c531df320c00003365404d111e257f41552251426931af708080a4179c4269335c2dbe80a431a4336500007087802e438932913258000026a02b68184332b72a0831504276324c18ce314f2e7e162d132d8071426a18fb1386703033a41928327b183b705327e8320f32dc4357808a000027bc8026329f404f2592181600002d582909
def LOOKUP.c422 : Nat := 0x192170582950302130b28072281832fc30e1500131087080181e3075706570100000000043562db6705f18c643b370512cb73178335e70954274435732270000302f807f331232fc2c5e179a2d88804e2baa703441612c8b2cb2704a267e5001212a70582d802a65325131c827b2701827e92eec7013000000003252708640c1302000003233707c30fc705f18c5327b311b00005007421180a8332c8066708931a222552ddc29140000707432b7705942af3321109c25d7707b282980462c9331af7058431629ff427431ec27e9000032e443607058704b410319292bc527e030ea2a6c25113257407c249f0000000000002a760000808a312c328f2c8b338a
def LOOKUP.c423 : Nat := 0x404219210000706842fe8056704921bb704e43914403427530e280a4230f32ce327b42c24274000080732dad31f743137057291531e632b732573309335f2a070000237f000080582cb225d72db72e04705700004212184433073228707242ec801629ff32340000229b70442d880000000000000000220500002c9432ac4212500532fc18ec7098000028dd257f00000000000028030000406a2e607025426028dc0000000031f63279246942ec29520000225570892dbd320d30398072207f305a00003258705f500942af7097703b2d8718ce0000264f31502db5703b000000000000192930b443a6412031d414a9315a3018225642c432c1335f00004308
def LOOKUP.c424 : Nat := 0x418b00000000000042b9807d2c9500000000113a000000003324000031d432852c8b42762820707100007019426924ac32f180a4332280302b9700004277321a337e314300004016181f43c42ccb2cc40000439b2db632e718c633217066294d2a3f31b0309c808143a532f0803400004308184c32e700008095295430e333080000705f8034329100002d8832e524ac179d2a6d70422c5e3308317e338d291400003107335b326f00000000326400000000000000002d800000804e31e0327a326e0000311470978096703a29ff80a40000708b00000000320e427826742db72b3380a400003270000029130000218f2ea1321830c000002de5209d0000
def LOOKUP.c425 : Nat := 0x3279112f31562a34707d808031e8000000002c9626278041282a00004277184c281c2b614358111532db7065702629532cc20000331370853291326d29132cd770950000803c70082eaa000032f17089704900002943801500007085402c31f800003306707b0000000000001876000018cf3263000070952a7722b33210427732d92f2f32e6335d704e7055332224a027e9306b2db6316832047072145140cb30bb184c410e33752e5f2a36326f3373809a434332100000327b184419282eb2412c32c42d9f22c8706e32e80000273d2a6d290b00000000709442772f10438a2a6d237c33a82b2a808b3125179d803300002154000025cb32ab40328025326f
def LOOKUP.c426 : Nat := 0x252a000032b84225000042ba702b20a37076000041c0336a707e2aaa43062e000000806400002db7323411f2312c337f700d2ddd2cc43021438a24000000237d2a7f3314000022f32b61330800002def24ab207342c42a6d2e00708031b729150000709432f3192900002b5800003167318300008068806329563198434d00000000700d18f10000407b11c4800a00004277000043a630698068500721f600002cc4184c00007002703d2915407b70200000000031bc00002942144631740000184c2a3e290b80648074325812bf30ef803d708233542a76291427e90000000032f3305c114743124307329470867041331400002b9870963286330932d0
def LOOKUP.c427 : Nat := 0x285242783373337131b02f08804e00003114701442bb3009000070673279803125ae3210430930370000203a808a0000294d804612ec800b325f315c324c4361306a0000291533672a810000703623db00005009293a2822328600002c8b42777035326d207a282a320431c800002914205b25000000337024ac301632782de20000425f2a3f808b294c31e32eb1205629438095700c329e30462943216b701a318c0000320e0000313000002cc3326433603351317432c9270225d72cd60000000030fc000042755006422931bb2db62e7d439b0000184c803f31eb708c41af0000184c304300000000337842780000707d00003210245980263399805b3203
def LOOKUP.c428 : Nat := 0x32fe302200002f203046327b30747047000025710000404841323074000032da32332616500233600000706c702213fb800c418b327b23ba327c000000004357704322ee326f225532e6300b70932b6a803c2ba2335341ae32e6305a704c00002ba10000212b28212955402413022ee916da702e2dff184d0000282a0000000000002ea23130000018f42a762cd7312c327b338a00002c932c8c50022b6a317900007022700230f00000000080812cd519332ded294d43d322c9184d43b22a8042c57012708927b2302d18f37066000018fc80320000303900003178327c43c626fe703d19341224210a259021812c9643a642c37019000000007010192a804e
def LOOKUP.c429 : Nat := 0x26e432d00000708c8032000025c730d42818709280970000282c295521f630ea0000701c18ec000019330000704d31ae416a2958300a3315805742262454144c31f614fb31a40000122b29567029282d43fe808d801632e533142301708500000000142f332d30740000421a40d50000282b704e14793397432c3024242c00000000241921bb41b64274000032032f0630a331f8307533800000436100002def24a112e87003203b43af32fd20a280683397409030ae1484000031780000315512c40000334f33760000702a333a2ee1439b205c2f073309500270601403800c0000000031f62d892b9921f600007025305c31d843c431bc339b801650062de5
def LOOKUP.c430 : Nat := 0x703170873132212b2ee0000000002cd8333000002a77000031557089316f3202706742272ee142762a7f70620000294311eb43c92b99230130d7708e31a370470000000000002ee824028068404322c9700c4037312c0000307500007020000000000000700a4231112a439218fd21ad3178000014fb327832e741b930ec2ded30c91933324131902f18318c43b1413531931157209030c92f10804a282c709a2dbf209840d3000044030000192a0000705231b6325d801a2a8043618032218100002f18282a707000002dee30cc2526701531142ed52a94313042612a6e7030323432044098317032d00000184d7041116a0000000018cf30d4242900000000
def LOOKUP.c431 : Nat := 0x217b000070252a8170767085306b43b00000704c70722ee02eb332e87054303b000031f22401801900002f072ba241722a9800008016335330774036184d2bbd2081803c302f318533a57027254421fa0000314342c58096000031972dc0000041522df7403f32e770030000279e32b823dd308d702100002df840921579800c703f41c20000707e31d8000027e9500731bc0000305c245200002ed8261631f03009703800002ccc28572958707c256e31061641800d806880a9425f40d6701c707f322d705b408f0000702c115a2de531db41c9294d704c290a0000302e70270000709721f1706631b0262b42c43082000042a6803b0000303900007055309b
def LOOKUP.c432 : Nat := 0x30bb33483315300b000042bb23f4804c7048411a80994119000050042eaa21872edf00000000205c704c32f4257514698097316e8032408d137c337f000020ae3015335f408e2cd62f2a3368309832ac23273315439c0000193370522958421d2f170000233041122dd732f1431430ff00000000801800003384327c332f4159335b000032db30768017333b436230f700000000708f401d707270342dee4047338c8049144032fe70054392000032e800001934500533a1709531f1801870338048421c335c00008054421d2eb2325129f030f43348411a30972f23500414f180320000323970222420410921d02e8632e800002ee200000000179d70417054
def LOOKUP.c433 : Nat := 0x28e4703c702132f400007012250970483380288b12f8298c254431b7704c2e86285c3299300c802714890000338e0000139080257088286b332432438025801a31ce2bdc12998073000070322cd93113702d000070473262333c7056708c000070872eb3336a70430000439c335400000000123580242f100000335e434e708c15042eea3351000043a6807f339032e8326e304630bf00002508192b327070242741706023380000427811fa22b341730000336943f621ab207f707770602eb33364313b00008073000020a5808f00002ee02cba4091807f21c9000030772f2d323b2ccc2b1b0000705e500570230000703824518026500170850000
def LOOKUP.c434 : Nat := 0x192a32d5000033752e01306a8082338c2303000032c4705d30af30768040413820db00000000207a41da802f333043b021a50000700940e080173069300c000021ca2ed94188308332510000138d40d62452704d7034417114c04174336070192f2c282d0000000020e4000070062e8513912dee3129703200002eb32dbf702121d000008098409223213076308470982ab8331470960000305d3323000070983240338c2ed9335f22b3153680260000316480672109333a80a641d540867092322230831327329f41fe244d2def2eeb338c31f87052300c299200000000000025440000000041a800002eb33291417318fc000033483380302e20c6209e33a3
def LOOKUP.c435 : Nat := 0x1509800c338c28b2800b0000306b11693299322241b74112336c2eb4276e0000192a31900000708a158c704325098098000000008034704021ca0000141e2338704b706c000040ec317b32a443e914b330a42f2b0000700a3376430943b20000311c701e30c7435770332818267330b080487060705731f12bd0000032f4000033774361303822102055702a2e0125d27034706a266f500513a02957409e00002f1980804359278f30ec30af248b00002ce633a233760000308c0000316f249f294c339832f030300000000033523384704c19333291000016992a8100000000409125d730e9404c295700003380293a2abd30c8416a21d0000041af2a782891
def LOOKUP.c436 : Nat := 0x43d8317b42ff413870172abd30b040ea2206311c3398000000002cac3335000080192792247f1642702c7056287330be32b1307730fa704331f0000070162ad800000000169530ec31644086311f2775704843f370440000422622d8244d0000220f000000004041000020815001309b2741417d000040ec806717b7192b80a8305f00004316242014b42ce780403030336a000021a5339b231a43cf21f77004338d8074235931e6250930ee2ee100002eb232282eb322d7408f000043592eb331f21934281816980000316425a9707d20af31cf315729582c1b0000000070992cd7709570312a0821ea2e86000000002bac000041b722fc702900007065
def LOOKUP.c437 : Nat := 0x327b8033807430772891804e0000311c0000000022ab294b31db116a23fb3024310c2f2221033048412f18c0703d0000120b000020f60000275600000000267f703620fe4087319280a90000000080980000313326f2000029913398803432f032602868302230ba32d67045707c40ca13422c0832f3000070133279701623592f2c7058322f31db31431255275570950000430a3024701f3111326a70560000807200000000706780a5267c334d32e7404131117058000000000000134030bc120b421b30ee26842f22000000007029244d4211210f2e02313340380000277331c42742316370132a182ab78024269c32b815108026000030bd2367
def LOOKUP.c438 : Nat := 0x2df87007703f22fc412332e840d620e828040000305170077057700e404c225018560000807200002eeb30ed31587006701e1596803f30b240cc2f1931a430d4155f317b7006233b13a5000000007007709200002ba200002f2c00000000311c000031f2000017b68027706c20af28982f198018323b2402337622e930b180173030000000007058232b000032ba30b130c83084329b22fc807421ff704343b3219d26fc7025700732f4320f43e029a113442f2e409200000000000020e4804030b3320430c9000043e1000028ba26b223610000000050052f2223673105700823323398407d322322f5279514d34038704d000031083110289530ef413040d6
def LOOKUP.c439 : Nat := 0x337842290000309b20d52ee1209f336a70040000323b0000409c00002ee2500843eb210541c00000000050043083000033992ed9279a701f00000000807f2ace000070922ac9244e703f0000000000004040700a2eb3000080a30000125143f4409d000020d5421d13490000806743fd316480712a567022411b338c000020ae300b30d7803440df23714357248621d916df309b30b3700720a670200000244e301800002f1115a700004035807041c1330a325630093188333043e0148933a22444802631582acb7097303930e32cc425094187000026bb0000000043590000809717aa28b1315827994043804e809b30b13046325e31b820d4286a00003114
def LOOKUP.c440 : Nat := 0x320226bb00008034269540720000276c32230000000030b270412b58403f00000000000040df2d464025709741244111704400003323500130482e04000030152f1a705913b623b8702b13ad338d30b3409000004188336a305014857049700b702b70282be28025706a24d470133378210b412d000030b341cb2634134816a60000433b14d9802670092b81412d00007041310331dd43f300002f2d333400002cf432b131442e02212480272374700130ef27c741fc00000000412f28ec0000000043df0000704e223632585004000043d900000000000030302ac700002820211428b622fc000023b043fd311221d9427820dc26840000417e70352adc
def LOOKUP.c441 : Nat := 0x336c00000000421c2eeb124b212625c7000031c4706a252e31434189409b3354294d30f716df00000000225011387025000028e112512e01808021ff000030a715a82526804a804912720000000028e813de27d72055706424853170805420822236000031894187404c418a00000000000043eb7058322f14c4804e25aa30f8704e2f2c210b404f13c2125732a7126400003083500126aa14c670360000402b70610000159f704e70982eea0000302323230000000024032882000016a7268725aa15a7000042392de633307092703826b2323030a80000173e709670382c9470442499808230a7701717c900008075311d41822f2f233c00003164159a7075
def LOOKUP.c442 : Nat := 0x303725d27006000040e026b5703d314726d9000013dc302426fd0000310710634090409c7032803e00001882705a704c33a4000028e8313f311142bb174d3189804b125c23042ac313ac27f500000000409e3018805528f80000313f244e0000326e40413375314a12658017424331dd704a00002333178829a330f9704e277570360000303c701321ff70490000000041d5135070490000422916e7311f00000000255326bb208e25490000409c40ea311c2551407c30782ae4126331c33330135980252d333261311e152527c532d3709815a380a82d0d8026409d80410000000021ad16b643d97036287c20e5439c173a40eb7039333b28be000080404189
def LOOKUP.c443 : Nat := 0x322d804e18718027261070422f220000236b00000000000028837024808d2bee2f1a500130bf3255803e30900000304830ae00000000000043260000208200007065271c701700001357000013ac30f0000032b3255b4115802400001525308f0000701700002f232a1d29ac42021362702f13ac211500002be815b3180a707031de2eea279a709200002a6e28832ace42c5309c317e152c32f3500330b30000704a329370650000291624aa809a277f00002210211c31db00007089310a30b328a02f1931e9000031c41869700229ab28c430b270453197409e16ab800d0000000043f522ed31287024403700002305801a26a413b728c4237230b432ff
def LOOKUP.c444 : Nat := 0x7029333c30a624282c402362000014da000041fd0000704617f721da0000805400003090120643ff236217d12a1b00005004428e708924550000803f00000000252d00001361254b000015db3170704129f05002701c30c9428c803e300a7088263f16ed15a6144d3113709600007021106732a741cb263432d0000043ea337470812ad730180000134f804a31147023705922fd21880000403831e92d0f0000703d00007097702e43142ac331de27c741fc3142000026a420e5313e338f2651000043ea30f827f6318970422866275c308c30c00000000043ea30bf32fd27c8224870802ee12ad621dc800c279f22374217233c30eb0000420423042bf8
def LOOKUP.c445 : Nat := 0x2bee21da317d000070092e1c804100002115432624034099309a000000001530700b706500003107327c2651326e000041f630fa33907039317c23620000254b000029ef2779700c700970072af62b1a706d30d616f3000022513054223743e121264365420431d020c72c93412f323129202af430a830b332f2136500000000804c30762883308c0000704b412c40380000404d409c000040913113409e2125413c40eb41cd804d0000294d318940c8704b0000329b00003108412e70362dc1704a000024313334000031934174703a32bf2dae30b3000013c250060000323c30fb31652d0d30f721d2412f223f428b33247050404231d2000026e200002f2c
def LOOKUP.c446 : Nat := 0x70652114332a335f140100002ba332bf14e5232a703a3105312c00002237249526ea707015db50010000702f0000000028a01750706240233285324a30607008336b30b400003020428d1886279b404a440341d600002c4532e62b1a43ff14cf80a4326431dc2c1e50055003242f268300002593317125590000809830f040b97024000070408081701d13c227ff3159701e00003187701723de1058704280417039801a20dd306629cb7022413880182305804b20d50000000031f3000026347058223f2d112742000041fe326f7083804b420e3234187470592230223f21d22c04325430d830c731f3237d1754418a20e53219000043f441fc706e32552c04
def LOOKUP.c447 : Nat := 0x804c808121db0000000017d027b141c0701d17540000804a00003141804028c727ff16f743ff31eb2cbb80550000000032b60000420616002c6e30fa404e00004400320c280d233c43eb3210245f3224319f3338277a31b70000000040ea000031888058255a311c155e2466325615a8000013df708631c32a1c220829ee00002211704e2db50000291b0000706f31a425892923175529ec00003377425743ea80710000000042db20d5315a221343e1409d00004245000000002a1d32db000042dd30452114312b00003045000031ea31eb0000309c40c726977007801a0000325600000000000028c5143430822081268514e5000032e7709b2eeb314a0000
def LOOKUP.c448 : Nat := 0x70390000000026ab000050017039703c314020dd224831f5319e17d5000080563137704d15c143ff27cc00004210259443f4325531f43346804d237f420f2c6e0000319428ad2d2d187d275e2d2221275002705e7098000043e250028033804d321b15ae2c6e188641fe20b0317f31fd2a067038339c211e3359314b319d258a70910000000000002d9930a8705400002b4732ca325f804c7092237e17142d1932b443ff0000320426fd223f00002b1632cf416a703c000029cb308f30b4265970582b18321c15ae2d13704a0000000000002b4840de8018323c7013331c000030a60000000041d6703817630000311131c7258a30cb133b27822db5335b7066
def LOOKUP.c449 : Nat := 0x29b33054323f420600004363429a318032a700005006702026863193000028c87069801942e97056417f13c6000030bb0000259380a231952889402c32550000321c2924707d000026fd11d128d2421b2d4627af3083000016f732cc404f705a00000000170732602659325527a10000292a0000317c32b52d1900000000332a3084000000000000000000002a1e000032cf801600004344314a404324690000326930e1307426ab26a450077022304415c3334d312941f7806030e428388008000030c8705d000000000000000031260000184b00003256338220a78082319432d6421718870000258a31f870400000704a305b178d417e000025933263704b
def LOOKUP.c450 : Nat := 0x254d32a70000000043eb000043a82c7213c5170f425a2ade15c3000017d7805f2dd7705b31e020700000209e30b432cc0000700a805f31bb0000424b303a28948024154231fc306c00002d2f318b0000338f2c21417f188180274402424500000000334d000000000000426c302f26bc2d2c24a82f2e42a632e643f628d9000020b72a1d311f16fe235332040000404c805b236b701870011766309c3336334d7037299043f62a3f00000000148943b432c200003141178a33362d460000311100003120000000003159806125c1000023bc0000182f32aa318c155c42c7245f29f60000705f705630d7175b40eb30e142e332cc702e70063051323e2333
def LOOKUP.c451 : Nat := 0x31e020f13260318c000018831545413925b929f700000000334230a6706440ca000032b5500631aa70380000000016fe12a726ac704a43ff705a24273255326931c4306c331f00000000211d000027ab43b3500525cc25ca314424a8702e41fe7058703b21ad80414208319f27d500000000314c70760000324921ad3170702929d0320280a22e3231ab43e1704c30203228280531eb0000237e00002b48236c2eec17e52b5017b7288a2469409e421032dc3262329d32c1126d41b02abb00008081304830ed236a0000704d703e2c27335a29f2708c2362160530ed31702ca6000042e15007700730243261000030e8327829b2704c17f2000025c10000258a
def LOOKUP.c452 : Nat := 0x21162497339c309b31fe21d230ee0000180a409c20de2b6a808a0000801832c229cf27e500000000000014e8500832312915327831d131b931960000320a248d30d7211670910000000030ed3376000000003257417f00000000000028f670973256706342522497000030ee7057000000007045807422557052319531d300007057705a43752d9d326e171228a63254706231d02a3e42e217717069707d320b0000320132ab705731f5248e28db000080a516fe223f31d2707e00005005176f703832d500003357236232ca70372e3632610000429c26870000322744032c7329f4300c2d19175b2b1c0000000018ba319e00002a56249e30903054700f
def LOOKUP.c453 : Nat := 0x30b3700a335f302d180c00000000230626e9000025d533a625bf31ea0000806830c0320332088056702e4342000000002256000000005007233330ef13e32128700c80827018259400000000705200004097308f330b223870670000706522fd32e4804e32cd27d0335140ec000070557049703842232eca32aa000027a132cd1711703b25ca310b425b0000413c00007064212770632253318c27e00000000017f3804e1771000031c5804e3166203f13e3332b0000500526db26e328cf2c51000070992afa804d404e26be30ba282200007044313820827039702c7070707132d700002a5531f626bd316500002c212d4b27fa221270392b1f31200000
def LOOKUP.c454 : Nat := 0x26b52ca6803f339c00002c0931ba705600000000429c30a72b4930fc0000707d00001894316631417041328528d726eb420828d0706e7078246470744261236c0000426c804b000032b62127315c18df702a332b27cf2efb31c732620000421b704c5008320e000070560000437b700c8034308f31e92c0a288a323c3275000025d4701430ee28ad8062319f0000000080a58061334331c65009000043eb320b50072cc2308f702e3172705a31d127a1314c32d8332c418a2c248057706d24560000705b31c6429a0000417a13e20000233430b3237600001611303b709930cb000030ef314c41c24314225232e13260707231ad24973060000031f72b80
def LOOKUP.c455 : Nat := 0x17f28081434d000031507009156541cc805770892a6c424e28ae33202d5220e7705a418a424e00002c26433b000041ff327c31dd27a1000026f432310000706820dd0000180f212a000032cf709c707e203f2d9d40912495429c314c42124379156d807300002b7d706e31e00000161d420827cf707270313261409628d329da2d3031af30a8000080592c5432d80000245e0000328842677030326a000000001545000000003258178b32db314431ac281741d530ef210d7005319726bd0000807431d228f932e1705720c32a2215c82c4b703e42f50000806f3256190d00002b022c7e8063702a4189237e00000000429832d7708c27e650072c4c704680a2
def LOOKUP.c456 : Nat := 0x212831bb70710000807c26f5000070510000705833977055338040c127d615ef7074335070730000156241ce705a28ae0000806f00003137211e317326bf223826eb0000281d323e30a770073167160a24e3309c18a242ad804731a1000080a626be00000000314e27a90000268624302b0400002b0426be706132927017210d290b434c706929ff314e32cd30d8804c31ec70652dbd42ec3196320f700730f027842c280000421220712d8630ef2e393232418a32fd23812e3e000023802e3a4212707780a7320c189f806680758059422531f72e0325cb321b15657066000000002334426517f225d470087089707e321770072d5732177051000000000000
def LOOKUP.c457 : Nat := 0x42c62a6e00004241331740c1000031f622d0000026fe421a0000702331ab2c8c184c293f18a370760000321880700000338c807c33522c2f281e2c2f0000000024e4236c703825d332020000000032c4327531f7807c0000700a20de805800000000000030a700000000314d2a3d2b31705c70737050421b0000702d323e329d218832f000002a5c00000000706915482b310000161d40ed0000332d000070952376269770522256000040842380706632ce00002a250000705b41ce20e770528088292d31ad000032db427270651775807180a931f4701324ac426c7075000030eb2a06338e000031960000000020e88081807c318b00007072334f7099338b
def LOOKUP.c458 : Nat := 0x32d9000042ae2d4e26f52c540000156d26b432e226f743154157000080970000000026e4000042bb267e27fe807332fd00000000000000000000703370753338807d281d320d2a2c2e1e421c24ab2d724225807232d9707400007039280d319832d74211000028d4281f000020e83107181629d9312c434d3204000070431835418b433726ac80640000000043580000801a804e706311a4000070530000703c7042000080a2000021bd31937025000043b31911177327b1426e321818a2421b70882908308131ad00002c4c32832104325718fd339a8075421b707440ba0000247c31ae2254000042ec7098702c00008064421a18a30000307e704a2c54
def LOOKUP.c459 : Nat := 0x33902c3031f825cc285a80082b6722410000404c433a31bb312b8075264722131912328525532b2a000070582dd52dd1438432da4208408370422a8017f82d347020269642af321a2d772dd5000031420000294131ab7002309a2d3429302634407a000024312495805a328e707530f032492c547090115a8087000000004278000080a980732a5a279f5009318b31a03287192b0000233d41fc4342000041210000312a24a1000050072a34237d00003278328370752a5d00003287000030a80000332130782d352b33427032ed707d32b70000807d433a22a428d430a8156525cb3074706970130000440180652909705b2ded2a3c42ec33524273320e704a
def LOOKUP.c460 : Nat := 0x2c5e33230000000070202a353108702f2c2f2c82000080880000000043ca252c000028072a6115ef00003285000032f0808831ea0000703b7075329131ad2879334542750000413c32842a08212b0000704e2a59333b179242fd807e2b33331632d029343279309041897001290a00000000705c706800002dae70878071335b328e44032c5e2a642d4f0000705e0000000080a941d77056000018c0321a2b85326d706d26ed0000326e00002a3d00001717000000002e71330b00000000434230984099705830b43198328f0000280e00003293181a2957294b30cc30c0319843420000332015e715ef422742b02d7b4306000032d07066000030d4807f26f7
def LOOKUP.c461 : Nat := 0x290a0000000080712eb42b687053705670892a36330b0000270041d917f900000000294870233351000070380000707a24ac00002ba927ea704f70962b8c000050070000327a23162ee026ff2b6142a5308e00002807000030b442b82c8218112d522b602b87703a32f22b84000032560000178f70972c820000333a000018f031f80000282731a428dc30ca17762cb23021705732192b87333a7008435f0000000000007045320f00004226000022135007803442af0000703027b220cd808c211f2c5c421d2b880000434332fc4343312031c680672eff708a80a52b5f31c8000030c0330a295632572b8f25d631b930694228000000002701500800002d76
def LOOKUP.c462 : Nat := 0x422700002b6a3113404f3255704c291541222592141132e632fd2a3f32fb80a4000042c6707e000000004308434c7072706141ce2c0342b0426131d30000000000007039320f404e320d335327e932dc327c000042a6290b0000500942c1707f3114000000003137439941d900007052703a18a77038290a3103705f70602c5e80a900002a36191b2d5a32c12cc1320f332f709c808a804d704b00005006183b00000000437c30c021200000402e500117f831bc32f000008089434c335f2eca134932ac1614000000002a5900003227426a293b2a3417922936327a435924a62a3e403e181500002b68320d315b70840000705342123288309032fa0000326f
def LOOKUP.c463 : Nat := 0x700d2dad1511264d00003150803d808b701f31ee0000327b00000000318b00000000803d00008073802e0000315000002c5e326e330743082df500000000230327698024000000002b3342ff24e5808b00003288183a702e80a431140000338d42602254402e41d7327b193442f580682e9b00000000704f30142c8c0000311f333c417d2c5d000033392e5900003351706d23740000000022cf000043080000280e29022e593256324b700f707b332331442212705f41958020313800002d88321a30f000002dc0707f000000002cbb706d26e400000000704444022a3d181332d00000700932ce30c7704c4306703c00004225276d184b2b69318e22498041
def LOOKUP.c464 : Nat := 0x4308329031504356407f18a81592323f2a7f2b972ba22c954356254a2c302d890000000027e9332432f170260000329f31ec80578059707d43442c8b308450082c30000080802bcf42282efc80742226704b333b32f4000080a62587000041da21294228500722cf434d285832dc306932fd321032fd426b0000181e80a72120435532fc80a72a6c000042b0270150040000000028172a352a3f3198335e421c3014410e11a72dbe4308803e3184316d26ff00002e752ba933062702000000002d7f18ce5008328624190000413c4172705a700f31a4808000005006252c419b18cf32e500002b6a2db530e470407029215418e929143353000042c2000032f0
def LOOKUP.c465 : Nat := 0x2d89000023f2805b31e67022000033674344212a2b3300002db619192ccd0000709300002e9c24a080a5219730d52a2d408225940000184b32f20000000021cf704b0000415242ba70632a3f266e16501843000042c42d802329706f32f3000070852a36321b224b31b0335d42ff00004036319843853373000031c2191a3312252c70727013338a3309283626ed7080434d32b7705a12cf4356417c33664171192110f9330918fc32f1264e12a232d432f231f8000025d700002c74336700002bab0000181e31cd702d30d21533704f321b406b0000338b42ba705f0000181e43930000276a2efc80a826be32042b58294b22d620dc32e67071314e00000000
def LOOKUP.c466 : Nat := 0x321a4312000033130000122c241631ec0000000042291843293a257e401d321a0000333c7004000080750000280518fd2db70000278f70190000000070082cc222cf413632d0000033460000708b000031e6417c294b26ec312c808d000043098016282033080000317f26a22b99807440c3000022c3312030fd27012e02703480a78081336630af000000000000000042270000294200002a7e7076410a33132914000030e3284630c02c8b3292335c2939267231a424ac2b97335e32ce703330e92a6e10c44382333c708f2d4c305231ec500915b1800c2f0133772ddd30d840910000217b805933652dff278e42752e6030990000318c00000000000025d7
def LOOKUP.c467 : Nat := 0x2b990000000070790000708a41bd40490000300b18f332e78080708b00002b6b808c2ba142c40000303a281800002a3642772c8b0000808025d6244700003367321c32ac708b294c12f4000028222b992a7f2dc031b3000031ad7080000042c4439a1165000032f3205480233320321b0000804e124832f02e807091337400000000329c2cc2321b809600000000705d000031550000212b701f311b42bb31e510ba335e2b900000703f3263339c00002ba9434d403b31c8290a00000000703b704b18f070012a77804d703c418a0000294c703f702e431300002222802726442e5f2a77326f438942c418eb8071318032f33144706e31eb31042673309c23f5
def LOOKUP.c468 : Nat := 0x430a322800003339434c4189311a295425cc4118705a000042ba000080140000435600000000302e32dc000027f430722ed018f3000042ba32f21843294d33967097706a43442bab804e00007047314d18f37067184d42c40000136e32b72df8425f434400004229000032b82cc331ec20da43582b993346702b7094184d2cc300000000808132e5311e708632d6294d703470442a7f00000000331520d333692a765007000000002a96000043a72ba21309705019210000708632ac70592b04336c32b82a4070857097404f000000000000707d808122553096403d2ba2708c702931bc803e257c2a402dc000003324808b80650000709320968025804e
def LOOKUP.c469 : Nat := 0x30f53258706b0000437b000018fc704880480000418a41dc32342092412140d320c02eec0000402c4156000000004392708b705543ca00000000309a333c404c00002e85316180a93051701580750000803b333c2db7000080172c94436031b0316a43ca16f8439b18f343a5305d80952db6000030532e013258000040e1246431743339806832ff2e7c33152f2b2d5b000030382cf9000031a442c3335d41ad31d4282d703127b2705f439b50022baa000000002c8c2dc0282b328700000000312c1227335f70894278294c809a43fe30383399204832b83023282c705f430a801580a9306825d726684364332200000000307326d83234000030223348336b
def LOOKUP.c470 : Nat := 0x3314146970567095335f0000122b4256436122f3704d4119000031a30000192b231c22b70000282c0000307741da704a00002957332c000031827060402e7086704800000000803e3347421a000033822540709121f818ce3046000031c1318441ca205c321c11cf80162ccc3270192922ce27c626f7149031ca00001929000025142e78426c325822b280a8704f40ca0000700d000032c4000000004393701a2e60804923af802230842956232028223178436525063378805b702200003315250730532a9d8049305a1321800b700332c470761226706117f242c530f52dc0706b00002f1a43a53009310200007040305c304e4102804d43422955809618fd
def LOOKUP.c471 : Nat := 0x3105208423817054316230d22ccd0000708b4392132631ec408521cf12ce2e8532bd702f23dc809521811273800b42c58031331833217049000025b7311a3097303a112b0000192100002df67079339931e142c5306b18e57086245a2ba2336032442958433a317b25020000000032d08096406c00000000704b41713185282c1371803c2958000070367011000080187088307f31c1000000007095335f20cd307670212909115480237058245d00000000000030c8426b193300000000000031a3808e8034337831d8303b7049403843930000706b00002ccd0000131f2856709523697077305d7077709b41da431421cc4362709623d72ea1402800002e7c
def LOOKUP.c472 : Nat := 0x33548073700328b32eaa24358026809700007011308b335c192a703c238031c242c62dbf2a7832d0305150070000705480492ccd21cf40cb337e2cd6000000003153302d00000000302470882ccc704a7054192a242d70490000000019135004303900002cd70000000030f5254800003047708d233d23fa207f411b426c4392703f0000248c338f706a261e2700430a0000337441711230708c33730000706100003054332e32f3806722150000186f00000000321c41a73397408d31cd3023703431178066282b219e401d41580000702e331600002cd63179327c0000311e2a3f181f7012000017bc3279802f7054272c0000000043930000000030d1
def LOOKUP.c473 : Nat := 0x297a2502315733687046231c245a7010332f42ff000024470000339a321a301533a500004042310e404d26f7308b701c2a80703c000000002e0420c60000431522f480982df718fd7055307624152dee3039252a000026d62dbf2a8b804b0000705d338b2822704a703010f430f6803f3353305431bc18fd188e000021a441e10000132200000000329400008075000027f2706b2db731e4338b4125808c0000318433543052436232390000415700002cce000021f670522b9980322ccc2df641c900003321138623dd700d0000000040de231c221c22f4000070412cd77041709516d70000304820d200002dee50092eaa000022b2335c0000303b000020da
def LOOKUP.c474 : Nat := 0x416130e3308d305e702332f40000332e0000436180747003324400002ab330482f0925840000132f11f90000303c30f8305e2447402e0000709400003381325142c732dc412f2db5307f708380167094803380a8252b0000000040857004115a2cd7136f800b2def297b18fd0000335224532ba1302f0000413b2339262b11f58024704921c933814107322f3009404f803f32f0000000000000000000000000324f7014321c333c439b330a305a40d3247a0000707c42fd31e400000000408e439b402d20cc0000421b4363295770010000000030fb138d80987015809c23dd806700002cc3704a0000339830ed332f3053407a00000000412d808e4161327c
def LOOKUP.c475 : Nat := 0x2615249d307680333185144f00002bab29560000000032c4335b20fe000030300000000013972df830f63047233231204260417c33763399000041e520a5808d7048306b8080407d0000220e00000000000043b2338d158780263348000032a000003396144d70687040701f333b43eb70614392440380a70000336b000040e12aa5302d804d261300007060426b2a822df830763016338c50040000808f20fc244733752b05251f324e0000000021d841d270890000240142b843628082297941e300000000303a26b53375247e00000000804c2323192a2f2b000070672bcb800b7076000000003046325100000000000040cc804a0000275f19333376327c
def LOOKUP.c476 : Nat := 0x7037250200004040700400000000000032cf33542dee7009000033a4803c3397702f1158322e4161257232f4144f2e022161800830ed0000000023fa3067339c41c20000250242ba707028182987703c413b000030303347337640b400000000416a0000804b70927096308170382615702b2ee140e143f5409100001202404170530000807d309c31b911fa26ce339b423000002f2e115900002eea33a5235140e0709730bd431641e5338d2eea2ccc32e723202f104042286730533380000030d83251339632453083315670962eb32b60803200002aa431e824460000309b2eaa310e7066208942c62cc40000804914b000004123421043142eb429758009
def LOOKUP.c477 : Nat := 0x310f306b3247705c21a5000041a8807f000021ca7043000000007004500941c031dd703300000000000043b12741000000001236420521fe255c2292309a436570410000000041ef298d30d822b2274100002bd30000332f703a000040d540ec0000407c3053000000000000801716ce00000000232331c233161233709a307522b3000012fc800b33a48049322e258331b612f73045257232ce00002cc200002f243162235920bc23fa23067024000023732df943b133530000303b2ee220f818fc408530f643ec21fe0000305d804c0000334821ac8063325111590000338d40382aa83162125170390000702012363250000070320000335433682a811933
def LOOKUP.c478 : Nat := 0x338d32932ba020ad277170110000301643437033000032b12e0342370000705d2ee2310400007041337841352aa82331000040992ad9425733a42872420e000043e0288c704b30a5708f2def000031f222d700004389500430a67064426931ec2ab82eb32329411a709330b1702215073046000000002f222ba200002eeb3030702a319080a54167408b8026000041b73192000016c23399138a2f210000299a0000804d000000005002416a43652a7f0000803e33980000241f31c2288232f0417e702c416123312ee27041803e2c09307732bd30f8417300000000000030b4701c43b1000070403381138e8019134f7005704300001331000031e01065205d
def LOOKUP.c479 : Nat := 0x2e0400005004230631ae2f2d2942000040ec25ae26572bce294d3251000070423048000000001242000030f62cf500002f2300001390158d4082304741e930b3286720a6311d409c70290000000080330000318b3291000013480000703727402e0100003112702e707d403821ca20cc703d28938098413b0000208214e470393377309a000030be0000323a709600008033305f70047014809b7055338e000027e025af000020e9316f30be32517085809b302428f32ac432862eb3222f16d8167d311100002f1900008068325b16212f19302c7098298f329b319621c931b714ea7057248940e800002f1040cb32c7000043f5000030ec306c20d300000000
def LOOKUP.c480 : Nat := 0x70657044705d00002cd600002305702a32c9804132bd1476313f2ba37006804d14ad0000000016cf23290000000000004037312813a6313333302b6911fb413a302f315c4087321a306030540000338e306a41f57027250931f32648316f00002f2d304822f5804d0000000070812ac3000030a77013000030772776317a00002f2d000033a50000706c308400002592000018fd0000258f23fb41af275e30f7000018f3308233788041267c29177015336914ac800c326c000027981344306b703e319213a08025252e308c2586323a413820cc2eeb7008805416d78027308f21d9317d3132307840d63318705c2ab933243318220f00000000249370990000
def LOOKUP.c481 : Nat := 0x28ba29c92f2d171c7055000000002c40313f0000339a700a31e933351365237b00004213701132c9169b800d220f17d18027287d306c31c322d7282d2be80000709731f425c543f729b341f570360000404131293051311d33784312000080804279000050042890320421ad7061339a413b329a31cf703d0000173b31fd000070962c0220d429a933547094806043f4000043d831da3170233a31728034436500002899704a41c070032bee0000124b2206306043e02998255370977093709b808e1252432600000000252650030000704800007040311050058034409a326d40df29a3000000008018300c000031b700000000242f7014311d321b701f2e04
def LOOKUP.c482 : Nat := 0x43b22cd926bb2956000029eb706e2455320c41ca0000233b300a42db00007028311f0000409a21d27092317f254b43a832cc41c2000013ac41fd000033902ac3708432da2b5f20a7249c0000311214c97008173931d00000804c00007012706542ba0000438a000000002485000028b0220f31dd152c000026b2000043fe31e9338417b82ae6254b709531c54344000020a730fa232b80a8252e412d22fc702d000050027084703b0000259f700731d02e03000000003398220f3106305f26a600002685319a809900000000000027773342331625b415db120e700b32ff14c330a6000020bb417e000031e721d1331831a300003165139828f22ace7020222f
def LOOKUP.c483 : Nat := 0x703e334800007049700370807064707a14ba70261251268532ce32d30000245d703e703333980000326f80a90000703733a4706570920000126732a6339b43ea0000000041242323417f323b30a7312843ea2f2e32e800000000259013c0329f30811518000025c7706d249c152c312813658049321931e970703135702f30a7439332478064255c2d6b20ef13ca00003196803d20e5801a41c242250000000031b8318a255c3342307800005005703a13bf70712427803d70832cd50000705b2113230533a425812f1928c421d200000000248570982207000043f531fa00000000233a30fb805413a115c40000186320dc7096000030600000186500004139
def LOOKUP.c484 : Nat := 0x40ea14c432e421150000317241fe26bc314031342ad7707d275b00002e0328c520dc50060000703716a932040000809c211c2200318916a4324932e52676219380242331409e00002579275d22fd317c14cf40c8333724a0803343ea704c24a443e20000804b222f29570000323000002ee1804e7015420d32a9318925c713df0000314a4188701c00002cd50000424c318a2579000028a070640000430a704e7071000000000000313f3171000041cb000018f4808a10eb300b13642ccd0000703330203254000017bb2bf929158019323070652f2329ad703b0000804c31f332c9704c41d7701027c72c1b1265704b2be228c57030306c15a10000803f25b6
def LOOKUP.c485 : Nat := 0x50060000000026760000500a0000233331f3275c43fe43260000705913bf126c705d7088312a805533a5255c2b1a307826ab27e427cd7017303041fd17373174420d707c0000336c413015930000500a3352801821da2589000020dd314a1600126720d4220825d726e8000043e2320941cd707129c924301540330b703700003082318a701700003024409132a8000043e2707130240000000031360000706b701f336a26db32d640e033471362000031710000000016b3265180343254318b7007153180703110704214e213638099000029d100002b7b00008060232b30e43285000000003188220031e9804e2ad826aa4205306c4037319343e2418a8032
def LOOKUP.c486 : Nat := 0x709743e1291f8027428e429c16b6317e30f90000331d703032bf0000709826850000309c233d30c0000032ce30c9702021db25cf277a41d570422ade42dc000000000000803e40ea00002c740000236324680000000070392d6b0000309c2d1e40e12bee13652eec309c314026f07041152c428e41ce000029ed000016a680a74314323b30c832d642db0000439b0000255a00002a1e7012424400004277702400000000275d211329ee0000233c00002cc3404b00000000706f70391537705a43e200004130000031ba25812d2d420e30be3053705d30fb32180000314a00002d7032f1704d42e32210000000003314709200007097314331507096
def LOOKUP.c487 : Nat := 0x4126314044000000235b0000317e80173396421727ea22bb311431663334236b22382c3080562c6e153e31de2889160070492b8029430000404125d130c8000016b800002ba213c7704233a52c457094706500000000803300002820702d27fe16f3313f2d99500a174e0000705b220032490000709832162d464173000043f425b12c0a175321758080702531644393409a00004218700918717049704d0000324a31d133a72659000032dc000031df00002c73702430ca328832643376326b324a00002b192a8015b8705200002579000013c22c42327a173d2594221e3196278133a632e841500000000030ec28cb268533a8807d31413249000023623141
def LOOKUP.c488 : Nat := 0x42fe24682c7300002b6b31c4702f00000000413c80607045000030462d2e275f0000000017f1000031fe26db2d13705641252a2d31432d467059805b2d0c0000000080640000422341d5417f316720e731894189306b000025ca2d9931eb00002c46703a30e47020409d277b31c727cd31947076275f00002d1331ec00000000317f126c3144808142bb409d3278705931f414eb8072249500000000288933290000000043f413ed0000319d2580236b26b34255708770972c080000000030c000002d4b000000002ccd31fe431132bf31957017000026a4500444002bab404280630000155d223f31707024412900002ee000000000267d2129268520ba
def LOOKUP.c489 : Nat := 0x319418df42b970090000255c20af31200000273c186e26ab42fe25d70000808c27a72a08290f00008060338d277b0000420f319416b710fb2c21319d703230d643f70000707d2e1e709b4206314327ca32b4000031a970790000277c186a800d25d13159703b26eb306c0000319d22900000275e2b4e42bb70340000326833603300703030a8421a500731f42381326216f628a670907062705030d800000000314f430a233c7055000030a4436520af20de182f7051312a7052329c702800007050000031fd17880000000000001605186e2e3700002b3143897056707a424670677068704c417f334a7072429115dc31f4709a32cd319e2afd000000002baa
def LOOKUP.c490 : Nat := 0x24693209318a703a267d126d32573106000042542c06301831f442b9433a24a8323c313642f3249e44002d2f318b000026860000319830fc212742fe70572687000025c2211c318c25c231f40000703942af31fd176d2129248d7093409232b642f5421c000029d143f630e221ad292a171121157055318641b942df15e10000707342a631fd237c43f5000017505009705031418066000029d932b44223000026320000807430cc15c44254000032da2b22312c320e181026bc237d2115407a2c462c54000026bc1755170830ed0000000043b3705b7065313e30e033a72c5c0000323f29b3267e705331a9334142ec292a31417090339a320130c900002e04
def LOOKUP.c491 : Nat := 0x437a424a15e8319529d2704432e3806617f6324b314c224b703b425d30e370123390807e803414e9000017dd26bc000024a031f624282c2f3284708142b9000000000000319f32c13368707632242901708a704f32322afc30ee00002128171300002b492d99320828f970522e202d19295730b417f2000031c7701e288a426031d12d7032577029424642af80a2180a701e000017cf26bc326d42f570850000305430d5704b70637051211e31ff310631ff2ca62d190000704926eb0000700f31d220b941d8000014e825b92c21338e707123340000703131eb000031bb311d000000003318704a2d4b706d418b31c52a340000233c160441c38098804e25d2
def LOOKUP.c492 : Nat := 0x18df00004375329c000031b900002d4a805832640000500429d2415f326d0000315a000080570000808f154600000000000028d4178d000070444208705b70463216000029ce2a2c13e6807443651710703b00002f2e700e0000707e10ae7055705024a132cd254a2c543180180f00002428319f2687177128f931410000317f27e60000704800007056000000004208000024a9327a30d62d7043ea0000703c0000320b0000000025d431f52208805a000027b042072a55703a0000000030ca292b18ba7017806800000000312030bd807d331e00000000705a31dc31732c733143701f707023817070310632c2249e8075706143e270142cd700002c71
def LOOKUP.c493 : Nat := 0x312c707b26e3705326bf17dd25ca703a7041404f335500000000311f000031382a51701f28d3418b804e2da332257050314c000015c7700c00002b1f2b04429c00004228702c188d00000000409e18e40000413b70853261324a703b421c42e0000029d90000000031ff0000000026dc000020bf334c422330c027e4290130b4000033514375417f2b500000312000001886322542e332a870172d712c0a263f26bf2d9e0000312642230000708a702c329e702f2e00320b29fe326b311e30fa176c221141c2705020b0804d418b25c22b801547000028267042707e0000807530d70000801a29d900007097324b0000000032b570584097176e7050701b27a8
def LOOKUP.c494 : Nat := 0x26bd000012f0245f27e426ed2dee332a2d7f00002b293377806f3249421b290626fe000030ef4265269d7082209829d970872b290000314f312a27e5306b314d00002c4724a1705126dc15ca413c000028d9327518df19123258280440ea236c31ac281f80340000440020e81895706600002a0625cb17712a3f25d4430827ea24ab42237049329d7030310700003113337629314315709a17f3000024a00000310f3359315b2663249640e0706580a22d78000029f60000706600007042000000007064707a2b21000032e030d72c952c23306930bf418a178b705232da70792f2d707200007049161b224825ca313770651913324a805700000000315a7064
def LOOKUP.c495 : Nat := 0x2dd131ad00001835268630d730fb332b29da42b0281e00002dad18a332df43e9314c32d926eb3180000000002c543343332b809c703900002497278400002c2f2b054212000042eb00000000179c11510000000015632b570000413c42ad17f7224a305e28ff805726be220942f333060000704442561130000000003263248e704f00000000417f314442fc500500007037705126e342c7319532ff000043a62c9229d9421900007064000031a1000080413135331f13ed311f31f42b4d2a56418a30e431670000000030ef2b212c4c000018df000031137089254f8088708c00002a227087224931d4330625cb320b1834804e705126bc0000309c806526e3
def LOOKUP.c496 : Nat := 0x27024311324032170000000031a23264704e0000327b30600000707470680000281c00002c5c25d6318000000000156d333c26f77089703b3282315a2a5d332b31b031de31df335f31a04211437725592a2c211524a07037417a311f70541614191300003210000031c728ff314f3264000018e42b31804100004210000033372cb070392d5a32fc3283294a42b7000013ed233c00002c2f00007006160b421b160b2d7126b4424e42601912705d2bad70727052707142f370537041000000003048331616072e7132cf00007086413a42ad804d3282407c422526f531c730e3156543ea00004341326331ad314f0000418b00007070188d00002b4d335a3350
def LOOKUP.c497 : Nat := 0x2253704c2334318b3283317f4389000032b8706832b42a0731a02d8830a6320e18c02d70000032f1314f30f6708933472b5f7066314300008068324b704a2da600003217000015ef0000806418a32e96433342fc2b88223832102e7726fe3150320041d732021843000030cc2912421a26ed00007068434a31a132643144422400002d3500002381328326e4000000000000237f000028dd2686705c43b4330832e333a72c79408f2a2c32db318c000000002c54705230f02d7f00005008335420e63260280d2c2f29512d2f000032572a2c42121810705f2941702c18103200433a30d842ae00002b3100000000000042f42c54335970412a3c421a7052707b
def LOOKUP.c498 : Nat := 0x42a53338703a333b2dd131a07024422800002dad000033432e5900008067328f70562e4470592807706d7043704f42fd31ec333700000000804e26fe21a432aa704732e3706841d8804b5007324533204257000042b72ec4160d807c328f26e30000335027a92820000042a642ec0000314d30fc0000307832c33180000026ec31a200000000314d33a8707c31ab0000707326a100000000000018e342fd437b328f30a8421c328f32d9805800002c7b0000310811552d5130e4269d000000002b5732ec425f31a026bd807227bd000042b0179c703b2b2a708432c2702a7044807f332e701327b1331e2d3533a8705a25d615ef80a30000704f2956324a330a
def LOOKUP.c499 : Nat := 0x3264184d236c704e334670550000184331202e76700700003108804d31140000806432005008282831e07061705a326242b8000070123168413a3227706600002c93318b805b807025c90000704a70660000708832e300000000434b00007022804d30c02807314d702400002b5f331431d42b9f426a8082328332da32c227e080700000434b00002c2f146b333c00005006426c334350062497211e316842b843a3190e320b32d04403704b0000412c33502b5f2e5c294a80672e96000080a5000030cc705c00000000705080a32e4431982b68809840ec0000181e2a76320070560000433b000032cf27a9431230d8709a0000000042ae183528dd30f05004
def LOOKUP.c500 : Nat := 0x33a6328500007068000000008099270024ac0000000029822a2c000000002df8500a8067171931de000000000000000025d525cc161c0000000025c817f92b5f00004260161428222c932116422532b626ff333a000031502a64000029427057426c18a741d70000161c14b9708a0000708b707542c73284313c705a2743706980a300002a3d000080892828328f7089434c2f22707b332e317f33500000280e181f257842fd161417f7000000000000270030d3314f161c00000000807d41f7267e80882e77708a0000807125cb70630000709a2a0842fe00003202803431ad704a433a224a0000707d439927b2339c294c15f02c550000161430e2
def LOOKUP.c501 : Nat := 0x80a32e763367000010ec281f2a35212a15f080337053707e00002a813291707642f528dd3233000031447094000032622aad705b42ae807c80152e5a327b0000332000007049708a26c72cd90000294131fe80a400002a5c0000302a30a87057708c422550032cba156e708f000000002d872c8a42c2334500002902000000002c5d000032fa42ae000018fa2e443350329040ed00007050807f42722c8a2b682b5f0000161d333042b8705f32503270807d2a5d70510000000000002a64000026b527b100002a08707b00002ddb27ea70394355702418a4252542b942a6161527e0320132193343000028dc0000703b438031bc00002c8232b7335f0000
def LOOKUP.c502 : Nat := 0x2e7725bc25930000803432aa80a6707b703b2d7f33527074333a7069270242bb3354430727378080707a327831d38072000000007039000031f6330000004307193180a330a432e47079409e42a52c942c9432fb804d329243553306000042ae335b2db542af4360806632ce2b87703b0000333b42f518ce707e3218426b702a000032fb2c822e59707f4225702c40792a3580723195000000003306335200002b600000169e434c2826000032fb28f73290000000002e592c5e2701306b2b60000070133285000070892b58328531a132f02b8f42fe000032d82c5c42fe00002a2d2db50000000025d7000033183126293f4380327a806533534211
def LOOKUP.c503 : Nat := 0x25cc00002f02181e430642ae27e0708070517010317f000000002e7e00004225000032842ece40ed2cd426ec42ba000000002dae179c2702000015f00000321c702e000018ea335b33127075305d2a8222f40000707f325832262dad2b6a0000291325b742272e03327a316733073307181e808028dc4343324c00000000335c2b33000032c27054331324f32982294131ec706227e87065808a2d5a2a3e00007027181e2bab804d31677093430732fb2957000030070000336643110000707d000000002508426a0000258a328400000000000043898089000042b9331327d7426c42b92c9411ff18a932e518a9313c2c94318c33070000705042762b5828dd
def LOOKUP.c504 : Nat := 0x7074707432fc0000426c2db6000000002a6d16150000704e3330805a228a43553046238018fa26be2a6d2ccb191a308e32cd2a750000285728180000704d50074382000024d10000294a335f00000000337e00000000303c000032db00002c9400002a6531e043990000000070882db67046310842bb2b692e772e8532da33233346311f808170722b330000338200002c95329180982b6131ad3347318c2b33808c00002aad267a000031b000002557707c3263184b7034295829130000327a00003258708832fb184b00004275808a000041cd31740000320e7039318c238127ea000000002915000000007071439142c22d87705732b62a3d80658070294a
def LOOKUP.c505 : Nat := 0x2f24338e329042087075320e42da7062709c709c00000000700c144f703c18f3801743a4706131eb22bf00000000705c000030750000000000002cd64169335e431242c32254140600002ba000000000334821ab0000331326ff31ae80672a7f31af80a900004356427470748017318a00002a3e22b880412ec92b9000002c941844430700008073000000000000290224aa42294169707521797085000000000000000025d4294c1843315c2a750000702c251f2eec426c700a00004311318030bc321032d0434d32fc316e25cc2c94704f709431853258808f415730c833072c8b2dbf217200002b90000000000000311b18433159000024d5000018c74276
def LOOKUP.c506 : Nat := 0x32ab00007005320d704a2d890000000018ce000070892817330880822a75805b31ea426131b032102553219d4311421d2ba1000080a47045000000002af6707600000000338d32f2308f000031f83375708228c419290000184c3373403733750000000043602a6e708742a541ce0000293a0000439a2baa2db6709c0000338c33807015804e00002cbb2b69708c323f2d8824ab00000000000042c32e9c00002f11111b708927ea30b35006338c310c70792db542282de52a36703d184c335231802ba07060809a000032ac0000000000002db6161d435950098017327b4275330832b8708030fc233a000031e52f07000021f7700600002113265532c80000
def LOOKUP.c507 : Nat := 0x331430f52eaa705822b242f432cf000042113315000031797031333032042a760000225543a4307370938096808b4312000070412ba043892ccc0000000042607064808b50040000339a306c000032f32e5e318a00003370000070042612708900004277704b000000000000291580a719320000321b179d701f2db62a6e4313115421a470580000439b2a7f2e76282b333b31e0318c41e2337518cf0000335c439b000032403363331443a440ca707531442a2d000032272e0032fc4139434c336f303b0000305300000000000013ac291526f7000032f2336500002dbf31a22c8c000030fc318c2ddc28203360807d422442a52b9029542dbf114f43920000
def LOOKUP.c508 : Nat := 0x800a327000003234294c2e2e2ed87045000043920000000027c0192130b1427520b6802632100000704131d432870000804b184d31912ba1438a00007015323f0000000000000000339618fc000022ac704825c62c8c31683108159732f3303a2dbf338a154180a8313000002ba2801642750000282c22972cd532aa0000411700002c0400002f1a000030148048702f2942807d40ed42fe2baa0000000033147096305132d0000043a5302b802200003348312722d630f033484392312670340000000041112376804931f8402d305a707e000070088096000032ce18fb31d47083334e000031d90000000018f3336a193232fd30684169708242ae70930000
def LOOKUP.c509 : Nat := 0x2cd5809632c5803140302ded80953397130032ac000000002cc421c9704a0000706d33527091707d27344227335f500900000000426b26ae30be26b34172250731747068205600007024427580962ccc321033602a40500920738081112f7037184d3168327800000000336f43a4702670892381808170372df600002baa7049000031ec305e32f123ff2ded4344150a3354000014e531af42b97086294d000019223234804c000041720000434e7042336732fd2a6d321c32e60000308d403722ce30f0000029150000193230447028331431c820bd805a500742c37007439c3309295843600000252a306a31b60000000022d62b992ccc0000418b32c3218b
def LOOKUP.c510 : Nat := 0x12a1808e2500427750020000000032b82e8532402942334600002a772f1880412ed800007073708c2e00000043632040336c808f40c2327c0000000000007019306a5004000000002a8100000000434e000032cf7076412c803230802380325831b043925008307f430a10cd1161705531df2902807e324f704333092e00408742782ea343b0000043e218fc242300001152240030bc337030810000707d258f70490000313870808066338a26f70000427741f700000000337f2a40327b0000336043a430a70000270280822cc32def0000295543c4244532cf40843367705b219e43a62dc000002f023139254e8030439c1933192a133022c33082
def LOOKUP.c511 : Nat := 0x4358000031e51922302c0000803d310e138600000000218742af25d77038703b20a5301500000000301630d624ff2edf8017000019342ba222d1000019320000435631d41474205c2cd8703231ae184c133425bd30f630072eb242bb00002955300b00002a40704b00002e85302d706b266e304525d524ec00002f0232100000702d707d282c324522f42957305f0000305d294b41103314000000002f2f0000144e2ccc3352439b315f2e85334800003341327c30cc0000305e418b2914335430533060291411c9804e2cc323bb2eaa000032f029433257333a805a0000803a29762a80413b7008322829438040707200004275435932ab407c33532cc42702
def LOOKUP.c512 : Nat := 0x212b00002e8633671933417b21a800002eb20000336a700a000032dc25d5709530530000000012a0704b20db00003221703925cc00000000500700000000330800000000309a337500007051701e000000007059000042781218800a708900002ed111f63105000020cb28dd251d0000701040d40000333b305e00002702000000002557316a20c6000023f44362703c00002eaa3047332240e1208000002586000022cf32e700003185808e3075408f4313703e4228225631742c6e31bf2cd5295641ad0000270070142ee92f0926e7803e0000244d245b803f3323338b31e92f2d333c31f8000031840000150c0000310180972aa0800a436231b5
def LOOKUP.c513 : Nat := 0x404c00002bac29584393000030773052702c7094702030e421cb800b000080970000417b115500003254330b2079412d23032e00235a158a32d000003323426b250700002df732f000004161000030680000257243af2ded70540000311a112f3380704a000040375003310e418933a24036312628558049253f708d24470000295830460000309600002ba20000324f803443ca24470000801722f23258334731c9000032e5804a00004161701b409030f542c500000000709524ac42c5000031682418302f809a0000403841e000002d4633762ded702b43d1000000002f2c709a0000701525c82c96412d80970000703a282a2bab327a1589701d32044314
def LOOKUP.c514 : Nat := 0x7012000042ff70600000000022cf43590000297c802300000000704a43a62dee294341f0703f000070102d9e301432ff00002a8012f22616252b700a18fd0000244600002ccd709420e311592e0100002ee11515337350020000416900003037000021a42f2a338b000080473077804b704c175b231c32182447270025fc41122a76305d338c0000307531e52dae33680000708e43f2000024003185307f3234257d00002df7000043a5000020cd439b314e5005282b2cce205d000080a70000411821fe205c4276500a21f711f48033000042290000704c30601155309c2eb47032803e0000219e338c0000704c316e2dee40908080292a2f18318528562702
def LOOKUP.c515 : Nat := 0x32f4248b2df78074000031040000430920ad21d112f8000031df21a432010000417c00004160804b257b2aa78031417433a6336823fb30472648000027ce706000002e017031000041c7420e43e20000409920cc3077302230d5317a3353319230d3320c303b312732887039316e2f09000030ee33972f2a0000000070392e0343d133233368000032f4803320e4000030a4115a5004000020a570217051434e2cd500002eb2115c4124804a297c245a000031e5422641182ba2241f43e8000080710000703112a132c7702a21eb408512f821a4220e41233250802f310f27ea2958427520cf000041a843d933170000000030a2000042ba0000274000000000
def LOOKUP.c516 : Nat := 0x50045008000033a211bd2f194375327000000000305425bd2bcc70068048321b276f0000707c31912598323a0000705540cc50032bc87054241f0000709600000000700500002ee1804e708020d7294d0000336c00000000000026b42544703427932ee1181f2525801619342eb32f21265731da2e01000040732956439300001934804131ce3360339731b7283c43a543a6436527dc40e914ee2eea00000000318b23043127264933482f2b3375708133750000302b24603018701c21bd7094708280813162700930eb0000000041252a83702e70862eb47036000013338025431631f532c943cf0000701c000032e82df7338c30830000000033802df71876
def LOOKUP.c517 : Nat := 0x209f2c9500002f2c2401000033a28017403530ef7077124643432c2025c5411200000000223e327714b0192b0000702370882487439d41ef412f000031f12cd770342eeb2328000021ad703833768068338c70580000308d156e000041fe20cc326c00002cf0408d43af417c2cd740c321f72ee12633000030177048413000002229704000002188266e20a640382eea139a25b200008034333c2f1916dd40c3000031ec2863000025264044266e2752500316ae336a2ccd00002629169c1169299e1308000029aa000000000000309818fd3250313200000000300b32a0702d704b0000265030eb404d702326790000333030a630b143a500004086708c
def LOOKUP.c518 : Nat := 0x804821d900002ee021d9000043f24042000026d4332428dc000031af323b134133a2223570572794000031733173000026b241230000223d40bf223531f1258e000000002eea2f1a2eb4427800003264803f00003377254418df25ae2659306b30d325530000295600000000804810863294318f33757040000022fc315831ce134f4186331e2f103270703a7031709231da802e322230e12def41862f2c31c3707a3232306c164e412c2dee22d016d8409180192e0100000000416a0000701c2eea4125000043d81510709326567016412e339a337725852ac832c633772ad41266809a20ad70952bad19330000244e310f3324809b30210000286f41a8
def LOOKUP.c519 : Nat := 0x14b77061335e2f1028708009288d800a00000000702a00000000704e0000705825b67005702d0000275625bd308f701f300b418b339900007040809a7040336a208231332a6e26830000222f211320e541b7421d3198804e2f1141d426e02f1a32bd190d000021f8258e124600002cd7208223312f2f701000003324223e134380254174317b2cf844002634000070092bad000000002ad7309a000023fb809b000022d00000000020d32f1114bc800c703f28c9173513082f21000024317049707f302141fc319230183222705530d843610000408d220e23317050318943df258d43e02cd63384295730d543b12675286e2eb316e300004086703226f10000
def LOOKUP.c520 : Nat := 0x421c702b704913443170000030b3318a423931cf3378000022d731b9000042163143412e29ee3112159313a50000000032c425c30000408533980000000023580000000022362f1a00003360000000007013291532550000000027d70000000000002402000029993129325c30be404d0000134323543294000000004043310670652f24336c3128000031f2500a2f2e42443222410930bd0000120b311c13bd0000338c25aa323a00003158000000002f220000323b2a3e500a22d02eb31520000033a300003048287421b4316f3314000027e970133376339870437007412e158f7013000000002eb470950000803e205d705170712dee0000316f334122d7
def LOOKUP.c521 : Nat := 0x2be433762df8709580587024287832ac30e20000705f229c00000000154128a432c8125131ea314e25c23112402e00002be60000000041c1417e2b19705629c82f2d00000000406a708c0000208200000000311370404326703643e0809c000000000000329a706050017014702f43e1279900002ee132b23249310600002f1122f52742000032bd21d1000021d9337700003381246531e94219417d701131c3000020d3302e312833780000249330b240ec7061413b0000709416c1800d00002ad6147d28f3322f3081500600003255804c23692ee20000701f2082307843b4701700004139000030ee309b14790000500170120000331e13a520cd325e
def LOOKUP.c522 : Nat := 0x2456705d20a713ac7094308f30cb8040315814c8000043f33078334332a6311350040000258028c843d8703d28db42a530b3000040e170950000210b3189334d803414c8700a220f0000000020cd0000439c318a221042da704b000024852c0340ed18f430bf21ad164f275b29fe703b222f32e541c11866802743ea0000000050043378421200000000317f0000500a242070913111701e167e00007091218f41b8804c3348306c000000003148279940420000311e0000000032b2000043b1000000002305252600002af32dd6339933007053255b314223042774000029ac000013530000413c0000705c311f0000129a26b90000703231638034809a
def LOOKUP.c523 : Nat := 0x25aa0000310743e12e8640eb70872f232bee2c0330fa303c700b28f2333a31133382804e2f23000000002ad943d9000042450000707c339c32be31a431f3409c29af31de42ff310842f40000000043fe0000307830240000000028a0413a7062164d000030bf30d53193154032b33099326714e470780000000070960000000016e10000805e2b2931ea0000325e704b2427152c2eec705e308422fc22072be730c00000308420dc21b2800b705a43e1318b3376211316ef70060000413a31872455000041f670148019709140912bf3000041890000333b0000703b33180000255c20cd0000314900004125336a00002dbf2d70309b00002ad7235a24a70000
def LOOKUP.c524 : Nat := 0x709514c8258131120000439230fa43d9248541c1321a0000404270783078000030a814cf14e433a40000310470290000210c8055418617472f1119338032000026bb31ab279d807433a6417d420f0000700831c5000080482f2c2d112eeb000020e730540000317e220826b2000032f0326032574043707025c60000705243b1212627d37041000028a57057000022d8152626de408d000000000000705830fb223600007031705031dd326900007043232a7039308e277e317f705117b920dc2bee25c620d4000028d329cb42162372258a70912431165441f730478041338f232b0000301841d541f743e1319e00002be630d5000070993189323380730000
def LOOKUP.c525 : Nat := 0x7052421b277a700525b930e2000011b50000000070572d19255b0000328630f07042708443b100000000804c500125c8418a292a00000000153d0000407931f4000043ff00002ccc1834334c32d629cb700f22d50000701529f033a4245f32b3000000000000307831fa28a400008033275e4043224730af31fd00000000300820b0333531c620e531962113802f00007040334841a132d47072809c8040312820e5258a30af2105193422072f2e000030e9500122a010bb42dd314226587066000033498030000040e1000015412780420f43e1409b7037245d300c000030e9806e31af0000000043eb30d5314b00002249419b279f43fe8019324a23063048
def LOOKUP.c526 : Nat := 0x26867094000028878040279f3078700e30bf246812ae30e43060000033a5318b16f13083702a31e8704d20298021275e32cf43e90000000032d627ae324932d6809c408270550000701b0000000031937021208229f018fc1329701d704900002210701042dd29cb25d1808b211c2b1b28c63090337600001866000042452d1028f325cd00000000701042180000000026db000030b470611369223600003358806e804c404b175433a8302e175b26f37043709332db805620e62942302444002373417f327843b3314127fa30a52686000030b4000070063380705500000000000025d0803d0000000041f7000032e7279e20820000000028d425aa0000
def LOOKUP.c527 : Nat := 0x805f42ad421a319832604086210c318b000042f316f03283434a318a420f00002374000000000000255b27a0309b314b0000334d311f32d6325f2c823257702f31a432690000312a0000432b0000418a31083360000032d670693143703031ea4079000029b1701b310430ee162b800d28f32dd770302b50259443f4425e42dd7016186c43fe255c00001542336c70132d6c31d030cb00002a1b00004278803f7042000043ff43ea805e40eb33752af8404e326c0000259232160000326f26be000030bc0000000030ca246628a60000314200004206804010e48009309080a821d72b04000033a7302e31413084314b2127000031400000421d13670000
def LOOKUP.c528 : Nat := 0x43eb317c27d416fe27d928a70000000026b37099326a7072277c26ac30a627a770372a1e235b31eb3277233e16f2311e174f26593053000025c24090329b418b707d3261126b43752686424a32b522413090325f27d4702a277c0000233d2d2e00000000424c31df704417dd278230463262324a804e312b000000002adc25cc32c327ae3143000026860000309c33a700002c5b70963363705830ef26f540d526f3319f29b320e700004206000025c02b462889326a00003260308332de27cd13e627af00002a54291c18721754417e00002c8c28cb281d2230210d00000000000041c1230525d180602d1213c7000021053269705a2c6e418b0000282c
def LOOKUP.c529 : Nat := 0x803370084292319614ea2adf30c00000319b000000008060334b41c200003260275f1713000080a227d53318418830bf31420000000024860000236a2b49268700002497706141c1000041c231df404d4037000023050000326a31ec0000326a42080000000030fb0000704c2afc31435009804143f500002d1980a231442559420f316532f026ea1700277c421140dd29ce000032cd16480000422670320000805a417f308f322430e330184139704b0000703433a530e4000026b4701932d80000000000002f2e30d731a826ac7015291f429d705617d34208210d326030cb2b7f252e25894400000000003047500120ba000027dd2c0932e1429925cc0000
def LOOKUP.c530 : Nat := 0x29d543eb32d727e3000031f531ec000070560000281a13fe27de706d2afa000025b92c5c70552c7431fb0000267e0000420732bf248d000043ec317f0000707e309017d628f5801a325630ee1627800d0000303c30a6275f0000240342f331402b0429f426ac30e2421132fe000031f77059706f13e53262804b30cc326242fc25c230cc7066000031583105211425c12208806e2df70000704c32ab41cd27d47039211d0000425b311e706d15e1177026fa00008098000020d58097429c000000000000225331f6702f2c2f292c136a43ff2941418920e6705740ed2d80703832cf3208000000003084706d187226ac000000000000804028d1187e70393309
def LOOKUP.c531 : Nat := 0x31e0255b0000334a705a709a708b80a32a54314e26f529da42e77068000027dd314d00003197403870942b90314e0000000029d12a34160632b542952a7732c2156d314f000025ca000032772252281d000031df7014000026e3806500003283237500000000334c000000002939000000003336425b705732572b1f334d000042b770777050000026b532fd709026b52403000017d47066257f00003140190d2adf7052706e306c707e43ff806f28db32742c0a30ed17f2434b7066303c31ac315926a23143175b70528040429231f7706741c32b0441ff324c2d6e23060000705b25c200002d2f2b1f21db7007705700000000704a31412b57154830e330e3
def LOOKUP.c532 : Nat := 0x20e615633167310732d8000032580000000070907006404f2e22707e314432b742110000211631d12b7f21273198709900004331500742107072000031f70000703b32e12252310470563113000000003260309c42f528067038702c27e600000000259330ef00002dbd31a12333420800002306422442a4000013e541cc331e323d154470712c5532d7326a26bd27cf27de437b2e5a26be2b5f000070510000703b2c540000327742122930702b801a30fc8063704b000013e213e532707057334d311f27a127e54262233e0000320932df31f50000312942e6421b31074400237d338c26b4705a280224aa43f400002c49705a000042114208000000000000
def LOOKUP.c533 : Nat := 0x22f52d9f433a188d2b6815c94043334225d700002a56705600000000000000000000000000000000704500000000306026f4404e13ed312a000080712d331718315b31ae29d93143709615c90000000030be707431ba42ad000032dc27cf27cf41ce26bd0000333732170000000000008089154726ec314432ef00000000319427cd2c277055417f2806701531e042f3705c32d932e830d827e729f727e6316625d732d732180000421c0000000030e430d82c89156d32187050000025c180892a7832c27042331e290131df704b31118082334e704200002a6e156d421032cf314d00007075314270892eea2e9b20b026b5000070962784000031c631425006
def LOOKUP.c534 : Nat := 0x26b531ec00002a20708300002a0730f027b1000015ef2d5a0000220900002821000042f330cc429d2cce306c2cab290732da2c9331ec30a32931437a28dc0000000031ad320e31ad28d44264272e0000000028d426ec2b4b320e26e328dc2c5c282d00003258707c000032d8280b2a06704c31507037160c15c970362d33807c43903290173431ad30a8000026be281433562a2427a9245e327a0000000031ab26ce000032e2705d000032e200002c4d2c3030243196317d805b2ba3000015ca3197702a224027e926bf2b29802f00002a21000032d0426731a00000705b18e500002a1e0000221b800d318c708d00002d9f2d78000028f9000029103284
def LOOKUP.c535 : Nat := 0x31a212de00002da40000700f00002e4400002b2a2a0624a1326c000020e72b4a2d873352807c328e2b2a2418280c323d70890000440231a270574355000023762b88293632787073000021292a2c801a00004294000000000000707426f5707a806f314e179500003144328615650000317325942a06237e3107425f803e42a5000032db000042ec236b32db0000000070792c540000281d4256000000008063000030e40000335e000000002c2f223815e831ec0000000080a200002cca17f325d742571214800a2d5a7037327a2806000031ae43163218425f440226f425cb336a704e26f6328f293970092c4d317e3107703c701230d842ad22cd31a0
def LOOKUP.c536 : Nat := 0x429d281e31eb120b3351707b700442f5000000000000808932cc325700007066000000000000421c312030cc27d742fc0000421b413c0000434c705a2a362d7380a33203806400004343000030cc2db53202319822122b32290231f500000000290b32a8000080401718320e2d7f0000237e80a6314f00002902804d70702b32000027df311f0000000018e4708742fc2a3600003200266c32ef333c0000312a335221f831f5156d318b000000000000806532d030ef190d00005007000000002b9f3263280d000031964187236b294a18fa4261704e703932ec25d531d332012381000032d9291226f680a77069804128ac807026e4160c26f4000000000000
def LOOKUP.c537 : Nat := 0x43900000404341d8311f705c000013092d52335a315a00002b05704932840000000027df15ef701f2363807d32ce000042b726ed237b00003337706120642dd100002381319441d832004270805a319527b116140000237642242a3e804d2c82808f707e2937333732ef31f80000181e2b971719315c20b03351000028dc70502da4807132d0000031a100008040707e42b73198000028dd00005007809a000026e400000000806343080000700115ef2d34705830cb30fb32a92d7631a30000707126f532f4335a707f2b8f42567070000040d62d8032ab000030e40000311d311333a52034410426b2321900000000500132db31dd327a32171521281e42af
def LOOKUP.c538 : Nat := 0x10be000000002b863279706d156e291400007069430826bf2a5d32fa24a02721335a806800000000706d42fd00000000000032902128316600002cca700e309c2efc12764306000018c032fc00002d742b32000028dc7075000031df2dad000000000000707280a4000032e322492d5a2cd8333841d843090000434331747089323f290b3197000031de2b851791808c32642c7b000030ee7068237632797073335b0000434c439a2824706a000042ae41c63196704b707131a242ff3313706f00000000808b434b26bf2cc230b4706927e80000000040d500002dae000000003264702e000070074208000032cf80a92c5c42603343000022402c552a36
def LOOKUP.c539 : Nat := 0x500700002a0842250000708a0000706132610000320e15f00000000031af30ef4343708633130000421c1844290742b826ff0000000033073113161500001615320d0000703b31d300000000705f30f6330780a93180325e000023ef1790179431f60000330800002eb428270000178e4261426a000000002a07321a32a027e03108707f50062a5a807d184b2e962a3e2a24327a183600003137000070710000707c315b42a532c231ae00003219000031af320d32d02941335c000042618074000030840000000032dc32ef40c200003284335242672d7f326e161c700700000000293743a3425f32f2211f8041294a00003365270000002ea3000031ae236b
def LOOKUP.c540 : Nat := 0x32e8319841cd0000335280a5323f0000708a000043600000294143ff42fe50070000338d31d42b6130393308803026ff00001931701f2c5e000032190000421c00002a642ec42b600000308e000044022828327718f31928000032ce0000804a7086241f00000000704c00002a353234327a000070302cd4705e3309000032d8266e4273000033823075311331f8702b7080334527e90000433b17f800002b85317a000021282b872b4f7046184343a4426b434d2b32434370532b6942f4316733530000320e80a5317f2c83314428dd7006806732842cb10000332327d743542c83000031ae31c832900000807c308c32e6320f00002baa2efc808a00003287
def LOOKUP.c541 : Nat := 0x161d7089311f7088335300002dae00007056704232e7302d22d018eb42b932fc00002efc2381808e000021290000426c2dbf000000000000280f2a64294d80a43285000023dd3173000000008055000042fe2d5b000027df5006325632630000000033520000327b209e210c27010000705a2a75337780a4000042fe000080732a6c1615705e702f426a00002a75326d703c308b335c310d0000224a705a29522a7600000000404e15f0704f122d41d943120000318c32c241250000329131ad0000500900000000703a7068704a336531b0335b0000315080a9000030ba70800000237e4277237f7019329018a8328227e93278704f70072b6025ca31ec
def LOOKUP.c542 : Nat := 0x311400002cd50000231a42c33352706500002dae33152dbe25d632a030d880494274130431c2434332dc335d00002a35703070800000270232ef30fb2253290b2c8318f35003281841da2558337e33784344000042b927ea30f5329100000000313833542e5a335431800000327b4403000032e425cc294231b00000000042b90000000000003364000029142ba07071290b0000321a0000321a7067208042c20000000050043314000027847006337332db000000002a65318c0000426c00002bd630cc43ec2b990000336343992a3500002ec92d8800007074422832db18442b6926ed123c00000000321012f418c711e0703200004276293a433b00002b60
def LOOKUP.c543 : Nat := 0x28208082000043a44024327c327c80317035334500002ded21640000704940e970822b988043410a3120269a273770892a3f704700000000333826d1805b0000203f5004000043070000703600003360707225d7000024ab70472efc1844326f00003173338a2702000032dc2b6111ed000018a83198000025d7708a000032f1000000000000000031bc7073000031020000411900002b61708942a6000033172914179d132b0000168b0000808031a4808031a4805b31fc0000331300002381000021293323000032c1320f43562b90000014b823d70000707a1843421d70347077438270808089709c427480303131000000002dbf270212da800b434340ec
def LOOKUP.c544 : Nat := 0x4277326400000000439c43924108329220a400000000326f00003288308c7055297d0000335300000000438a43913264415180a7000031a42c9425cb3251427841ac50052b6a24252548000042290000301525cc703930e022b20000303800002ba040e030b1325d32702db632e58096702b335e00002df6702700005005431200007035316e0000335421f7298270690000000021c3804d335d326f310e333832d625d60000706e804942ba000042ba43892d0e2954704d335b27ac70360000000070434356327b0000336432e7000033220000808a70802628434432f2708d803f30f533484073000000007004313c706e291418cf439a335b3124
def LOOKUP.c545 : Nat := 0x2de5236a807511d0298133092db733672e5d000000002700705b00002822705600008031708b41733179320d32e731202c9500000000191a30b02aa820560000000027007010184c2ccc707d2d880000257e4123704f3130000012d7701f2c21250727002817000043622ccb27012ee040c3266e409d702820403354282b0000306a209718fc3353702928520000706732d012132de5427530220000282b00004274000030d32854000000007097804930b3316e0000000000002de5254f708a321043ae3366334e3015703e327c41ca2c95407129423378706232f132f343a5000021a4303821c930f52d8970472a3f804a3347000032e60000705532b8
def LOOKUP.c546 : Nat := 0x500521c931f831c82a86800a339c329a000040352a810000000000000000321c00002aac23d73270801412cf2a402eb22821708d2cc3294d1128435780812e86706131d921d040382dae000031b0329131b024ab32453098808b30bb18fc335d427623020000700741d900000000208d2e5f30f350044278302d0000192b18fb14248026000041d8330a7055000032c4332421ab0000000032f118ce32dc2f2f7006282225443239000020ad708a412511eb32e72dbf708c70550000000030d82818000070310000338b701831ce3074306912dd80322e85000070062a6d32e50000302432b628188082305d70660000295c416832db704132f031a20000703b
def LOOKUP.c547 : Nat := 0x2822252443af2485809630220000000030742ed82ed1700328292f2a7041000011d0212670102dc040dd0000254f50042cc3702a327c192a282b30508019703c27ea31790000150500002a772db72cd82eaa43af0000209e2b983228207f31b000002a8041e731ea32102bc80000324c207f294300000000000000007012335432f340d5192232020000801900000000411b30682523337e42c40000307770472187439c31027056000018fc804a702d703f2bd1322e408512e618fc4277270233a4703d2cc32cc432dc00000000809500001929138b293a00000000708a0000335230803178802f326443a5282a305f192a435927490000000026f37037804a
def LOOKUP.c548 : Nat := 0x27022205302e3073000029582a2521e680260000335f337f30df000032ac0000708a40de331412cb294d803b22d63246337f28210000193331e0336a704d2e850000241929560000000022060000000024ab302e233132f431d92113701d20d32ba2000040d5411b1219804b330b704b31c121f5500400000000232832d041c58033295a000000007060000030f631e5803f30801338701e0000254540dd00008080000033240000421a70383132803233a2305e219e00003014703e181e30cc703a14b4706432107032301670972955311432ab2a802b98701400007049000043150000000043c422d5702b26cf2dde305300000000704070800000408f
def LOOKUP.c549 : Nat := 0x407280310000704c21c9000025853242703180a9313c803f00003270803000000000708c000033734403336b70838040338b70930000133430d47008410931e4439324540000000032d921c7802530bb70602f217067703d00003369264a000024d6404017c44085708b282b2080254e21a41312800b70424042403f804b705441de2eab707e337524460000809832c93360707c00004187300a23762a842cbb2f21000042ba2e7e22f2290900005003411b2de60000250832d5212000000000703c26140000000050043397701043eb7080000022fa18f40000000000008016313d000042c7000022b24174332430222bac70150000417e0000258c41e440ba
def LOOKUP.c550 : Nat := 0x2eab268732452ed12558804c412e804b338c0000258b302d1204000000003369245200007054335d2ccc32b14243147930bf00000000000040900000297f43a732dc317a29562557803e708f269b8097305231b6803e19220000000000002e001391333c334730525001123a320121f100002525244d2bac30be00002ccd2eaa804e40cb804c7022439d0000000000007011402b7038700e417b70161687000000007024000031272f2b209e32882d4c18cf31567092305e00000000430921d828650000000033483184000030a3305f000000002cd5327c2732336030804362326429143381323a00000000439225be30f6233a80a93132408f702e00000000
def LOOKUP.c551 : Nat := 0x329a12fb000000004361337326f230c720cc32a02757000040853257326d266d29572eaa406c702a3082338b23de30d50000288e2f1741ea0000167c317a43a8146e22fb33680000408f0000701d2f0200002aa941c7331870908099703833462810246425580000700a33300000277f133500000000000043644361702743ca80182617245c80410000308c18fd0000324c307620d27006209133093380313d703c708f3098303b43af7039337724ac412d0000000000000000000041ea31322ee03294000070122aad2dc12576411200002a810000000030df25be40de0000417f704800003120205d7036272f800831c232b1803e158832dc207a4312
def LOOKUP.c552 : Nat := 0x1684000018102082305f409e337530df1588417e31b6310526d4332a18fd00000000257e4137306c3023417c3084134480a9704d0000308e278a3008708923512cd6338c338c305332f4255321f7333c411b000000002649804d242e2ee9205d268325b5703e80a38040267570743251417e00003162339640eb2eea22f5219c802400000000000030451470169f192a000031f5000028662cd930eb43b230c900007004279420d623032e032ee90000803f144f20fe0000210a338b0000282d00000000000000000000705332010000321c20e441602bad4173703c41b041732401325025c7192b000030522bac30a6000000000000111423de707770082617
def LOOKUP.c553 : Nat := 0x12020000257d0000305f24260000702720a631a4408770870000417f000000000000244d00000000276f2b1b000020cc263225250000701e318c0000000040dc000000000000205d32032371325b0000264a413a418913472df78099311000002ce80000333043a5309b30e00000336b4074317a30bf309a80343082311b32be257e25860000703f704300001340804a80a6404b0000708b33548034306c0000000030bc0000303b000014743127306c00000000000021d9704a000031330000704b41ff3354303c41741201804c000030eb7012313d0000339b31b0318900000000806833600000242630602eb333682cd6324e26572104333c248500000000
def LOOKUP.c554 : Nat := 0x279300002d03265723314036308f0000311c26820000000021ac286a704e0000000043af0000000031ea32042e02338d30ef000032b22683116a311c00003398000000002cef30cb000041881598318827ea00000000302417c5222d802726a82eea00003104703d00002ee230be00003045338424542f1830ed26a9000022b3709b0000000043f2000031da305f43b0316f309c2f192cd917953192423832b80000245c4211169f2f2300007057325e709570374173000041302ee200002e8630a5701100003017000023050000167e30d712fa7057000000003376302d0000000000004025000016dc314a311d265030223210707100000000702a28670000
def LOOKUP.c555 : Nat := 0x2331338d302d000028e7314a30fa30ef0000311d31db325b7029268232c94037339880340000255b30ed40900000319200008041338116e730d6325d0000252629893084308e000000003381000021030000000025bc31702eea31c30000417f26b131e80000244e14792304707f338043602df72df800002a8100001597804c30602eab7056807b32d030ef336c7008000000007013000070973399801770220000338c2df9703a8040236727df32a5193343d83380000030fa3060309a000020cc2f2c2bee2df8249430bb21ff2c02708c22d7706430cb28db277312498049282c700732c7705432473381124b2f2e336a30b30000210400007096
def LOOKUP.c556 : Nat := 0x223d70073078000031c4222f000030cb000025b3245f16bf338d704d30e07039404d29582b1932590000325226a8805532c8000041ff00003354807221047013704d15210000275329ca31f22358412426a9174500000000000033982ab400000000703e325e0000337700002208417c336031880000242f2360705831e80000126730d741fe0000000040420000338c00002368000000002eb3000030ca314a30bd0000803f00002ee131b826b2306c337821ff00002cfb404e3377708f00004042223e428c70652b29417e407d2304000020a7249d804c30b314cf2f22125c707821ad232b279780331488704131e0413c2c8a0000311e708c25b0808f0000
def LOOKUP.c557 : Nat := 0x279f17403048311133a72e2929570000703c703d707d0000428e30c0404b2eeb32a67026000031a4277a2c4327a580562f2f2f2f000026a8000032bd306031570000258124652d032780305330bd33772af6418741b0709525b4703b265842dc173f706e403833a4339c3163314333237022223626aa2f2b00000000324728783399300c7058704d23720000303b2757325f0000237c31070000404e000030787012325d000027cd000016a7000043d9404f701130d40000319b3141000043e8318a277d338d20e50000703670860000314a25aa2bdd308f32622af4000070143140000013590000809c8057168a8027316f7042277b808f3140323d8040
def LOOKUP.c558 : Nat := 0x425e28e81533000024a632e80000702343fe2afc20ae424b303b706531287078000070950000409a000070711526709370392af633a30000000022f50000155d1598000029fe30ca43b4324728e3314200000000151a00002abc300c339626b2321614cf000029f0000043b330cc709622070000409042dd000030be70370000417e20d431c3000030d63397323e325e2455275e333c28ac703032d2186733a30000336c26ab338d702e2a3425be804e312b4187424030a7709b1488707e4123308f703b00003399314200002eea4254000031fb25790000310631ea310530cb2c74000000004038232a708b00000000314100000000707f31f24294124a2cfe
def LOOKUP.c559 : Nat := 0x315b223026e942930000000030e34043703330bf30232d19314420dd2be1153f235b709130c9319530e2706600000000704d00008089279f28a500003158300c31eb29da27a031284043424b236933a6339c2805804141b031f831f42b29311113a200000000000000002f1930b330d6223e24a74218705d807b40434188152520d44188704d306c19282f1a33a4805541fe30a831fd236900000000319e7057000026a3420616a843d8418926db707126590000000000000000706e00002230806f310726d370152f21252e702a0000326e702f25892887000031a130e3412f4245000028b827fa2361278129f043e9249c0000235a000043d843f333980000
def LOOKUP.c560 : Nat := 0x803421da00002eb430ec224700000000237c0000000000002b4570977018267e30ed0000801a702c4207322541f014c416ee25922c46704229b2000013e6806f324931f52f2c805d705a24a62c4d26b3126b00002add000027a6174f80277012314226867066324732d20000418927b1804e2e01154225c170691369805f32ce0000314c0000000040438060317e000030a526b3275f2f2f242830e227ae0000326b42123318325531de42dd000000007042803f317f2a5670712f220000704d28d30000000030a87066702a237b15a37012314343f43084314326d20000000029d927e015e131fc3084332470963142702341ff258a32550000000031422494
def LOOKUP.c561 : Nat := 0x316543ea17c715e130d6318a32d5000013ed705a160429d43141000030ca31eb30a731b9265931a042ad413c3261702e28ca326a303c000032e62114324921d232310000705a422670630000314e2add00004207429c1366000013c30000278230ed175b421d309c30bf806328db30a70000424d705132ca42923157704d704f26db2d7f32683348000026ab0000807f303c235b425727f913e643ec32d330ee3254136831fe7014000027d8248c232340ed318c2207223f29b227fa424a21ad70512d0e000031d031d231df2b8127a743f6417f000031c4324a268500007055807c3128000041ca00003194333526ef41a81268432c42eb16f53090706a
def LOOKUP.c562 : Nat := 0x43ea000041ff709c2a2230bf429242070000236a42ad0000338f706e2200277c700a000042f32902334d3231233e437b42e530840000702a30ca2f232687302f424e20a727af40ec00003196803315e1424a33732b4928d1804c70722f2d326a708b334e27a131a0324a000017dd0000701742562c5c000028892d6d30ef7093000031f20000326a0000326a28dd3196331e2afa2ab42afd30d70000706531e080a2705c27f9000043d900007024309b27a931d2000026e80000235b421b328531f442eb4256000028ca435531ec30cc13c62add31de7042424e000000007051418943f40000311d4259000000002687187730d633362c24326631fe2e2b28ae
def LOOKUP.c563 : Nat := 0x30cc183c314141d631970000404d31f731a0434a0000338c32624219706332e62b4d425f29ff000030cb4212426c0000803f00002b97236200002c7b709530e127ff43fe7084700729ff30d72a5680662a2c28af806330fb000031c616067098704d31f62594707170662c090000707a2d2e411132fe210d20b0425f32623200707141c331a128f8320427fb000032770000309a3165331d31f631201399800b326180403262000042c5421c311f3341315c70380000320132772c4a27b026ee000016b80000404c7056806f806f0000230513e50000806470562d9f403842eb7047210c0000703a30d8000026e82d13337e42fc30ed00002126235b314380a2
def LOOKUP.c564 : Nat := 0x704941cc7066000000000000331780647099421200000000404f00000000000000004260000018354043000042fc237324a83142314e7067417f236a27d67067000000000000500a430a259431f65001000031c730a8313726bd0000323f160642f4000030ca7065237c000027a927ea7049806f00000000703c424e44004400331300000000320217060000309b404c500827e5426930c93256000070904208314c7067000029ff421c2527282c00003197311f26b50000326c0000704b44025001709b704d2b7f2901233425c80000000043ea11ef4042324c709531a241cb321742f432c0424e000021147073210c000042b77005704d43b4326a300c
def LOOKUP.c565 : Nat := 0x807c000042b042a5421a27b115650000705c7053314c27e87033327b3018439d00008066312b31502c552c89000042b743f60000314f3232433343542d9f000043ff2d9f32fa00000000706b0000328e3283000031eb2c8230cc80a8000021050000806728d4708732263204212031f70000154343068088324c804141cd80562d9e1913807f421d30bb000032c100002a2c00002c5500002d7827b2000031f50000326e2d3532ef2b570000700c2c2f242532bf42c4404100003201236b2b2a3277705c32567030426727d700001830280b28af26fd306c32013129434b42ae334b32284257329125492323000042f47063703920d531137055326c33a5
def LOOKUP.c566 : Nat := 0x2b8f0000705d000080a929127080705d32e13218808a26eb178e80633315404f237e30370000203f2a07705d291541a00000319731684021807d5008000032fa705a0000329d00001189800a15e800004401334c190d707e0000807e32942a06702f0000330a32fa50083043705680a900000000282200001614704f703500003262709000000000211f2c89426342fd2d5a41024188000000007058806630cb32ef80a331a2248d156e2b578034705127e627b1707c000031f7701a3083212731423173709380720000707c2c74000030cc00003083000000000000705a3143000026eb4260314e2a64280332e043f4305b31f643580000000027b100003263
def LOOKUP.c567 : Nat := 0x703c30cc0000434c0000249e314f15c970502817707c2cc2000000003257700c327a2c95704b5005413b0000290b439380593090326332f342ae0000248e705c000070948073000042f4702400007026000000008063328f00000000000027840000704d70660000702980a64376000032781882294a0000329d290a705626e325ca000015f0246918c030cc1835000042b8183516147097704100008067706731441817000026fd2c93702932e27074334c701e000031a3237d000026bf27e9701927a9308431bb00008059705f339c2376225232e232d84360280570592d4c32fb440030ca703428060000422526f4701900001777320d00004269000030c0
def LOOKUP.c568 : Nat := 0x7018000070702f2f32e431af33587077000032180000323a161d326f0000000025c226f426ec000032c4225400002cac26f4290b2d897023000000000000326f25d531eb707e2da61716309000000000000032e22a2d705d703832fb707530e432f3327a708d32da00002ccd70713082248e426b280d0000000043ff31f5707f21c0291330cc707d000025d37066707e00002116434c290a80672cac000024aa000042c6332a177470423358324b2e2880274314318c3201329c00002dae709c225326e43143706722dc320227d7808032e2705a2b58310880a3422624a10000156e000024a0000000001929705e32d9183c32da326e000032798070280c27e8
def LOOKUP.c569 : Nat := 0x281e326f70642807000032cf000032ef31137005000030d831af31202815704d320f319842a60000281e2dbe32620000000022550000000041c326ed2b8f31f82a3500000000000032e480a47006500831df705e26be421d26f731bb25782dad000043eb26f6326e0000293032db32da703c27b200007075426c32572a6c41d70000294d801900000000707f000027e9327926be8089000018120000326f436400000000233e80a42e2e18c03137702b433b181e2b6031ae18e3329032c1181e280d00002b880000703c000042c242ba000030fa2d53709b179c212b30fc326300001717181e16150000000032da0000324c000032ac0000707d7065426a
def LOOKUP.c570 : Nat := 0x2658000030f6806817f810622cbb319870320000702c32da26f53135801970628070314d0000000025cc8068320f3313000080a426f531f842f51746000026f6000026f770792a78335032f2326e0000281730e4808c32ce32587076000070307057308c408a315b32db705e0000704c430a3114500580a92dd73358293f70382d7f31ac43a332ac804926f62c55000043112c5d32e63197281e2ba0000031af0000326380a30000294d42257039704c437b31f70000333930c030c8433b0000707c30f6326300001813320e0000434c0000000042612817320f26ed00002d802a5c2815709c32d00000000032e6708223100000320400007053
def LOOKUP.c571 : Nat := 0x316f2a4018e524ac309028184355000042af7037282c305b416a212a0000000042f5704118cf0000804b0000314430842aac2b90272b179d317a000027e841af252e808c70574391402a41142a6500000000337f0000000022c9707f00002820309942bb2915280f30b40000282c00000000334e224117198074326e320e3347000000004307321a000025cb00000000806832b12f1a000031bc28d426f6000000002c833369114c29142a35327900003144184c8066801600002a6c26f731f832c431ad26bf42742a6541112825000018fa24ac30f0320f80a400007081331e2a0730d52b580000320e30e42a65332d000023b58022706a000000002c832b87
def LOOKUP.c572 : Nat := 0x32fc404f000028213108434e00000000000031724311311431cf2a6d000030512a0800000000202940d40000422980a8807e000029132bad13941844000026ed000025492e713150282212f9700f0000208b41b40000248b000030c0282142ad12ce00002b903144266d31f827e923f3439c26ff294b3138281800000000000000002ccb3293000021ac00002cba0000327931d9322830fc31eb31da000032102820000022290000000031ec30e4701e707200003290801642270000000000003337703e20803107427542c22e9c708600004311000024a1266f315000002cb3322733970000000030ed278b00002c8b0000702b3051439a181730d680a841cd
def LOOKUP.c573 : Nat := 0x7012430a0000318f33163308179d0000427600000000330c0000808e333840cb2128245c315d8009205c704500007040331343120000318042fe32fe2b6b0000438a28280000708a31a4000032e60000209c8025700432f2315e211f4079000070257038320330b0000031bc0000227f703b0000321b00002751000032a026f7803c314424fd306a0000705f4274707221d1701f2380000032db242d000000008040242e707032640000318c000010c328170000293a321024fe2c94282a00004226000043a800007073000031bb00003203000022a0320f00000000184343072cd420400000805a269d43890000427630ee32fe30cb808e000030d7319843a4
def LOOKUP.c574 : Nat := 0x707c706b32700000181f422830e231b02dbf325d31e4708a7071000031ef427541da328722f23351808c3317411900000000430a23d918f342b900007009706d4391315b000000002cd5193200000000708b40412cd5000024ff422933372701282b324b70010000701b704e000031bd800a3344308418ec20580000318c00003264216b305d27f1000000002d80706632dc32f3265532f3000000000000000025cc0000701d4116808e31f8295400008094332219310000703f00002bac26ed00002c8b439a312070672a6d2d88295725d5000023c033502c5d2d80000032f1308418fb803e121640cb000025d722fa2dec30d20000435930e427cb3184
def LOOKUP.c575 : Nat := 0x439d00000000439243a400008016308470092f210000000024e90000282a30b2165c26f732c432ff312429433101327b12bb706b41a65009328731ec7004321c0000315e2a76438a500200002b904400338332fe0000805b430800002de60000801a00002163227f23403345703230de000000000000417d43a42ccb322d4357439b703f707c3384402e2380106d8021000026b300002dae41e8000000000000321030502cc300000000300a411e18a80000702b704f00000000000040cb269b808e1934000030232b982ea3401d26f7309a335b0000000042c30000304726b500002d8800008018434c2dde708b41338027703e304770148040808d
def LOOKUP.c576 : Nat := 0x30f62de52c8b119b2cd8316e703214022cbb22f200004358416a00002cc38049000032450000335d33a8337f32d0318431082b98294c000000005005282c3294330b2bab2ccc2339804a11d8800a233a430a224a21a52eca30f52e0331be2ba141b711cf22d600004356000000002702000011bf00003008705f708b2eca113032f20000415d70202e8518f48034331621fd20a030b180960000293a18fd0000438a411600002cbb00008031439a10a1330a30f0000000002645407425075006000020dc335b703c0000701b22b3702d2eca335b1217304e000031d470557054808d0000314428518022339a00002418417b701a246831227019245c0000
def LOOKUP.c577 : Nat := 0x80174161500541740000700e30740000129430753183412232fc32e78032702a3324709131ce500a809732ff2856330b803141f7335d245332d00000184c218731983366338b262a31e430f030bb250280193156706b4036230e1932000000000000804b40400000803c41c02958270200002e79000040842187703c2b90326f00002701704b2e01000021c6000000000000335e411920ca3381315631f124ec11300000321c0000282d208c411c2eab338d209727bf295541da7037282c295500002bad809543f38049193222cf336600002bab41c7160624ec2de500001310000000005006809a000000002eaa32db24460000000050043316439b31a4335e
def LOOKUP.c578 : Nat := 0x18440000252b31c22544804c2b98703a32612df500000000704a000023e3000000002e85000041ea000032774363700931ce3141330c25500000000043a5702819298067297e43a82bab22562956318c2554333a32c30000335c000000000000000000003396000031e42aa430e141722973000000000000804b2cbb2bad22d63288000011f6000030757032303880234315336530983193000012cd21d0338119220000218722b200000000317a7033804a2a9f32f22ed92cc3708e321a70492dbf0000108b000042763185000011f0335d318c2702408e32e48014000070062731227c80492df6000031683072316242c6000032dc00002eca305125443351
def LOOKUP.c579 : Nat := 0x434433691922335221c9000032f4403800003204804c407c426b25020000417d3017804b2817266d33998019708f2ed8303a707e21c913913021218800007014804c4172261400001478408c26170000703c32e832452bab000033963180000029800000701e2dff00003288327c25551389800b2df73353255d23dd306a41e48021803f2b6141ea704212f127ef115542c730822ee043af306930eb0000250242c543af000021d02425000000000000702042c421f523d7000040d44123436141c7000014ed335e000022fb240132dc7037808040d64362000032c8244612f831e500004363115632a5261700002d4c32a670482ba121c3333080962733
def LOOKUP.c580 : Nat := 0x7054335441892631336b147431f000000000310f43ec4160313c00002bd28025313b335e30bc417441da306c000000004172336a16eb800d337f31f7701e178e274d0000307f308e0000335f5002417d337f30c70000273341ec30c7322e70428099242e7042704200000000311c4174000033830000000030d30000700970492eaa40cb805b32c323fa2a6c313a2a8220a50000146c800c282c000025580000306b151100002649703270430000439b40ea3373337f701940ea337531622f2a00002cd730a530bb702c27ac00002cf2802632c331e542ba337f3075174100000000327c704c25af000031f5336816a8303c426120f032a02a83335f00003397
def LOOKUP.c581 : Nat := 0x30a52ba17034404800000000705980a6275900000000276150020000147970220000335f000020d3809614b4420819222e04707c32f40000255b00000000420f80348099000025080000123b338b26ba1587282d70542f20334741122f18300a305d2322262d804d000021fe000032bd707000003397809600000000303a7084701100000000257a335f40412ed933547028000030a5809b2cd930a5318643a832544316000015900000000000003300146d3162224729802f10000030a62322803e7048000070420000417b20db000033757009323a20a531860000702d249d30b2255b000000000000334500000000210225082426702a00000000
def LOOKUP.c582 : Nat := 0x2581424f00002dee308d245c30ca0000704c3157417e40cb808f00000000325a310f43e217b60000000028f2708a2f2e706021fe26332eab7012313d31e80000258630c9408700003191803e2ee10000242620f241317055330c7011803f809a00000000000041f00000147842a430e00000000030df702900002cd62df700002633500a80332354417d3250241f409a8097257270120000704d41d17048000070612401000000003360336b33692df9803014790000257e323d2752133800000000409a0000704b000040da0000703d269b2aab33547087803140e1000070821473802627d21394417c40df00002f2b308d00000000500700002f2b3112803f
def LOOKUP.c583 : Nat := 0x14b70000257e21a5000029d9150b2e01000041b731f180180000000031dd0000000043ca300a000031102aaf311200003083263341b00000310400000000704a706e120322b32e86000041a800000000314132460000275e41f08097267d000031f17039801a2650500a000027522757703e420f2eb3150d120632dc21fe11653143000041f03376313342070000707e00002ed92f2c0000258e0000320f000030e100002956152c000080992cd67013708f33a240c3264a2af427cd133900002493151100002ad943af7006147270310000134f334830a6166941b72572139627df2658803d40e126fe2865000000000000325141f02f22335e703a000032b8
def LOOKUP.c584 : Nat := 0x404b308330b433692de6247f431331f1701f32c8330c222800007025000042eb000000000000257800001686273e308e325f0000309a804d00002bd830bf3083000030bd3110304833a320f200003077000020fd2650336c000033530000000022d700003247707830ca0000700f33a6265941b7000018e530bf158b800c403613c700000000306b000041fe416a30e10000339a3191244d3300336026be41b732bd2f10314a33a27077278170980000278231402f2b330032f4000013da0000000029d9249c2ee9407c0000000030be267b30540000705100002df77065323a2e03324c00002bd70000000030e0705532d500002e86418b702f30be
def LOOKUP.c585 : Nat := 0x704d42ad210420dc43f2803f29b03163232b42f3402544022f18708c43b200000000701c3038311d30a62dbe703b268541af336932170000000027790000167b16e22eab326126ab3124313e337427a3805e705600002df9318a00002ee100003137000025870000807b329a133e30ec319c314c209f00003360709700000000709a13ed30eb701f32b22683809700000000000031e92465274026588034809b2de68032705d298580092d0142a4302431f10000413027b70000309c42450000000000000000267b7042311e70270000704d330c0000000070602469000000000000705e000000000000705631c341c020db303b40df000014b942a423292c03
def LOOKUP.c586 : Nat := 0x43f2000031427088339831cf33a200003383337731f21736320b000080400000707800002ada3143314c3024000028c927db432b28a34188308443e02f2427a07050279d324700002685326816e280278040320000003383339b0000420f0000421a41383398703a31de319c408531ea70230000709531f341c0000030823060245f148416a7000041307041220f413030830000808f801730d6807c167d29cb30cb3360000040ec4326314d2b313194708630b1804030be0000327000000000700920cd704133a3000070338058147e252e23fb80577065703125b6336c704e000070992f180000319d338333752f110000316f21d930ed1595440231927038
def LOOKUP.c587 : Nat := 0x17c50000000024942c4630be10ac80084041139b2b1b26b9210c303031413375000031112f242b31000032602b3127a620ae7037271a30e270394188417e42564211339b0000000032680000000030ca43e030c0319627847051000026867093000043fd3269701f704970677088281131f32f1931c4333c28ae409d233c0000147f21d12659804c0000000033600000000030be28d430e2705d28872a2c15162b047096702922f100000000804d16a832544219404d42dd2113804100002782432c311d32dc27a743b0703a26d32097000043b40000249332c816a200008033220f30ee000015ef4187709122d831f32323306b4130703a1744249c29f0314c
def LOOKUP.c588 : Nat := 0x160d26ba421c21130000421c000023721810000032be421920cd155f43f350082f2f317e2494409a3090339b000033767023804e43d97069425130cb3249809c29123060306c0000302441b8320e43d132be255c30d6255b000043e82e2e26872b29339c7072807032cd311e31f629fe425231a1000032600000417f43df706f33a532014206334230b4325f30be807227ce338000002d9927b05007706143ec20a742603140159813ed707070970000326926b40000425643f770722113705217c07068701d0000704926ba222f0000308215e170510000804e0000000030e042ad00002d7133a8404c26d330e343b231ad136b267e00000000260e31427071
def LOOKUP.c589 : Nat := 0x8041322631df7051429d000042e400003111413c42ad2784706525c741b82f2c7066707c27d42125807125b0000025c6704d136a326243e030cc000027a7321a326e26d300002a34408f14bd8064317f8089703b308e4206000000000000314216e740de309c26ba2c54000000002f2f21f0433a319e3142425800000000000026b3326c328280342888174270670000161430a7326670614210000032b23167292e808833360000705b338c27d226b427a930842af90000318a0000160d707170952a06000040ec26b926b429d943b426b40000704d2f1133a7000032622f1843e1805633a6327727dc000030cb705b0000338f29cc21db1864336c418b417d
def LOOKUP.c590 : Nat := 0x26e331c70000000027e800002f24705031a10000000032d5326c2d53705c2c74709530cc3257709a31df8030000030cb27b22f2d3203000043ff268725d031ac31d22200707c00002b2a315b2b2a2a6442ec27e0709c328331ad2b29804533a47033323f70970000000025d100000000704d705e27b216fe3036156d2494000032831745259400007067246833a7156e42fc31950000308f20d5314300002494806330ef320127d3304832ce000042f430c0328232d44042806621da7051317f706580a3000041c32e1b3283424e305430cb4401421a8059000042fc31412c5c00000000182f3283223e26ac425f26b54139326c000030b34139418833a73090
def LOOKUP.c591 : Nat := 0x31eb701d42a6290c0000807114ea31ad27fa7045000080597099323e2a3d42ae00001868706818ce177630c0430627b280884403434b336c324b709926b33166326d3292322800008081709a320232ef000000002c5532250000426143fe704230a82b6831671606000070172a3d328f31078070421b327a707f000021050000329f26bd0000000033a6805931df320d000042b7804d42fe328f705d3278500880a743e926bc33a7706a2d5a118f32192251707d237c42af3231409a421d42af42af5007258a706f2105328e806630fb29311546000080590000806542b700003390000050073060309040eb000031ba2a3442a50000329f31062c0950082906
def LOOKUP.c592 : Nat := 0x329232180000156e156d707370531614000031bb30782a2d210526bf42f53083000032198080179c00002c83000026e9309c706e2b682b3242610000000027b14343705731967064000000005008303c000031a330cc807f30bf8067000042fc1606156e26e9156e179526e13278312026bf000030b42de5413b404b806431a22b5f000000000000311f421d0000000028dc2da630cb32e042b931ae15660000314f80a7000026fe29392b5f320c30f0327780a7704d0000000028dd30604257326143073390807e2d5a70992701000029ff0000421a26db0000805931eb246941cc00000000426a8041326c32fa413b808928f82c55325631ec326d703432cc
def LOOKUP.c593 : Nat := 0x70737041000000004269707300007023223042293234709a27b1708041d50000701332ce000042bb7072290a8049328f1875000030900000808026bd2d5b8066000041630000325743e100002ca62c8a326c314e2c30319431f7807031f627ea42b70000320330f580800000701330cc26f7000030e30000326300002d8720e72b580000809c32182c79500942b042af319d80a430b432021748800d707e7074000031e043f50000000000004023709a2b6130ba25c15006807341892c55706829da314332d87087434b00004403704d0000418a328f43ec32d7000030a8000030432902709600002b2a0000000031c7704d309032790000179c000027d732e1
def LOOKUP.c594 : Nat := 0x434c16154072000026bd0000000032da329032e4000031e0320f332900000000000016ec178e00002d87706e4356708032fb30c0000042ba42a622e680710000410930e332f22356000030ef0000426a25ca30c000000000808d18ba32fb426c70042a2d50048074181e707532c3426b30bf293033360000708100000000705f18770000161532d9807c43f542ff32ce31af0000413c2d51000030bd000032f242ff2b333144806733127071000042c22c94321b70612dad80a800002dad160d808d7072000000004355233432e4000031af2cab4311000000000000183c280600002801808c0000000040ca331225d670240000000031a243f70000
def LOOKUP.c595 : Nat := 0x326f00002d5b80a9000031682c8331f8277026e47081332a26f50000418b26ec404d2dbf2593808d0000426b26f4706200002b58334b43f42dd12816000070712db6311f00002d34318c330742260000706e281d0000321928140000000032924228000043650000808c25c226fc434e26bf000032864343705742f470800000707542c20000320f0000334d0000318b80742ee0000043f40000707e0000000070282e2a8074706d000027ea70827065000000003263000026fb291543900000000000002d8832fc2b97000028d42b9700002114237e31b0709632ef2db5709c31ba4226325718bf803f30d8220932b82815000022ec3198000031df0000
def LOOKUP.c596 : Nat := 0x2a3e000027ce311400003099229d0000328600002c932cba0000326f40ca2c8b2d5b30a80000282022af314432c30000335000002c94000070770000324b000043a426ed40b9435f000070404224000020554229328700002b1b0000709b31ba10567071281741a6804d000026fb804100000000000018172dbf2b977029000026f60000000026e40000000040ed32e528251110000032100000179c0000179530de20912b690000703270610000306c2d7f291432cf330a703c2821326822d7280c430a808c000000000000211570073263709415f0803f309c434c309c0000706e00000000334c000032f0434e32ff3210320f000025c200002cca000018e5
def LOOKUP.c597 : Nat := 0x70260000000040c026f732e7707730812668422700002b6925810000000022c9315c0000700218ce000032e5000032fc704633422cb33307708d808a24d840c032f1318c419b329230bd326f332d144b18f32915707e1928000000001776316870280000000000004314326e114d8009805a000024d7438a306826fe0000211f184b325826972e962a7532c32db62c83301240781776327b431129152c83000031440000708232aa8081701e703c407c330b267c7081000032f02e00708930f02b60706b324c2a6c43c94357701e418b334c000032f100007082281726f6408d000025c22a6470642bc800002b97000000000000184b26c6161d156e4227
def LOOKUP.c598 : Nat := 0x439b000042752c8318e525d600002a7f282032fc704100000000000026f6434c332a29433228332a25d400000000318400002cba3316703f431300000000294b418a21ea80262dbe804e26bc33140000000000000000705f31d9181f32e500002dd6000032c2000080822942236c708a155f26e432882a360000000000002cba000030fc00000000294c335c1932302131b0805a5005281732f2408117f8179d23da70808068806832fd282a30e432b525d4000027ea4085000000002d882cba7096000033653021000070250000704c00002818438024aa3144281832db000040d300000000706932db00003293406c000042c600002dbf2b6923282b8f
def LOOKUP.c599 : Nat := 0x13130000708a0000316d70152b984402315000003126435841612d5b702732100000327018ea31b6707500007007117e0000161d29427083282a321932e631b0439a313e708c2ba131e430b22a783317304f0000310f000023dd2822112c701c43923308808e42740000701f000043154315000032182a75805b0000273c000070151232805b000000002dc0804170184308000000002d5b21b741ee7025700d28281488803e308b000031ec25d4000032f23312000032f18068310800000000325842c5416918f4000000000000339a2cd44033411d215f3144702530d60000704a2a6e28210000321c22cf000000003288000070662828207d00007051304e
def LOOKUP.c600 : Nat := 0x15a0294380410000708c21802c7430697074335e000030e4000042c5708a312400002dc02db633170000191831818018703500001277800b2dc10000000032644074250732ff20b730207044703d2bab7004205c0000114e331325d732fb708e2a6d20c9000042c320797036804e42c742c7803033172b90310d7083702b11d9000043130000703e132c800b0000705a00000000306a294c264f2ccc0000705c24eb708a70182072306700002080318318f333574229439a0000335c2701272b30de00002db6300b314b00001922181f325f30e12956000000008048000032f328172cc33264000032db70300000700d12ee000033660000152142f52649
def LOOKUP.c601 : Nat := 0x704131983359274430990000000022ee2e8512ce00003264402d0000708c245f0000708c31d90000000020ac70313102701624ac4314701e2cf3439d294d11c0701b28570000000025d60000708e27012cbb2701000032451933335c808e1844708e0000705e3352708f0000708a0000000012eb700d3015440300000000302f0000439b708f801612d2800b708124ac212a295733654122705430f6707600002a76708d000043fe330870300000704900002529000013362ec92a6e3313708c704231238022000031e3808e00002822805b11e041233264500240cb300926ff3264806826ab305b000011d03353708f439b0000707c2a80000023f32dd73210
def LOOKUP.c602 : Nat := 0x7099704241d900002cc32df6000000002339000000002701707f70122cc35005209a21ab00002cbb000000000000282a27372bc64042803e43e00000000041d93264702d00003353242d21ab242d313b282c703a708d282d704c708d707c21ab0000000040d632d023d7212b305300002de6000032f2329442282886000012d5000041682dde000030c70000808f8041708d4099704240400000316e000042c7708e4122708a43593264251f25cc402d33140000295830f62ba1708e2cc4251f808f2978703c000000000000000000000000431331f8297732fc801840362cce1328234b8055000000000000307843a430a412cd305e0000282a327c00004358
def LOOKUP.c603 : Nat := 0x32dc0000313c43160000700628a6338a00000000306a709a2e7e22d0000025773261803c0000325831a300002a800000000027a00000335180554278231c30d330b314a9263313953315418229b3324531983364295643614316295825502649000041af2649254a703c32d02df7295700002702702e18cf00000000701430e02de5330c236819223288705500002cce709c298243640000000021c93288434d2ba325c10000804c708c0000000032ab0000313e708d2aad23dd703920db23dd0000000000002df729584364335b0000335b804b31ae41692aa2701941600000000000003198000033178099702a000000003144313c8034318033590000
def LOOKUP.c604 : Nat := 0x704c313b3127000022d833965006333b2303267520da338c20a5337e123b133821f2800c1300000030eb412443a50000338032e032dc275200002cd727368022804c0000000018f4287640dd279470652bd626860000000026500000706b000033a3245332e82ade318022d0000030c832e8000030bc2375245b000033732dde40de4124500720c97027000027ae17b73369276f50085005318a3047295830a5702d2a8250038099704f701c0000403f21f1500913df0000282041d93053420813960000305c00000000809a2205704d704c0000000031a11933000020e4500a4172000043af000042780000703e707429562cce282100002a83420800002df8
def LOOKUP.c605 : Nat := 0x2e861309000027853300809632dc26560000335f428e00002bd700003375402e31910000000000000000701d0000337500002f2133822685000000007028702e2218800d803f265027ad804d31f73278806029832656703a00002322222a800d267514b800002af6000030d72e02703e701e809740363140309a422b000031d2276f50042f2040e822b300007038000031c4000032d0422c800827942df7702b28777020804021d84255000070622590275d0000312070390000425f2c21311b801a3383124770404074809b00007042411a701f803331ac25082ed10000000080a7500a803e00002de6303b231b246570680000000000002957326426332765
def LOOKUP.c606 : Nat := 0x808c704480990000424e428e33180000707841f030ec21ca000033003196417b303a41c00000000023292af6139626763195702b41240000325d1632800d000031894402805b30b2335e334700000000700a809b220931a2806f000015142902209f708a30d53140420e325c31403052000032c9404841af2784147132a630d830ee00002e027094326442502ed800000000126c709943a80000704f0000133930e032bd2586275d31db803f43e9193341252884417e0000706c412f2cd87078809b000020ad2657242728a62a1e500a3380252e254a2ed8500231f14207809b2ee1000000002701409100002b2a26fe808f00003231704433822dee40ec
def LOOKUP.c607 : Nat := 0x27a4000033750000156e31a0803413c73318703c2650300b701400007055705b3318000012690000432b2f10335f16d970820000421227a6000000000000417e2b582cd9236122d7335f15122c2130e126ab436523de2dee0000233100002bab000018fc235a336b806324300000233a32f4417f2e86314d30ec0000702f33972ee0804e000026b328af335f335e8073000043ae148340743360258f32e80000703b41af16c00000000000003248258f29022206807b31632bd72f01313e000021fe30533375336b0000318900000000424e702b0000311d709a3018703e320b809a706220a600002ed9338c000000003396000043a830eb304743f713038025
def LOOKUP.c608 : Nat := 0x7068804c21f8000031ad432c00008099705c3353339b000070954402233c31f2335e32003360000043b4425f167f336b209f43b22b29705426a3413730fa7066309021fe0000318b14b91480809b222824653142336b2465316f336a43c92a1e2e0028ca3380000042ec708831f60000420727c2805f3054706730cc701700002f09000040d470577060318b27a926bc0000136a31ac2657277b00000000705b3024417b4402425642683374278480a241ca805f20d50000000043d831f2265131df25be0000335480572dee440231c300003348700e32c4708d162532c428b414b90000500a3398339933000000707e325c26bc32640000420530d7267e2af6
def LOOKUP.c609 : Nat := 0x707332db26b228dc337433a2000032be32a632607067151d2eb328d415e1000050080000242027a714ea2cd930c0706c43b3704e275e2e023382300a3323315a42b023602c0441373217500a326a325e0000320c000028d133a2409230ca31f22be3325f70841515417f30d62687339b3200000026be314b000033762886409a8063000016d5409043657054000000000000000025af167a25af440300002d00222831eb0000709340e82f18000030e3291420a63159167d20823360704d3347402e302f80592a3e2c462afc333c335e0000000022470000403830be308f27af0000707c320030ef0000806415668099708e0000311d22d831dc249c335f320c
def LOOKUP.c610 : Nat := 0x25b6311331b8409d000025b080a541cb427831fd319e301831f5000000004043701d30b22c74000025b5500133843083703f700642fd0000339b0000707816a3808d2d4c338e43b0421931f43398321a26592dd72b1b339c70563300704d40e131a080650000247f30bf339b15960000232a309b500a000020ae40ec425720e8700731f631fd32c842fd278100000000308f0000000070657071324a000041f715e82c833390000031432ee12ee9000043df237b29b300002c46420670062c46000020ff27c30000338442eb7060432c30b4321700000000155f319780664401429d27cd309b4137336b267e8073249330ca0000418a0000336c425f708d
def LOOKUP.c611 : Nat := 0x31eb000032da329a32d4339031a10000806f806f32637088702f426b26d4703b80a72b2a704b413970840000326e000080a7318b319530be42b82a2d318c31c63378706a000080a3000031a233843262000031ea21ff282c70950000304843ca50060000807026e431f4221330a7000030a6000030902c2840e9326a30cb806700002be531a23197326e306042b8428f31f6500a2912000000004211706532dd280c70513384703b4314702a32d8245f000028a530ef5008000032d431f47070321b80a7308e806f424e500a2f183262404c424940de40ea280631f443b00000706015e1806732e20000000017447066000020d413ed31fe00002b05336330ca
def LOOKUP.c612 : Nat := 0x8074435900002b4f0000429d43092a2c33a53054431532be31b0000022071615701e3263290900003268321700002eca330a154633a470692b052942426900000000707f31a032ab00001743707480642b6025d221d2413a0000329230cc321a41c2434e336029133196413b000033a5155f267e80662d9e807c3142334827a97023000030be500a2a25310727d580a443b324a714c8000032622d4c32fe000043b42e9c434b2f24320c32b330e270950000704530ee0000248c0000704d32a9706432c12b60709416ad000033a380a343b00000290b306c20af328531d02bac2b813283151b28dc708400007051315b0000326217c32dae80a326ab2c2f8080
def LOOKUP.c613 : Nat := 0x2dd7319432d70000000031722375000026f14402701242c70000000080a32f22421d000042b0314326d426b5324b705d000031f7314f8081000015c5319d404d42747088300c0000000080410000000031a331f80000309c418a00002247418a27e8319527e00000805b32d8321b248d27ce00003200801a000025b032e3186770567084317443e1000027e870430000000031654269220943d8181031a1237b27e9000032e24257500826b533a615c444030000212880750000225030cc433b0000317f000041f78080000080893261000080708073708132190000707f70814256421243b1337831972c8228130000000030ed000025897072000000002485
def LOOKUP.c614 : Nat := 0x80814269302132872d712a3480a52d71300c0000000000007086000033163279000043f32a0732d90000000050020000324c000043e9000000003264701e32c22c94806f000020e7318b0000808800000000705043e1309c805a293117c643eb32e570730000305432030000430842c6000032b432702b8843b3000040c332780000805b00008040210c808c0000181000002d2f4307705b0000000026e327d716b10000000027df709c000000002d0e0000283d00003138294b327816b22f2b421231980000248d000080741745258a0000705e430643b4312027dd2db400003197805a418a421d178e321800000000807e14ea808c2c8c809c000031a47071
def LOOKUP.c615 : Nat := 0x32b600003090000033a6161c262d40360000000000002d9f30370000337830d400004306419b70372a350000183c708d280f301412be1063326d00003292000000000000000033a732df00000000308400000000709a0000421d0000804d2d35404f807e702626ed435640b932930000704026bd2c9300002a3e3293708f0000313832630000202630fc43f40000000024ab122e800a00000000000033a4306926e4808d28097090805a000027e627e8803417760000000026ec00007053703b320e805b00000000000030cb2cab000000000000224700000000280c7082000000000000426a2f2f000032f0709626f3181028150000339c31f7709900000000
def LOOKUP.c616 : Nat := 0x280f000017d225ca31a44227000032da26ed188d000070938063000000008082703470762b29407332fd32e6339c43ec000000008075000031503263000000004307000000002401000033a630af70570000321b709a330b16140000709b29137096410a0000000000002cce293a3009411533a4708b00002e2c2db6404d000026fc32da000030e980a68067500580992b6940e132d90000500a000032da33414229421d7068701200007042705b427870977093329332cf000000000000000040eb0000803d704c32e2000032bf212a12f47088211e32e60000808c7077237f0000709b0000301426f2708200000000809c280d24a73144241924a7236a7098
def LOOKUP.c617 : Nat := 0x30d70000703f309c2b8f329f31f83150187300002815000042c63084500742c7702a706b304e807332e700002a6d000043a8705026fb0000704d000033a733090000000018c718e5000024ab422600008016282100004208229870421835000032031835000070828081321c000000000000333521b62d80709b413c26f63198000026eb7098709500004358700342613201709a28134193709b2a6e330780a826bf2644000043d9000033a700000000305a32c30000402c31a43307293a000040818025000000002cd970892f2f4357000000002b9030c7000030e32114338c43f330a5708f17f30000706a000032da2dbe27013263805b293770992251
def LOOKUP.c618 : Nat := 0x18ce0000312c41a0804112f9439118e530a833982700000030df262d7044281e2b8f30e4310840d6000030c02822805b0000427400000000704f0000330b156d30c900003200705330c74314000029433186000032db117c000000007094000043fd41d61615205626e4706a705a7082808d704b438a22532820263024a0804d7037417c3140702c27ea2dbe0000319700003335706a70892c8c8034422470907006280c321a704f705d0000332c2a65700d42c3274c802330bc43160000702a209630d80000300880232a6512372b69000000002820705a000030cb702770650000218c000032cf313d0000273b4344309043f43293323e808e439c330b1084
def LOOKUP.c619 : Nat := 0x30a470354400704d295540c20000700d32583287313e2b6a410227a63047703b280f00000000285e000022a342267083708b266f3074703a706a808f0000702910b7800826732ccb44027003000030bb4401706911b1700e27b8330b1275338d000070681931327c80460000403c30e722cf0000327b314032da318631b0278f42c5330b708f803029427083707430d3808e310d00002dc02de60000422470420000705f31f73217808f13ed327080a6275d0000330b00003287205d2a8132db000080982b9040c200004208000026fe24262cc18098252430ba318c313e42c32b9000000000314421ae800b31a4000026f7000031ec26bc3180000010b8
def LOOKUP.c620 : Nat := 0x2e2c21203082703f252532942aac0000440330c700000000264a24aa2cd48059705c23d6327c31980000276a4359313e268721d77067318630d5000000002e7730d42426282b308e3021805840733318401d309b80a91929408418fb31e82db7283c2cbb40dd43ff273c27b28082242e0000139629d927930000706a70742d5b32700000704b41ee23c043150000308170110000700e803d809a11b0805826ec11af26f72559439b30c822fa7036000030a60000219631a30000806e708a0000701918f4335b7099320000000000708d708a30c70000314e30e4000000002dc10000267e000031f82d882de611dd8024803f3037298120321719309870884196
def LOOKUP.c621 : Nat := 0x41b719227019123a30a4319c427632582e2d706c00004038207a314180592701000030cb27a9313d2ccd0000000041617070704f70062b982eab705b000031900000702a708a2551808c42280000705721b1000030bd703e30812633337432e730df7090439d808230bf310f1165705c329043a418cf316200002bd8290a00002dec438a5003264f703c308e8075703e704a282b30e0705a402e3288325f30b0808e3099428e328512a8800b702c31f5704931bc33580000804d332021b9800b30e13288317a3152306a30b100003203314d8071329441603150703b7082402c708e708270420000333a803243938018264e7057328831f332c4000031c53346
def LOOKUP.c622 : Nat := 0x30ec301722d8000030e130fc2914325870672206705530cb32462a80318031910000708127020000805a273f421c30e0500a31ac2b1b8015306b30837052808f708e22f4708f000031972702804c80333217000025d50000328726fe3081427841247065000027b5800c30142826809a0000191327022e2d4403320c704a0000000031a30000326b000014b931c2804b30c9705a000042f331ea311c31273294424e0000808f000041a8000019343081708f320b707733132e9c29da320219210000317a193442690000179d314a704b00004130324a307522fb31da2a874316303a704c2097308f30e1000032002bd8704d407c706643167005500543a4
def LOOKUP.c623 : Nat := 0x2def295530cc0000708d4251000028dc7053708f000000003142706a703c328331a12dec307732e4282a707427a0320f20d312412bab26af326e708f0000000031e90000417a0000231813df320c0000706827b1267e0000332c2bee314e32dc308200002822267840cb70780000704f7057420f16a3302f0000000031ea707633210000420f000033162700335942112dd62a354269000000003017421c80960000316331382b2933590000308230b3314d404b80590000708d0000330c278b282d42a4321b20b000002c462c542eb12659000042ec0000166b708e424e2700326c706b2f2470567050809b0000808f000031e8417d26322cbb000000001932
def LOOKUP.c624 : Nat := 0x3252136a0000326d27df707629da26b542ff70510000500a162f335d325f708e7089000030a6421800007068000043420000309b145e0000133a42b0804080632c93329442102df927e0807f3083155f707e7006000030bf315c32922446809b421d701822198027000014cf30d722f53292807570752e77000027cc000042c729142edf7037708f32fb000026b526be26b40000338f808027022b57335e707141c315462df731373350000032865004314f31a132f4000031c37009337f318a4212336b29cd0000806427dd0000708e00002dbe32dc27e0809b155f156d4316808930bf31952a0832cf32ef3144000080193288703a0000330c21ca3262
def LOOKUP.c625 : Nat := 0x50090000705a000024654260000042c70000339b80742b1b706950078040431633452ba08067705d245e80a5282c70810000314380a52cac706c42ae2d5a315000003285805a32e87078000025947029335229142d8731f6330c00003150705b7012705c309b70762bae2e8627d7336700002bab00005009336826a77006282b0000259050043268000042a6705d0000705125870000809b500a42ba4365805a0000808d2dec245f14820000309b4043295532b28073000000007072707d706c156d2b33422900000000706c2b60326131430000805a43b300000000000042de2a1e706b31ba42ad3291412527c126a42a6e804d000000000000339a31a0709c
def LOOKUP.c626 : Nat := 0x7082318c809630ef2a3d707e33770000440121f8000028dc70747062000041ca429c0000339000003369433a0000000033182f2c0000708727a900004358329a338e707e00000000302f32e680a72a0700002b32000043650000329127df500a4359319732dc330c42bb327c0000808280a500000000248c2edf31a2707f00000000809b421a706e2cf2808f3218161f800d233a290a00000000805931a300000000321830d742a532f4335d0000500a000033543143326d806780952def412f00000000309028f700000000705c27da32d080a62a2d320228f731972e770000000032da33692469704228f9335d27ce3252809c000043422b49000032e02b31
def LOOKUP.c627 : Nat := 0x2c8a7059000000002494000043062d712d7f804180a500002e5e704227b100000000705332e400000000309041383068707431a30000709c43b20000000025bf701e00000000000000005007706730a700000000805b708a301f80a942fd32be0000320f0000000032ff000070542cd831f700003060306c2df92909160670621615802e331832ef31e80000706c70967056000033180000808d807d22002592425f70720000000041cc3203280f000025b02b6125b000002ee225907081421d409d3143807f000000000000417d26d5706e0000000041ff7081707d309b318b80a72b58000026ba00000000707d0000705b30242a34
def LOOKUP.c628 : Nat := 0x430970660000709c70761206000070480000337826d9210d32c1708a0000708f2eec25ca00000000187700002d7f26cd336c41690000707d805b20e77067705a0000404a0000212b000031a41655500100002dad708b000000000000000030c0163d800d2306808b42b82c8c306c808b311d0000294c335e704f33a80000339b424e32ff000033a30000330b00000000422a409a00000000703c807c205c26e30000000033830000308400007056338f336a338b32ff80822d032228338f424770100000000031af31ba2de6708e338b00002c30707d1735290a0000706200000000000032f3248c807526cd2e00000027e027d72ee02593705e330722260000
def LOOKUP.c629 : Nat := 0x33a627ea5003708242c7705e433b2f19130370770000331500000000500900002db7424e426b42c500002f1840d4300c315c330700002a754229703d0000136a427880407052000033540000339732ca000026d52c8a000000000000707500003204701a2b812b8f32dc00000000248c306030a821262c8c500900002db5708f70692c93247d7076000032da3191439a326317c743b40000215d800833542d4c431443592f117073330a000033607081311c32280000708e70557081325f0000315c701c0000280f70807076701b338e0000282033a34025000026bf320f404e0000335d3287000025b73353705400000000162433602f19252b32fe0000
def LOOKUP.c630 : Nat := 0x8075308432d5336a5009331730d826f6407142274224701b000043b470742a407099808e33744224000025b72f203378000031b024ea0000707d000032ca7006000000002c9570962b8f000023b40000801680a9704026e140bc28880000705427f000004307000022f5338418351843414f00000000808232ce32ff709c30bd70972820500a420f706b0000302b107d2ade00002d87705a43e1000031500000338f32d9000070762b6870820000248c305a707731b0000070332dc1249d0000808133607071328826bf708b706b705b704f32e02f2443152b81426c43b400002a35708430c0000000008017000033171179800a0000326f42752b587054
def LOOKUP.c631 : Nat := 0x321c000024dd4229701143a7409a29430000802f32ff41ab41d570750000704032cf20a500000000000032e870317068107f80080000307823b2709a42b030d85004708a3101702b70197035324c702c2c952a7880a700000000325d305a801770258082303822ca709732e72d7100002cc22a75256231c82df630370000401b262644017078703d000043a70000314400007067330b709a702e00005002701016ac2dae402a32913363706b70690000434129425007808e32f4227d000032f131a2803c30720000280f32ff00007074000043a470942184339742c700002baa0000302170233227807544020000178e331600000000338470714307805b2055
def LOOKUP.c632 : Nat := 0x801630d74365709500004315408f708343932a6c707330a626f4000000002a7f00004275700d415f336c281c70770000177618a32822000031f8323423be8022804e8014426c436400007081282d0000260f330b7028000080755007118c000030e72168705e000070541181800a40c9418b705120dd808e00004162703018c73144700e000000001177271b802170023022000080678075703780a72077000000002a56267e25c8303a412e208a337f43e8000000000000803f282a338400007072000032e543643285000030080000000000002cc2000032020000422730e2304443f5204f19327084000040317051326e2a7823e428af418a40be80160000
def LOOKUP.c633 : Nat := 0x41a0705600000000707730ba42c73377000040ca318a707631a3806310be8022418b00007015809c705b43110000708d80417042708d42763104272243b070833180290b0000809c280f708d2ccd0000427826b100007077500a70783009700e2821705912852a6d26fe2b05139525cc303a8025000022e60000000000002642307622bd0000806420542cc47001807e2701402c25c82086321a0000123a0000230a295412d9808f263d30a3325822d027b13150323a20d530d82b8130510000804100000000338b8032000031ae0000417d328831560000300a708e7074803e809b4315702a2a7f3090320d80583360237600007026700e000026f724040000
def LOOKUP.c634 : Nat := 0x3300308c0000707626684312308d2cce331720c818c0708e42c722eb274733513202704270897097708a00007051330c705e304618fb314d308143645007319c219d2d71439d808d233c219b708e181f23bf33901516708e2700705f706c4111331370357096809825d232884229332a2cce703e23f0700a706a808270884312000042b026263258327b1283800b700d3288314c26fc314d70022094707418cf701324ab439140377033701130c62f11709832b7000012fe111a25d2707842c3707522a8310c802200003037331332e6703d708d0000703d000033a7708331972cd8000042c770497044706d2aa3701200002a6d310b2701701d70392578708d
def LOOKUP.c635 : Nat := 0x24ea30cc7007801742bb7019320f32d8338f707e2b0570027099000040253075701225d641d90000300a30d6707280192c5543f47042230840892b68407325d6311d803f25252a7832e22304707f31ab311821be800b31fc3197809a275080963294704d314f7073000027ad262d0000231b31ae33a7408423c0801942c730c8329423074072703731a029397098805833a331a33383809643e043ea703670537053701930c9301531400000709c808f43fd26ff70837030708f29132694337f23ba11d526ff7032324c70740000142c800c704130a40000269c705b0000704d2ccb275d24d57026237e00002827314e708233001387708e709b330b429d2827
def LOOKUP.c636 : Nat := 0x30bd314f31a1700832d02cd8314e433b309b26f7708d40d532190000431620907068500843b480644229267d32e8700122cc701b500a31f6706a70907076703e7083311e232221d029570000254a290a30f02be33288309b11c1404011fc27aa70813292431643f30000320c339a7004809a3267124a270233682653332f708f2081707580a7706843f62a83703941a82b8100003288265030a64316706e00004074803e5009417132d52ba3707812ab00002958336941ac809530b133362ded705c708f43ec706d41ef192b706831ce276f23d62bae319131f8703b3124252500004229311980664355705d40847018309a3342317b30d431040000808f325c
def LOOKUP.c637 : Nat := 0x2c2132b22bae31af427829027012235b339c50083196255900000000707331ee233d30177051707519342f24808d327032da328370697082314e4036000042bb807242fc31ad7061000015f043167050329400002d8732f4325231a3809c435812bc3342232a706b8032421100000000326d26ab700742b030d5000013453190339c709027d330ca2dd1701f70374174809b29583293311e3300708a31f0320d709c705b1934709b3397308f3294706c7060209f707416b0267441b02e02326e1164802380a7115d800900000000326c440240e9809c209715130000337f43e9705b00001719809a334e705842ff31f1225430e241fe25d62866192931c33292
def LOOKUP.c638 : Nat := 0x328f2821709b33a82eeb27ce308e33162a1e2ee000003347705a426c00000000293a4276320e0000421926f6709b331e0000330c00000000305400002ed1267530a742b7434e28ca31037099706b21ec800c314e2b6b7075418980722b050000321c31a40000807e0000707730b200002f2f314343af00002794806700000000709430b380a642c442b00000329331f77096000031f0403f70012a080000439026bf2681809b4274702e305330d7330c0000335d0000325f269d31fe330c000000002a82000032867051436500007074142a00007075807f7097421d30a730d78081326e421c30a732832207807443622b1b808070698064330000000000
def LOOKUP.c639 : Nat := 0x337f809b40c6320e000025f2155f00002c96500831f732c43202709627ea7083805a30b480752913332226b432f300002e2e00002353436570134022410c27df00000000807f709c26e47054247000002cc20000408f8033705e308f2df9809a808d000030e30000000080a943f50000335f30d7707580a721f02045320427c6336830e400002d8933772154802100004046320f30e3805b2683320333682eb22c5c2b97000000000000705570682dc180680000212930cc707427b62c9631ac21e82cff27af0000809b80810000805b704a314331ac410231a370602cca330080a70000000032c47073000031077068318b709c000042ba708e2c46000026f2
def LOOKUP.c640 : Nat := 0x706c30240000702532da702722db800b1744801a246d80270000234a2818184b22ac218530780000422970820000703d4046000032fd3288000020eb321c407a80a7302426bd000000002eb432d432db0000000032fe30d623723119705b32863287338f708132552551315080347081430a3383000026a23285330920ec421d223624eb40e100008065314e335732dc7074000031c743b400003024706c335e7068318b3278709a809b42c6245d000030e333a8330822a5245d00008080338b700570742f21701b300c27b170693364330c314d0000320c336a2eeb300b2ec4418626bf0000145a800c705b80a5339a336c00007078330c70344403706c7078
def LOOKUP.c641 : Nat := 0x709b2cd50000805870042027330c33837083328725b6291470500000709b3278406550028031324b30a8704380151630703100003383300980240000705b20f921983083707841d80000325f330a3090105500002eeb416e3257240032680000427732ff42107068808d426c327950093377706b70807076706043597082235a320f000033907082402d3397336a3260436243620000329231f70000326d70557084330b309b80751092800870752047418b22cd701c290222a62a06707542ba32de00007090000032697081410842c4106c7084258732ff000080803060700d000026ed8081707743f623aa326300000000706c00008047000000002ba342f5
def LOOKUP.c642 : Nat := 0x705250090000803b26cf305f700f2813434d21763144803032e12227709a2767500843a82a7811998024128880257060707332e643f47080418b808b0000000040cf3258806440c721bd32ff3068422821750000702500003318708043b4295522bc808b8063809c00008040334730d7000041510000301342bb2eab294b314f70533285407850094309704132ff2b6b701e315032e5235b330b309c80a943b4309b3006415c70687051705743a72b6b41502eec2e04801a31983318426c234f31978080808a273a0000808b2eeb21653008410d00004309805930d742bb808e708e315927d7500744037007237e40b9329131a4000033a300000000229d156e
def LOOKUP.c643 : Nat := 0x4225338f5003805a336c80683315308e7026321a26b328192720709570402a8343d941d8000027db80182df500008017302b2c965008302b3369307630a831f73324327c285f801832f3339a000022dd40c232e630e8808b336c30e7422770827007306030b00000128143b370062f1a7051709013ff800c42c580308081707f2dc026ec339010bc29da42c6000070012228331531080000705480172db73210807126f1809a305c708470250000809b700132da265980a741f0808f4227000030d6804142ba70692cd8000020fa4261406b0000305d330980175009327b32d83288318b264b31b04364303c43b427814278434e2d021657800d42e0336c413c
def LOOKUP.c644 : Nat := 0x31f82cd80000805830150000294b27e07053806631b02725425e219d43a8708c3124707f2751708e422927f8309c701f70064212407c705b704d312030462577703d23693067807e2f23000043f3808c2f23000040ca21050000252c144e20ca80264187308c30d831ae708b809b32e631af264333783048264131a225d732f07099309922c643b4320c11ae800a4315431422ab705f31ae43f727b2707730c042ec2ba33171339b70272f2f113f80a83150410a8030432c705332860000705c242670687035704332688080402d26e341a17013302c706a30213291305e301440cb709831193046708416e828312d87709c1419407300007032407340bb438a
def LOOKUP.c645 : Nat := 0x707e000031f7000043588073403d000012b33219330070533292707530ed27fa33a821c232fe430a335343a57080309c708b2bac2988500913fa426a4400320380a6334743b3436326e5809c18f4402c80a61547801800000000327c706c708c31f630cb709622ed30d8434d000021c1802542760000000042302665000031fb413b3030805900002822000026744035807532024035245b0000000022c832193103326d803f707f4359000030c9807332f1318f43615007302f25bf809c70754403000032e730e27069339c42ba2669310c702726b532db30c830d741a34309801840e9700e706822ef1139286270803047330c4257278011d240bb80683024
def LOOKUP.c646 : Nat := 0x4357708f33a7707222a17067328541093314425600007068328531a30000708c70717071809c706b27dc709830a23383706a267427022cce32ce30cb3309327b42ff184b80a8704032012ab214088026700f2c5e32e4708f3368192b0000707542a52a837050282a0000327030e2434e808e000031963293707f704d30162ee8328630477088000031f814000000320d8080430a0000805b404f704d70945008335970824257336932e026e128dc31a226df31a3807e7088326421ac18fd4278708f3204705e329131ef30d70000335d27ce301743f5330a2a7880812e02807f43d126db211c80a6434e805a33a80000403c709926544269707e708d27a2
def LOOKUP.c647 : Nat := 0x20c4328680a50000331880a931b0709a0000708c326f42c64358708e0000282c33a2406b807470657099500823e93300300b330b26f53084431570900000417c1516282d80744277407231f80000708b808232f2000000003201000080722dc070980000422826a380313351000030e430c043eb32da808a232332e72ee90000804043c423bb00000000809c4040326332d0500242ba706b33a700003038000027c20000324c000041520000331532e62b1b143e000000007051338e29158040321b33187099000070520000318c2a3f31a1709c24e15009808b32f1708a255944032560705e806625783218500a708226b42280324c706c7090335870340000
def LOOKUP.c648 : Nat := 0x281c31a32d9f3300294c24e5709c4313339b270232930000327a33007098000021f426a2321019347078302b2ba332c300004152339933a8000042c7704631eb402343a6709b330c20c5808d30e44150000043a83347000033a7000030e30000709c2ee92ba22b612b57801a000012a4802519210000709b2db521972a7727ea439d24f6802332f431ec2ba3302000002a2d701d25bf421c30c021b8000043ec701f701d184d0000801a0000300725d5233f21ef43623293804341560000328731980000417e434e0000304700008081320f42c443b2436542f5402b33a300003292500970822b6a20ca2c8c70367075808e22a532db33a830d8705070287073
def LOOKUP.c649 : Nat := 0x23bb000000005009321c80810000000070770000000000004120701e000025fc000031500000808b22c7708c0000000030bd705f0000000033152626708c327c701f709000002f1a3144321b3020295827382bad000044012a8330a7000043a7427811a7000080a8707f3098000000003288707f000026f643937083708322bd2353422940340000000000002c950000326432342ba2434e0000000043ca0000434e000030e000002eec704630e82832422831fe700743443195334232945007702931f800000000282232707027314f706b217b709c803e708370600000303a70982092426b2b97000000004049407100000000402d00004227802e3204302f
def LOOKUP.c650 : Nat := 0x7080000080a87060295830487006000030087012705f0000704f706c0000266980402e043100000033900000331732ff12b44047802742c42dc1327b42ff80812def7027708043a622ab4393709b708e338e43fe3382206d4118808e00007084000080814358330a80820000000000007036708b0000320443f7282d31af18fd29430000338341a1403343fe806743a7709000007078000032e5436400008075000030d542292db700002cd80000339a303c32102ccd0000330c4316426c0000000080a8707700002a3f000032f41635707222e88017000070810000801a00003287426b40e23353327b32f2164c800d430a708232e743a870332a4000005009
def LOOKUP.c651 : Nat := 0x330a338300000000000000007076000080990000000000003204000032f243a70000000000002b6a704b0000407a808f308d707841770000321031b0330b80748082000024a700007092336070272a7843a632cf0000000000002cac4365129e000042740000323f000030c9000000002f2e439c32f432ff00002ed90000335e2597800d336c2ccd430a3048709b0000327b000070240000266f23710000000011bc32f3500330c02631708c43fd11d4800a26d5706c321c7054000000002dc12ba33384000018fd7053436440980000270000000000500a336040db000032fe0000274d0000803c7095409680270000808f706b706a00000000705d00000000
def LOOKUP.c652 : Nat := 0x2f2b0000708e7080000023530000807440dc16608027000000002cd7708c70752a8230a80000338126b4300b440030d826da3318000043b2000070270000708f2cd80000803f0000000032702cd900000000708d0000321b0000436430088097000030e3000043a7000030e418c02594000026cf408d000000000000321c00000000434d409a404a0000706b33842eb40000327c0000708b7098705d334244010000327042c6281812b50000331532cc00002a82000030b30000702630e8000043b3337400003204143b000000000000808f0000808d0000408400000000000030480000339a28180000321000002eec2bad33180000706c2bae809800000000
def LOOKUP.c653 : Nat := 0x1932258730473384705000003390700630e42cce00007098179d00007052000031b0000000000000418700000000000000000000000043164228225070652ed83358237280820000000032db705b000000007024439d0000000030d82df933370000000032f2000042770000430a0000339b000030830000328830982d5b00000000335332e7142d000070722cce0000000000002cac4276330b335d70290000436432f42f1a31f70000417c30a3000030d8709b0000000000002ba3294d0000000010a91666800d43167095000000000000808e7054708d2a820000000000002cd800007094702a708a22c52b6a708a7081336800004099000031a4336c
def LOOKUP.c654 : Nat := 0x70290000308e0000000000000000000000000000000032e843e9000000002a82708e8099000000004229000000000000000000000000336b00002a838040294d00000000439d33182e020000000000000000000043ec00000000808e000043b30000000000008082706b000000000000000032f3334e00002ba2000020c500000000000000000000808e32940000000000000000000050012a82000000002cd743b400000000192b000032ef000042c400000000000032f300000000000000000000000070840000000000000000000026da0000000000002de60000500900000000000032e400004313000012aa303c0000000025c10000
def LOOKUP.c655 : Nat := 0x294d00000000000000000000165200001934000000002ded00000000000000000000000033a50000709a18fd0000339b00000000000000001636800d7078000070962eb40000708c0000000080a90000000000002bae000000000000000080682cd9708400000000000000003315000000002eb42de500000000000000000000000032940000000000002bae70784365000000002cc32cb300000000339b2bad3300000000003378709533760000000000002def70542cd8000000000000000000000000000000002b9930cc000043652eb432880000808233a814232eec3318336c0000427700000000000000000000000043b2708c00000000
def LOOKUP.c656 : Nat := 0x500a00000000000000000000000000000000000000000000000000000000000040490000000000000000000000002ed900002cce25d20000809c00000000000000000000809c0000282100000000000070600000000000000000702e309c2a832bad0000336a2f2d00000000000000003317000000002f0200002478000000000000000000000000417a000000000000403f000043b22eeb327c000000002e030000000000003318000000000000000000000000294d000000000000808f0000336b0000000033000000000043a88034809a000000000000000000000000225100004278000000000000000000003390000000002cd8708d
def LOOKUP.c657 : Nat := 0x43a8000000000000000000004136000000000000000043f7000000000000000031b000000000330c5001000000000000000000000000000000003347000000000000000043a80000331533902a822f2e00000000000000000000000000000000000000000000000043632eb2000033a5000000000000234e70980000000000000000439c0000336b00000000000000000000000000000000000000002eec000043f4500a33152cc433992df9707d707880680000000000000000000033810000000000000000701b000000000000708c0000000000000000339b0000000000000000000033a53399000000000000000032e80000000000000000000033840000
def LOOKUP.c658 : Nat := 0x8098164b0000000018f40000000000002df90000000000000000339c337843d90000000033180000000000000000000000000000000070600000807526d50000336c00002f230000000000000000000070060000000000000000707f0000705f0000000000000000000000000000000000000000000000000000000000000000338f700100002f1a32e8708f000000000000282d0000000033170000000000000000707e0000336c0000706c3378327c00002a8100007081000043b32f2e000033a7809c000070890000000000002eca00000000166100000000000000000000000000002dd70000000043b10000330c0000000018fd0000703b000000000000
def LOOKUP.c659 : Nat := 0x306c0000000000000000709800000000809b000000000000436543b40000000000000000338342290000809c000000002f23295700000000000000000000336b000030300000000000000000000000007084000000007097000000003383000000000000000000000000000000000000000000002228339c0000000000000000000000000000000000002bae000033a8000070990000000000002df900007099000000000000000000000000000000002e03000000000000000000000000000000002bac0000327c2bac00000000000000000000338d0000000000000000000000000000000000000000000000000000338e702400000000
def LOOKUP.c660 : Nat := 0x70980000000000000000000033812f2f00004316000043f700000000000000000000000000000000000000000000708f2f2400000000000000002eca0000000000000000000000000000000000000000000070980000000000000000000000003382000000002df9000000002f2f00000000000000000000000000000000000000000000000000000000000000000000000000000000000000000000000000000000000043fe00007078000000000000248c0000000033a800000000000000000000000000000000337700000000000000000000000000000000330c0000000000000000000000000000000000000000000000000000000000002a8200000000
def LOOKUP.c661 : Nat := 0x33a80000338b00000000000000000000000000000000000033830000000032f400000000338d000000007060000000000000000000000000709b000000000000000000000000000000000000000000000000000000000000000000000000000000000000000000000000000000000000000000000000000000000000000000000000000000000000000000000000000000000000000000000000000000000000000000000000000000000000000000000000000000000000339c00003381000000000000000000000000000000000000000000000000000000007054000070540000000043f70000000000000000000000000000000000000000000000003376
def LOOKUP.c662 : Nat := 0x709b0000000000000000000000000000000000000000000018770000000000000000000000000000000000000000000000000000337700000000000000000000000000000000000033a700000000000000000000000000000000000000000000000000000000000000000000339c000000000000000000000000000033a80000000000002eeb00000000000000000000000000000000000000000000000000000000000026c32f2d0000000000000000000000007060000000000000000000000000000000000000000000000000000000000000000070970000000000003376000043f700000000000000000000000000000000
def LOOKUP.c663 : Nat := 0x70840000000000000000000000000000000043b3000000000000336b4401000000007098000000000000000000000000000043b100000000000033a8000000000000000043f70000000000007060000000002f1a00002f22000000000000000000000000000070900000338d00000000000000000000000000000000338d0000000000000000000033a6000000000000339c00000000000000000000000000000000000000000000000000000000000000000000000000002f2300000000000000002e0400007099000000000000000000000000000043b300000000000000000000000043f6000000000000000000000000000000000000000000000000
def LOOKUP.c664 : Nat := 0x7097705400000000000000000000000000000000000000000000000000000000000000000000339000000000000000000000000000000000000043ec2f2f0000000000000000339c00000000000000000000000000000000000000000000000000000000000000000000000000000000000000003399000000000000000000000000000000000000000043b400000000000000000000000000000000000000000000000000000000000000000000000000000000338e000000000000000000000000000000002f2f0000000033a7000043f7000043d9000000000000000000000000000000000000000000000000000000000000000000000000
def LOOKUP.c665 : Nat := 0x2f230000000000000000000000000000000000000000000000007096000043f40000000000000000000000000000336c00000000000043e2000000000000000000000000000000000000000000000000000000000000000044010000000070970000000000000000000043ca000000000000000000000000000043f60000000000000000000000000000000000000000000000000000000000000000000000000000000000000000000000000000000000000000000000000000000000000000000000000000000000000000000043b4000000000000000000002eec2e020000000000000000000000000000000000000000000000000000
def LOOKUP.c666 : Nat := 0x7098000000000000000000000000000000000000000000000000000000000000000000000000000033a700000000000000003384000000000000000000000000000000000000000033a6000000000000809c0000000000000000000000000000000000000000000000000000000000000000000000000000000000000000000000000000000000000000000000000000000000000000000000000000000000000000000000002f2b000000000000000000000000000000000000335400000000000000000000000000000000000000000000000000000000000033780000000070900000000000002f110000
def LOOKUP.c667 : Nat := 0x33a50000000000000000000000000000000000000000000000000000000000000000000000000000000000000000000000000000000000000000000000000000000000000000000000000000000000000000000000000000000000000000000000000000000000000000000000000000000000000000000000000000000043ec0000000000000000000000000000000000000000000000000000000000000000000000000000000000000000000000000000000000000000000000000000000000000000709000000000000000000000000000000000000070970000000000000000000000000000000000000000
def LOOKUP.c668 : Nat := 0x33840000000000000000000000000000000043ec00000000000000000000000000000000000000000000000033a800000000000000000000000000000000000000000000000000000000000000000000000000000000000000000000000000000000000000000000000000000000000000000000000000000000000000000000000000000000000000000000000043ec000000000000000000003390000000000000000000000000000000000000000000000000000000000000000000000000000000000000000000000000000000000000000000000000000000000000000000000000
def LOOKUP.c669 : Nat := 0x33a70000000043f3809c00000000000000000000000000000000000000000000000000000000709800000000000000000000000033a80000000000000000000000000000000000000000
def LOOKUP.c670 : Nat := 0x43ec000000000000709800000000000000000000000000000000000000000000000000000000000000000000000000000000000033a7000000000000000000000000000000000000000000000000708400000000000000000000000000000000000033a70000000000000000000000000000000000000000000000000000000000000000000000000000000000000000709700000000000000000000000000000000000000000000000000000000000000000000000000000000000000000000000000000000000000000000000000000000000000000000000000000000000000000000000000000000000000000000
def LOOKUP.c671 : Nat := 0x43f200000000000000000000000043e200000000000000000000000000000000000000000000000000000000000000000000000000000000000070950000000000000000000000000000000000000000000000000000000000004400000000000000000000000000000000000000000000000000809c00000000000000000000000000000000000000000000000000000000000000000000000000000000000000000000000000000000000000000000000000000000000000000000000000000000000000000000000000000000000000007090709900000000000000000000
def LOOKUP.c672 : Nat := 0x44010000000033a500000000000000000000000000000000000000000000000000000000000000000000000000004401000000000000000000000000000000000000000000000000000000000000000070980000000000000000000000000000000000000000000000000000000000000000000000000000000000000000000000000000000000000000000000000000000000000000000043f600000000000000000000000000000000000000000000000000000000000000000000000000000000000000000000000000000000000000000000000000000000000000000000000000000000000000000000
def LOOKUP.c673 : Nat := 0x0
def LOOKUP.c674 : Nat := 0x7097000000000000000000000000000000000000000000000000000000000000000000000000000000000000000000000000000000000000000000000000000000000000000000000000000000000000000000000000000000000000000000000000000000000000000000000000000000000000000000000000709b0000000000000000000000000000000000000000000000000000000000000000000000000000000000000000000000000000000000000000
/-- src/lookup.rs:1-5788, `LOOKUP`, 86362 entries of 16 bits -/
def LOOKUP : PackedArray :=
  { len := 86362, bits := 16, logPer := 7, chunks := (.node 337 (.node 168 (.node 84 (.node 42 (.node 21 (.node 10 (.node 5 (.node 2 (.node 1 (.leaf LOOKUP.c0) (.leaf LOOKUP.c1)) (.node 3 (.leaf LOOKUP.c2) (.node 4 (.leaf LOOKUP.c3) (.leaf LOOKUP.c4)))) (.node 7 (.node 6 (.leaf LOOKUP.c5) (.leaf LOOKUP.c6)) (.node 8 (.leaf LOOKUP.c7) (.node 9 (.leaf LOOKUP.c8) (.leaf LOOKUP.c9))))) (.node 15 (.node 12 (.node 11 (.leaf LOOKUP.c10) (.leaf LOOKUP.c11)) (.node 13 (.leaf LOOKUP.c12) (.node 14 (.leaf LOOKUP.c13) (.leaf LOOKUP.c14)))) (.node 18 (.node 16 (.leaf LOOKUP.c15) (.node 17 (.leaf LOOKUP.c16) (.leaf LOOKUP.c17))) (.node 19 (.leaf LOOKUP.c18) (.node 20 (.leaf LOOKUP.c19) (.leaf LOOKUP.c20)))))) (.node 31 (.node 26 (.node 23 (.node 22 (.leaf LOOKUP.c21) (.leaf LOOKUP.c22)) (.node 24 (.leaf LOOKUP.c23) (.node 25 (.leaf LOOKUP.c24) (.leaf LOOKUP.c25)))) (.node 28 (.node 27 (.leaf LOOKUP.c26) (.leaf LOOKUP.c27)) (.node 29 (.leaf LOOKUP.c28) (.node 30 (.leaf LOOKUP.c29) (.leaf LOOKUP.c30))))) (.node 36 (.node 33 (.node 32 (.leaf LOOKUP.c31) (.leaf LOOKUP.c32)) (.node 34 (.leaf LOOKUP.c33) (.node 35 (.leaf LOOKUP.c34) (.leaf LOOKUP.c35)))) (.node 39 (.node 37 (.leaf LOOKUP.c36) (.node 38 (.leaf LOOKUP.c37) (.leaf LOOKUP.c38))) (.node 40 (.leaf LOOKUP.c39) (.node 41 (.leaf LOOKUP.c40) (.leaf LOOKUP.c41))))))) (.node 63 (.node 52 (.node 47 (.node 44 (.node 43 (.leaf LOOKUP.c42) (.leaf LOOKUP.c43)) (.node 45 (.leaf LOOKUP.c44) (.node 46 (.leaf LOOKUP.c45) (.leaf LOOKUP.c46)))) (.node 49 (.node 48 (.leaf LOOKUP.c47) (.leaf LOOKUP.c48)) (.node 50 (.leaf LOOKUP.c49) (.node 51 (.leaf LOOKUP.c50) (.leaf LOOKUP.c51))))) (.node 57 (.node 54 (.node 53 (.leaf LOOKUP.c52) (.leaf LOOKUP.c53)) (.node 55 (.leaf LOOKUP.c54) (.node 56 (.leaf LOOKUP.c55) (.leaf LOOKUP.c56)))) (.node 60 (.node 58 (.leaf LOOKUP.c57) (.node 59 (.leaf LOOKUP.c58) (.leaf LOOKUP.c59))) (.node 61 (.leaf LOOKUP.c60) (.node 62 (.leaf LOOKUP.c61) (.leaf LOOKUP.c62)))))) (.node 73 (.node 68 (.node 65 (.node 64 (.leaf LOOKUP.c63) (.leaf LOOKUP.c64)) (.node 66 (.leaf LOOKUP.c65) (.node 67 (.leaf LOOKUP.c66) (.leaf LOOKUP.c67)))) (.node 70 (.node 69 (.leaf LOOKUP.c68) (.leaf LOOKUP.c69)) (.node 71 (.leaf LOOKUP.c70) (.node 72 (.leaf LOOKUP.c71) (.leaf LOOKUP.c72))))) (.node 78 (.node 75 (.node 74 (.leaf LOOKUP.c73) (.leaf LOOKUP.c74)) (.node 76 (.leaf LOOKUP.c75) (.node 77 (.leaf LOOKUP.c76) (.leaf LOOKUP.c77)))) (.node 81 (.node 79 (.leaf LOOKUP.c78) (.node 80 (.leaf LOOKUP.c79) (.leaf LOOKUP.c80))) (.node 82 (.leaf LOOKUP.c81) (.node 83 (.leaf LOOKUP.c82) (.leaf LOOKUP.c83)))))))) (.node 126 (.node 105 (.node 94 (.node 89 (.node 86 (.node 85 (.leaf LOOKUP.c84) (.leaf LOOKUP.c85)) (.node 87 (.leaf LOOKUP.c86) (.node 88 (.leaf LOOKUP.c87) (.leaf LOOKUP.c88)))) (.node 91 (.node 90 (.leaf LOOKUP.c89) (.leaf LOOKUP.c90)) (.node 92 (.leaf LOOKUP.c91) (.node 93 (.leaf LOOKUP.c92) (.leaf LOOKUP.c93))))) (.node 99 (.node 96 (.node 95 (.leaf LOOKUP.c94) (.leaf LOOKUP.c95)) (.node 97 (.leaf LOOKUP.c96) (.node 98 (.leaf LOOKUP.c97) (.leaf LOOKUP.c98)))) (.node 102 (.node 100 (.leaf LOOKUP.c99) (.node 101 (.leaf LOOKUP.c100) (.leaf LOOKUP.c101))) (.node 103 (.leaf LOOKUP.c102) (.node 104 (.leaf LOOKUP.c103) (.leaf LOOKUP.c104)))))) (.node 115 (.node 110 (.node 107 (.node 106 (.leaf LOOKUP.c105) (.leaf LOOKUP.c106)) (.node 108 (.leaf LOOKUP.c107) (.node 109 (.leaf LOOKUP.c108) (.leaf LOOKUP.c109)))) (.node 112 (.node 111 (.leaf LOOKUP.c110) (.leaf LOOKUP.c111)) (.node 113 (.leaf LOOKUP.c112) (.node 114 (.leaf LOOKUP.c113) (.leaf LOOKUP.c114))))) (.node 120 (.node 117 (.node 116 (.leaf LOOKUP.c115) (.leaf LOOKUP.c116)) (.node 118 (.leaf LOOKUP.c117) (.node 119 (.leaf LOOKUP.c118) (.leaf LOOKUP.c119)))) (.node 123 (.node 121 (.leaf LOOKUP.c120) (.node 122 (.leaf LOOKUP.c121) (.leaf LOOKUP.c122))) (.node 124 (.leaf LOOKUP.c123) (.node 125 (.leaf LOOKUP.c124) (.leaf LOOKUP.c125))))))) (.node 147 (.node 136 (.node 131 (.node 128 (.node 127 (.leaf LOOKUP.c126) (.leaf LOOKUP.c127)) (.node 129 (.leaf LOOKUP.c128) (.node 130 (.leaf LOOKUP.c129) (.leaf LOOKUP.c130)))) (.node 133 (.node 132 (.leaf LOOKUP.c131) (.leaf LOOKUP.c132)) (.node 134 (.leaf LOOKUP.c133) (.node 135 (.leaf LOOKUP.c134) (.leaf LOOKUP.c135))))) (.node 141 (.node 138 (.node 137 (.leaf LOOKUP.c136) (.leaf LOOKUP.c137)) (.node 139 (.leaf LOOKUP.c138) (.node 140 (.leaf LOOKUP.c139) (.leaf LOOKUP.c140)))) (.node 144 (.node 142 (.leaf LOOKUP.c141) (.node 143 (.leaf LOOKUP.c142) (.leaf LOOKUP.c143))) (.node 145 (.leaf LOOKUP.c144) (.node 146 (.leaf LOOKUP.c145) (.leaf LOOKUP.c146)))))) (.node 157 (.node 152 (.node 149 (.node 148 (.leaf LOOKUP.c147) (.leaf LOOKUP.c148)) (.node 150 (.leaf LOOKUP.c149) (.node 151 (.leaf LOOKUP.c150) (.leaf LOOKUP.c151)))) (.node 154 (.node 153 (.leaf LOOKUP.c152) (.leaf LOOKUP.c153)) (.node 155 (.leaf LOOKUP.c154) (.node 156 (.leaf LOOKUP.c155) (.leaf LOOKUP.c156))))) (.node 162 (.node 159 (.node 158 (.leaf LOOKUP.c157) (.leaf LOOKUP.c158)) (.node 160 (.leaf LOOKUP.c159) (.node 161 (.leaf LOOKUP.c160) (.leaf LOOKUP.c161)))) (.node 165 (.node 163 (.leaf LOOKUP.c162) (.node 164 (.leaf LOOKUP.c163) (.leaf LOOKUP.c164))) (.node 166 (.leaf LOOKUP.c165) (.node 167 (.leaf LOOKUP.c166) (.leaf LOOKUP.c167))))))))) (.node 252 (.node 210 (.node 189 (.node 178 (.node 173 (.node 170 (.node 169 (.leaf LOOKUP.c168) (.leaf LOOKUP.c169)) (.node 171 (.leaf LOOKUP.c170) (.node 172 (.leaf LOOKUP.c171) (.leaf LOOKUP.c172)))) (.node 175 (.node 174 (.leaf LOOKUP.c173) (.leaf LOOKUP.c174)) (.node 176 (.leaf LOOKUP.c175) (.node 177 (.leaf LOOKUP.c176) (.leaf LOOKUP.c177))))) (.node 183 (.node 180 (.node 179 (.leaf LOOKUP.c178) (.leaf LOOKUP.c179)) (.node 181 (.leaf LOOKUP.c180) (.node 182 (.leaf LOOKUP.c181) (.leaf LOOKUP.c182)))) (.node 186 (.node 184 (.leaf LOOKUP.c183) (.node 185 (.leaf LOOKUP.c184) (.leaf LOOKUP.c185))) (.node 187 (.leaf LOOKUP.c186) (.node 188 (.leaf LOOKUP.c187) (.leaf LOOKUP.c188)))))) (.node 199 (.node 194 (.node 191 (.node 190 (.leaf LOOKUP.c189) (.leaf LOOKUP.c190)) (.node 192 (.leaf LOOKUP.c191) (.node 193 (.leaf LOOKUP.c192) (.leaf LOOKUP.c193)))) (.node 196 (.node 195 (.leaf LOOKUP.c194) (.leaf LOOKUP.c195)) (.node 197 (.leaf LOOKUP.c196) (.node 198 (.leaf LOOKUP.c197) (.leaf LOOKUP.c198))))) (.node 204 (.node 201 (.node 200 (.leaf LOOKUP.c199) (.leaf LOOKUP.c200)) (.node 202 (.leaf LOOKUP.c201) (.node 203 (.leaf LOOKUP.c202) (.leaf LOOKUP.c203)))) (.node 207 (.node 205 (.leaf LOOKUP.c204) (.node 206 (.leaf LOOKUP.c205) (.leaf LOOKUP.c206))) (.node 208 (.leaf LOOKUP.c207) (.node 209 (.leaf LOOKUP.c208) (.leaf LOOKUP.c209))))))) (.node 231 (.node 220 (.node 215 (.node 212 (.node 211 (.leaf LOOKUP.c210) (.leaf LOOKUP.c211)) (.node 213 (.leaf LOOKUP.c212) (.node 214 (.leaf LOOKUP.c213) (.leaf LOOKUP.c214)))) (.node 217 (.node 216 (.leaf LOOKUP.c215) (.leaf LOOKUP.c216)) (.node 218 (.leaf LOOKUP.c217) (.node 219 (.leaf LOOKUP.c218) (.leaf LOOKUP.c219))))) (.node 225 (.node 222 (.node 221 (.leaf LOOKUP.c220) (.leaf LOOKUP.c221)) (.node 223 (.leaf LOOKUP.c222) (.node 224 (.leaf LOOKUP.c223) (.leaf LOOKUP.c224)))) (.node 228 (.node 226 (.leaf LOOKUP.c225) (.node 227 (.leaf LOOKUP.c226) (.leaf LOOKUP.c227))) (.node 229 (.leaf LOOKUP.c228) (.node 230 (.leaf LOOKUP.c229) (.leaf LOOKUP.c230)))))) (.node 241 (.node 236 (.node 233 (.node 232 (.leaf LOOKUP.c231) (.leaf LOOKUP.c232)) (.node 234 (.leaf LOOKUP.c233) (.node 235 (.leaf LOOKUP.c234) (.leaf LOOKUP.c235)))) (.node 238 (.node 237 (.leaf LOOKUP.c236) (.leaf LOOKUP.c237)) (.node 239 (.leaf LOOKUP.c238) (.node 240 (.leaf LOOKUP.c239) (.leaf LOOKUP.c240))))) (.node 246 (.node 243 (.node 242 (.leaf LOOKUP.c241) (.leaf LOOKUP.c242)) (.node 244 (.leaf LOOKUP.c243) (.node 245 (.leaf LOOKUP.c244) (.leaf LOOKUP.c245)))) (.node 249 (.node 247 (.leaf LOOKUP.c246) (.node 248 (.leaf LOOKUP.c247) (.leaf LOOKUP.c248))) (.node 250 (.leaf LOOKUP.c249) (.node 251 (.leaf LOOKUP.c250) (.leaf LOOKUP.c251)))))))) (.node 294 (.node 273 (.node 262 (.node 257 (.node 254 (.node 253 (.leaf LOOKUP.c252) (.leaf LOOKUP.c253)) (.node 255 (.leaf LOOKUP.c254) (.node 256 (.leaf LOOKUP.c255) (.leaf LOOKUP.c256)))) (.node 259 (.node 258 (.leaf LOOKUP.c257) (.leaf LOOKUP.c258)) (.node 260 (.leaf LOOKUP.c259) (.node 261 (.leaf LOOKUP.c260) (.leaf LOOKUP.c261))))) (.node 267 (.node 264 (.node 263 (.leaf LOOKUP.c262) (.leaf LOOKUP.c263)) (.node 265 (.leaf LOOKUP.c264) (.node 266 (.leaf LOOKUP.c265) (.leaf LOOKUP.c266)))) (.node 270 (.node 268 (.leaf LOOKUP.c267) (.node 269 (.leaf LOOKUP.c268) (.leaf LOOKUP.c269))) (.node 271 (.leaf LOOKUP.c270) (.node 272 (.leaf LOOKUP.c271) (.leaf LOOKUP.c272)))))) (.node 283 (.node 278 (.node 275 (.node 274 (.leaf LOOKUP.c273) (.leaf LOOKUP.c274)) (.node 276 (.leaf LOOKUP.c275) (.node 277 (.leaf LOOKUP.c276) (.leaf LOOKUP.c277)))) (.node 280 (.node 279 (.leaf LOOKUP.c278) (.leaf LOOKUP.c279)) (.node 281 (.leaf LOOKUP.c280) (.node 282 (.leaf LOOKUP.c281) (.leaf LOOKUP.c282))))) (.node 288 (.node 285 (.node 284 (.leaf LOOKUP.c283) (.leaf LOOKUP.c284)) (.node 286 (.leaf LOOKUP.c285) (.node 287 (.leaf LOOKUP.c286) (.leaf LOOKUP.c287)))) (.node 291 (.node 289 (.leaf LOOKUP.c288) (.node 290 (.leaf LOOKUP.c289) (.leaf LOOKUP.c290))) (.node 292 (.leaf LOOKUP.c291) (.node 293 (.leaf LOOKUP.c292) (.leaf LOOKUP.c293))))))) (.node 315 (.node 304 (.node 299 (.node 296 (.node 295 (.leaf LOOKUP.c294) (.leaf LOOKUP.c295)) (.node 297 (.leaf LOOKUP.c296) (.node 298 (.leaf LOOKUP.c297) (.leaf LOOKUP.c298)))) (.node 301 (.node 300 (.leaf LOOKUP.c299) (.leaf LOOKUP.c300)) (.node 302 (.leaf LOOKUP.c301) (.node 303 (.leaf LOOKUP.c302) (.leaf LOOKUP.c303))))) (.node 309 (.node 306 (.node 305 (.leaf LOOKUP.c304) (.leaf LOOKUP.c305)) (.node 307 (.leaf LOOKUP.c306) (.node 308 (.leaf LOOKUP.c307) (.leaf LOOKUP.c308)))) (.node 312 (.node 310 (.leaf LOOKUP.c309) (.node 311 (.leaf LOOKUP.c310) (.leaf LOOKUP.c311))) (.node 313 (.leaf LOOKUP.c312) (.node 314 (.leaf LOOKUP.c313) (.leaf LOOKUP.c314)))))) (.node 326 (.node 320 (.node 317 (.node 316 (.leaf LOOKUP.c315) (.leaf LOOKUP.c316)) (.node 318 (.leaf LOOKUP.c317) (.node 319 (.leaf LOOKUP.c318) (.leaf LOOKUP.c319)))) (.node 323 (.node 321 (.leaf LOOKUP.c320) (.node 322 (.leaf LOOKUP.c321) (.leaf LOOKUP.c322))) (.node 324 (.leaf LOOKUP.c323) (.node 325 (.leaf LOOKUP.c324) (.leaf LOOKUP.c325))))) (.node 331 (.node 328 (.node 327 (.leaf LOOKUP.c326) (.leaf LOOKUP.c327)) (.node 329 (.leaf LOOKUP.c328) (.node 330 (.leaf LOOKUP.c329) (.leaf LOOKUP.c330)))) (.node 334 (.node 332 (.leaf LOOKUP.c331) (.node 333 (.leaf LOOKUP.c332) (.leaf LOOKUP.c333))) (.node 335 (.leaf LOOKUP.c334) (.node 336 (.leaf LOOKUP.c335) (.leaf LOOKUP.c336)))))))))) (.node 506 (.node 421 (.node 379 (.node 358 (.node 347 (.node 342 (.node 339 (.node 338 (.leaf LOOKUP.c337) (.leaf LOOKUP.c338)) (.node 340 (.leaf LOOKUP.c339) (.node 341 (.leaf LOOKUP.c340) (.leaf LOOKUP.c341)))) (.node 344 (.node 343 (.leaf LOOKUP.c342) (.leaf LOOKUP.c343)) (.node 345 (.leaf LOOKUP.c344) (.node 346 (.leaf LOOKUP.c345) (.leaf LOOKUP.c346))))) (.node 352 (.node 349 (.node 348 (.leaf LOOKUP.c347) (.leaf LOOKUP.c348)) (.node 350 (.leaf LOOKUP.c349) (.node 351 (.leaf LOOKUP.c350) (.leaf LOOKUP.c351)))) (.node 355 (.node 353 (.leaf LOOKUP.c352) (.node 354 (.leaf LOOKUP.c353) (.leaf LOOKUP.c354))) (.node 356 (.leaf LOOKUP.c355) (.node 357 (.leaf LOOKUP.c356) (.leaf LOOKUP.c357)))))) (.node 368 (.node 363 (.node 360 (.node 359 (.leaf LOOKUP.c358) (.leaf LOOKUP.c359)) (.node 361 (.leaf LOOKUP.c360) (.node 362 (.leaf LOOKUP.c361) (.leaf LOOKUP.c362)))) (.node 365 (.node 364 (.leaf LOOKUP.c363) (.leaf LOOKUP.c364)) (.node 366 (.leaf LOOKUP.c365) (.node 367 (.leaf LOOKUP.c366) (.leaf LOOKUP.c367))))) (.node 373 (.node 370 (.node 369 (.leaf LOOKUP.c368) (.leaf LOOKUP.c369)) (.node 371 (.leaf LOOKUP.c370) (.node 372 (.leaf LOOKUP.c371) (.leaf LOOKUP.c372)))) (.node 376 (.node 374 (.leaf LOOKUP.c373) (.node 375 (.leaf LOOKUP.c374) (.leaf LOOKUP.c375))) (.node 377 (.leaf LOOKUP.c376) (.node 378 (.leaf LOOKUP.c377) (.leaf LOOKUP.c378))))))) (.node 400 (.node 389 (.node 384 (.node 381 (.node 380 (.leaf LOOKUP.c379) (.leaf LOOKUP.c380)) (.node 382 (.leaf LOOKUP.c381) (.node 383 (.leaf LOOKUP.c382) (.leaf LOOKUP.c383)))) (.node 386 (.node 385 (.leaf LOOKUP.c384) (.leaf LOOKUP.c385)) (.node 387 (.leaf LOOKUP.c386) (.node 388 (.leaf LOOKUP.c387) (.leaf LOOKUP.c388))))) (.node 394 (.node 391 (.node 390 (.leaf LOOKUP.c389) (.leaf LOOKUP.c390)) (.node 392 (.leaf LOOKUP.c391) (.node 393 (.leaf LOOKUP.c392) (.leaf LOOKUP.c393)))) (.node 397 (.node 395 (.leaf LOOKUP.c394) (.node 396 (.leaf LOOKUP.c395) (.leaf LOOKUP.c396))) (.node 398 (.leaf LOOKUP.c397) (.node 399 (.leaf LOOKUP.c398) (.leaf LOOKUP.c399)))))) (.node 410 (.node 405 (.node 402 (.node 401 (.leaf LOOKUP.c400) (.leaf LOOKUP.c401)) (.node 403 (.leaf LOOKUP.c402) (.node 404 (.leaf LOOKUP.c403) (.leaf LOOKUP.c404)))) (.node 407 (.node 406 (.leaf LOOKUP.c405) (.leaf LOOKUP.c406)) (.node 408 (.leaf LOOKUP.c407) (.node 409 (.leaf LOOKUP.c408) (.leaf LOOKUP.c409))))) (.node 415 (.node 412 (.node 411 (.leaf LOOKUP.c410) (.leaf LOOKUP.c411)) (.node 413 (.leaf LOOKUP.c412) (.node 414 (.leaf LOOKUP.c413) (.leaf LOOKUP.c414)))) (.node 418 (.node 416 (.leaf LOOKUP.c415) (.node 417 (.leaf LOOKUP.c416) (.leaf LOOKUP.c417))) (.node 419 (.leaf LOOKUP.c418) (.node 420 (.leaf LOOKUP.c419) (.leaf LOOKUP.c420)))))))) (.node 463 (.node 442 (.node 431 (.node 426 (.node 423 (.node 422 (.leaf LOOKUP.c421) (.leaf LOOKUP.c422)) (.node 424 (.leaf LOOKUP.c423) (.node 425 (.leaf LOOKUP.c424) (.leaf LOOKUP.c425)))) (.node 428 (.node 427 (.leaf LOOKUP.c426) (.leaf LOOKUP.c427)) (.node 429 (.leaf LOOKUP.c428) (.node 430 (.leaf LOOKUP.c429) (.leaf LOOKUP.c430))))) (.node 436 (.node 433 (.node 432 (.leaf LOOKUP.c431) (.leaf LOOKUP.c432)) (.node 434 (.leaf LOOKUP.c433) (.node 435 (.leaf LOOKUP.c434) (.leaf LOOKUP.c435)))) (.node 439 (.node 437 (.leaf LOOKUP.c436) (.node 438 (.leaf LOOKUP.c437) (.leaf LOOKUP.c438))) (.node 440 (.leaf LOOKUP.c439) (.node 441 (.leaf LOOKUP.c440) (.leaf LOOKUP.c441)))))) (.node 452 (.node 447 (.node 444 (.node 443 (.leaf LOOKUP.c442) (.leaf LOOKUP.c443)) (.node 445 (.leaf LOOKUP.c444) (.node 446 (.leaf LOOKUP.c445) (.leaf LOOKUP.c446)))) (.node 449 (.node 448 (.leaf LOOKUP.c447) (.leaf LOOKUP.c448)) (.node 450 (.leaf LOOKUP.c449) (.node 451 (.leaf LOOKUP.c450) (.leaf LOOKUP.c451))))) (.node 457 (.node 454 (.node 453 (.leaf LOOKUP.c452) (.leaf LOOKUP.c453)) (.node 455 (.leaf LOOKUP.c454) (.node 456 (.leaf LOOKUP.c455) (.leaf LOOKUP.c456)))) (.node 460 (.node 458 (.leaf LOOKUP.c457) (.node 459 (.leaf LOOKUP.c458) (.leaf LOOKUP.c459))) (.node 461 (.leaf LOOKUP.c460) (.node 462 (.leaf LOOKUP.c461) (.leaf LOOKUP.c462))))))) (.node 484 (.node 473 (.node 468 (.node 465 (.node 464 (.leaf LOOKUP.c463) (.leaf LOOKUP.c464)) (.node 466 (.leaf LOOKUP.c465) (.node 467 (.leaf LOOKUP.c466) (.leaf LOOKUP.c467)))) (.node 470 (.node 469 (.leaf LOOKUP.c468) (.leaf LOOKUP.c469)) (.node 471 (.leaf LOOKUP.c470) (.node 472 (.leaf LOOKUP.c471) (.leaf LOOKUP.c472))))) (.node 478 (.node 475 (.node 474 (.leaf LOOKUP.c473) (.leaf LOOKUP.c474)) (.node 476 (.leaf LOOKUP.c475) (.node 477 (.leaf LOOKUP.c476) (.leaf LOOKUP.c477)))) (.node 481 (.node 479 (.leaf LOOKUP.c478) (.node 480 (.leaf LOOKUP.c479) (.leaf LOOKUP.c480))) (.node 482 (.leaf LOOKUP.c481) (.node 483 (.leaf LOOKUP.c482) (.leaf LOOKUP.c483)))))) (.node 495 (.node 489 (.node 486 (.node 485 (.leaf LOOKUP.c484) (.leaf LOOKUP.c485)) (.node 487 (.leaf LOOKUP.c486) (.node 488 (.leaf LOOKUP.c487) (.leaf LOOKUP.c488)))) (.node 492 (.node 490 (.leaf LOOKUP.c489) (.node 491 (.leaf LOOKUP.c490) (.leaf LOOKUP.c491))) (.node 493 (.leaf LOOKUP.c492) (.node 494 (.leaf LOOKUP.c493) (.leaf LOOKUP.c494))))) (.node 500 (.node 497 (.node 496 (.leaf LOOKUP.c495) (.leaf LOOKUP.c496)) (.node 498 (.leaf LOOKUP.c497) (.node 499 (.leaf LOOKUP.c498) (.leaf LOOKUP.c499)))) (.node 503 (.node 501 (.leaf LOOKUP.c500) (.node 502 (.leaf LOOKUP.c501) (.leaf LOOKUP.c502))) (.node 504 (.leaf LOOKUP.c503) (.node 505 (.leaf LOOKUP.c504) (.leaf LOOKUP.c505))))))))) (.node 590 (.node 548 (.node 527 (.node 516 (.node 511 (.node 508 (.node 507 (.leaf LOOKUP.c506) (.leaf LOOKUP.c507)) (.node 509 (.leaf LOOKUP.c508) (.node 510 (.leaf LOOKUP.c509) (.leaf LOOKUP.c510)))) (.node 513 (.node 512 (.leaf LOOKUP.c511) (.leaf LOOKUP.c512)) (.node 514 (.leaf LOOKUP.c513) (.node 515 (.leaf LOOKUP.c514) (.leaf LOOKUP.c515))))) (.node 521 (.node 518 (.node 517 (.leaf LOOKUP.c516) (.leaf LOOKUP.c517)) (.node 519 (.leaf LOOKUP.c518) (.node 520 (.leaf LOOKUP.c519) (.leaf LOOKUP.c520)))) (.node 524 (.node 522 (.leaf LOOKUP.c521) (.node 523 (.leaf LOOKUP.c522) (.leaf LOOKUP.c523))) (.node 525 (.leaf LOOKUP.c524) (.node 526 (.leaf LOOKUP.c525) (.leaf LOOKUP.c526)))))) (.node 537 (.node 532 (.node 529 (.node 528 (.leaf LOOKUP.c527) (.leaf LOOKUP.c528)) (.node 530 (.leaf LOOKUP.c529) (.node 531 (.leaf LOOKUP.c530) (.leaf LOOKUP.c531)))) (.node 534 (.node 533 (.leaf LOOKUP.c532) (.leaf LOOKUP.c533)) (.node 535 (.leaf LOOKUP.c534) (.node 536 (.leaf LOOKUP.c535) (.leaf LOOKUP.c536))))) (.node 542 (.node 539 (.node 538 (.leaf LOOKUP.c537) (.leaf LOOKUP.c538)) (.node 540 (.leaf LOOKUP.c539) (.node 541 (.leaf LOOKUP.c540) (.leaf LOOKUP.c541)))) (.node 545 (.node 543 (.leaf LOOKUP.c542) (.node 544 (.leaf LOOKUP.c543) (.leaf LOOKUP.c544))) (.node 546 (.leaf LOOKUP.c545) (.node 547 (.leaf LOOKUP.c546) (.leaf LOOKUP.c547))))))) (.node 569 (.node 558 (.node 553 (.node 550 (.node 549 (.leaf LOOKUP.c548) (.leaf LOOKUP.c549)) (.node 551 (.leaf LOOKUP.c550) (.node 552 (.leaf LOOKUP.c551) (.leaf LOOKUP.c552)))) (.node 555 (.node 554 (.leaf LOOKUP.c553) (.leaf LOOKUP.c554)) (.node 556 (.leaf LOOKUP.c555) (.node 557 (.leaf LOOKUP.c556) (.leaf LOOKUP.c557))))) (.node 563 (.node 560 (.node 559 (.leaf LOOKUP.c558) (.leaf LOOKUP.c559)) (.node 561 (.leaf LOOKUP.c560) (.node 562 (.leaf LOOKUP.c561) (.leaf LOOKUP.c562)))) (.node 566 (.node 564 (.leaf LOOKUP.c563) (.node 565 (.leaf LOOKUP.c564) (.leaf LOOKUP.c565))) (.node 567 (.leaf LOOKUP.c566) (.node 568 (.leaf LOOKUP.c567) (.leaf LOOKUP.c568)))))) (.node 579 (.node 574 (.node 571 (.node 570 (.leaf LOOKUP.c569) (.leaf LOOKUP.c570)) (.node 572 (.leaf LOOKUP.c571) (.node 573 (.leaf LOOKUP.c572) (.leaf LOOKUP.c573)))) (.node 576 (.node 575 (.leaf LOOKUP.c574) (.leaf LOOKUP.c575)) (.node 577 (.leaf LOOKUP.c576) (.node 578 (.leaf LOOKUP.c577) (.leaf LOOKUP.c578))))) (.node 584 (.node 581 (.node 580 (.leaf LOOKUP.c579) (.leaf LOOKUP.c580)) (.node 582 (.leaf LOOKUP.c581) (.node 583 (.leaf LOOKUP.c582) (.leaf LOOKUP.c583)))) (.node 587 (.node 585 (.leaf LOOKUP.c584) (.node 586 (.leaf LOOKUP.c585) (.leaf LOOKUP.c586))) (.node 588 (.leaf LOOKUP.c587) (.node 589 (.leaf LOOKUP.c588) (.leaf LOOKUP.c589)))))))) (.node 632 (.node 611 (.node 600 (.node 595 (.node 592 (.node 591 (.leaf LOOKUP.c590) (.leaf LOOKUP.c591)) (.node 593 (.leaf LOOKUP.c592) (.node 594 (.leaf LOOKUP.c593) (.leaf LOOKUP.c594)))) (.node 597 (.node 596 (.leaf LOOKUP.c595) (.leaf LOOKUP.c596)) (.node 598 (.leaf LOOKUP.c597) (.node 599 (.leaf LOOKUP.c598) (.leaf LOOKUP.c599))))) (.node 605 (.node 602 (.node 601 (.leaf LOOKUP.c600) (.leaf LOOKUP.c601)) (.node 603 (.leaf LOOKUP.c602) (.node 604 (.leaf LOOKUP.c603) (.leaf LOOKUP.c604)))) (.node 608 (.node 606 (.leaf LOOKUP.c605) (.node 607 (.leaf LOOKUP.c606) (.leaf LOOKUP.c607))) (.node 609 (.leaf LOOKUP.c608) (.node 610 (.leaf LOOKUP.c609) (.leaf LOOKUP.c610)))))) (.node 621 (.node 616 (.node 613 (.node 612 (.leaf LOOKUP.c611) (.leaf LOOKUP.c612)) (.node 614 (.leaf LOOKUP.c613) (.node 615 (.leaf LOOKUP.c614) (.leaf LOOKUP.c615)))) (.node 618 (.node 617 (.leaf LOOKUP.c616) (.leaf LOOKUP.c617)) (.node 619 (.leaf LOOKUP.c618) (.node 620 (.leaf LOOKUP.c619) (.leaf LOOKUP.c620))))) (.node 626 (.node 623 (.node 622 (.leaf LOOKUP.c621) (.leaf LOOKUP.c622)) (.node 624 (.leaf LOOKUP.c623) (.node 625 (.leaf LOOKUP.c624) (.leaf LOOKUP.c625)))) (.node 629 (.node 627 (.leaf LOOKUP.c626) (.node 628 (.leaf LOOKUP.c627) (.leaf LOOKUP.c628))) (.node 630 (.leaf LOOKUP.c629) (.node 631 (.leaf LOOKUP.c630) (.leaf LOOKUP.c631))))))) (.node 653 (.node 642 (.node 637 (.node 634 (.node 633 (.leaf LOOKUP.c632) (.leaf LOOKUP.c633)) (.node 635 (.leaf LOOKUP.c634) (.node 636 (.leaf LOOKUP.c635) (.leaf LOOKUP.c636)))) (.node 639 (.node 638 (.leaf LOOKUP.c637) (.leaf LOOKUP.c638)) (.node 640 (.leaf LOOKUP.c639) (.node 641 (.leaf LOOKUP.c640) (.leaf LOOKUP.c641))))) (.node 647 (.node 644 (.node 643 (.leaf LOOKUP.c642) (.leaf LOOKUP.c643)) (.node 645 (.leaf LOOKUP.c644) (.node 646 (.leaf LOOKUP.c645) (.leaf LOOKUP.c646)))) (.node 650 (.node 648 (.leaf LOOKUP.c647) (.node 649 (.leaf LOOKUP.c648) (.leaf LOOKUP.c649))) (.node 651 (.leaf LOOKUP.c650) (.node 652 (.leaf LOOKUP.c651) (.leaf LOOKUP.c652)))))) (.node 664 (.node 658 (.node 655 (.node 654 (.leaf LOOKUP.c653) (.leaf LOOKUP.c654)) (.node 656 (.leaf LOOKUP.c655) (.node 657 (.leaf LOOKUP.c656) (.leaf LOOKUP.c657)))) (.node 661 (.node 659 (.leaf LOOKUP.c658) (.node 660 (.leaf LOOKUP.c659) (.leaf LOOKUP.c660))) (.node 662 (.leaf LOOKUP.c661) (.node 663 (.leaf LOOKUP.c662) (.leaf LOOKUP.c663))))) (.node 669 (.node 666 (.node 665 (.leaf LOOKUP.c664) (.leaf LOOKUP.c665)) (.node 667 (.leaf LOOKUP.c666) (.node 668 (.leaf LOOKUP.c667) (.leaf LOOKUP.c668)))) (.node 672 (.node 670 (.leaf LOOKUP.c669) (.node 671 (.leaf LOOKUP.c670) (.leaf LOOKUP.c671))) (.node 673 (.leaf LOOKUP.c672) (.node 674 (.leaf LOOKUP.c673) (.leaf LOOKUP.c674))))))))))) }

end Pokers
