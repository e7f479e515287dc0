import Verif.Tables.Packed
/-! Generated by tools/gen_tables.py - do not edit. -/
namespace Pokers

def LOOKUP_FLUSH.c0 : Nat := 0x9004900490049004606d606d606c606b606a606a60696068606760666065606460636063606260616060605f605e605d605c605b605a60596058605760566055900260546053605260516050604f604e604d604c604b604a6049604860476046604560446043604260416040603f603e603d603c603b603a6039603860370000900390036036603560346033603260316030602f602e602d602c602b602a6029602860276026602560246023602260216020601f601e601d601c601b601a000090026019601860176016601560146013601260116010600f600e600d600c0000600b600a60096008600760066005000060046003600200006001000000000000
def LOOKUP_FLUSH.c1 : Nat := 0x900590059005900590059005900560ce60ce60ce60ce60cd60cd60cc60cb60ca60ca60ca60ca60c960c960c860c760c660c660c560c460c360c260c160c0900260bf60bf60bf60be60be60bd60bc60bb60bb60ba60b960b860b760b660b560b460b460b360b260b160b060af60ae60ad60ac60ab60aa60a960a860a760a69003900360a560a560a460a460a360a260a160a160a0609f609e609d609c609b609a609a6099609860976096609560946093609260916090608f608e608d608c9002608b608a6089608860876086608560846083608260816080607f607e607d607c607b607a6079607860776076607560746073607260716070606f606e0000
def LOOKUP_FLUSH.c2 : Nat := 0x9004900490046130613061306130612f612f612f612f612e612e612d612c612b612b612b612b612a612a61296128612761276126612561246123612261219002612061206120611f611f611e611d611c611c611b611a61196118611761166115611561146113611261116110610f610e610d610c610b610a61096108610790039003610661066105610561046103610261026101610060ff60fe60fd60fc60fb60fb60fa60f960f860f760f660f560f460f360f260f160f060ef60ee60ed900260ec60eb60ea60e960e860e760e660e560e460e360e260e160e060df60de60dd60dc60db60da60d960d860d760d660d560d460d360d260d160d060cf0000
def LOOKUP_FLUSH.c3 : Nat := 0x90060000900690069006000090069006900690069006900690060000616f616f616f616f616f616f616f616e616e616e616e616d616d616c616b0000616a616a616a616a616a616a616a6169616961696169616861686167616661656165616561656164616461636162616161616160615f615e615d615c615b00009003615a615a615a615a615a615a6159615961596159615861586157615661556155615561556154615461536152615161516150614f614e614d614c614b9002614a614a614a614961496148614761466146614561446143614261416140613f613f613e613d613c613b613a613961386137613661356134613361326131
def LOOKUP_FLUSH.c4 : Nat := 0x90049004900461d161d161d161d161d061d061d061d061cf61cf61ce61cd61cc61cc61cc61cc61cb61cb61ca61c961c861c861c761c661c561c461c361c2900261c161c161c161c061c061bf61be61bd61bd61bc61bb61ba61b961b861b761b661b661b561b461b361b261b161b061af61ae61ad61ac61ab61aa61a961a89003900361a761a761a661a661a561a461a361a361a261a161a0619f619e619d619c619c619b619a6199619861976196619561946193619261916190618f618e9002618d618c618b618a6189618861876186618561846183618261816180617f617e617d617c617b617a61796178617761766175617461736172617161700000
def LOOKUP_FLUSH.c5 : Nat := 0x900500009005900590050000621162116211621162116211621100006210621062106210621062106210620f620f620f620f620e620e620d620c0000620b620b620b620b620b620b620b620a620a620a620a620962096208620762066206620662066205620562046203620262026201620061ff61fe61fd61fc0000900361fb61fb61fb61fb61fb61fb61fa61fa61fa61fa61f961f961f861f761f661f661f661f661f561f561f461f361f261f261f161f061ef61ee61ed61ec900261eb61eb61eb61ea61ea61e961e861e761e761e661e561e461e361e261e161e061e061df61de61dd61dc61db61da61d961d861d761d661d561d461d361d2
def LOOKUP_FLUSH.c6 : Nat := 0x900400006251625162510000625162516251625162516251625100006250625062506250625062506250624f624f624f624f624e624e624d624c0000624b624b624b624b624b624b624b624a624a624a624a6249624962486247624662466246624662456245624462436242624262416240623f623e623d623c00009003623b623b623b623b623b623b623a623a623a623a6239623962386237623662366236623662356235623462336232623262316230622f622e622d622c9002622b622b622b622a622a622962286227622762266225622462236222622162206220621f621e621d621c621b621a62196218621762166215621462136212
def LOOKUP_FLUSH.c7 : Nat := 0x9007000000000000900700009007900790070000000000009007000090079007900700009007900790079007900790079007000000000000626d0000626d626d626d0000626d626d626d626d626d626d626d0000626c626c626c626c626c626c626c626b626b626b626b626a626a6269626800000000000062670000626762676267000062676267626762676267626762670000626662666266626662666266626662656265626562656264626462636262000062616261626162616261626162616260626062606260625f625f625e625d625c625c625c625c625b625b625a625962586258625762566255625462536252
def LOOKUP_FLUSH.c8 : Nat := 0x90049004900462cf62cf62cf62cf62ce62ce62ce62ce62cd62cd62cc62cb62ca62ca62ca62ca62c962c962c862c762c662c662c562c462c362c262c162c0900262bf62bf62bf62be62be62bd62bc62bb62bb62ba62b962b862b762b662b562b462b462b362b262b162b062af62ae62ad62ac62ab62aa62a962a862a762a69003900362a562a562a462a462a362a262a162a162a0629f629e629d629c629b629a629a6299629862976296629562946293629262916290628f628e628d628c9002628b628a6289628862876286628562846283628262816280627f627e627d627c627b627a6279627862776276627562746273627262716270626f626e0000
def LOOKUP_FLUSH.c9 : Nat := 0x900500009005900590050000630f630f630f630f630f630f630f0000630e630e630e630e630e630e630e630d630d630d630d630c630c630b630a0000630963096309630963096309630963086308630863086307630763066305630463046304630463036303630263016300630062ff62fe62fd62fc62fb62fa0000900362f962f962f962f962f962f962f862f862f862f862f762f762f662f562f462f462f462f462f362f362f262f162f062f062ef62ee62ed62ec62eb62ea900262e962e962e962e862e862e762e662e562e562e462e362e262e162e062df62de62de62dd62dc62db62da62d962d862d762d662d562d462d362d262d162d0
def LOOKUP_FLUSH.c10 : Nat := 0x90040000634f634f634f0000634f634f634f634f634f634f634f0000634e634e634e634e634e634e634e634d634d634d634d634c634c634b634a00006349634963496349634963496349634863486348634863476347634663456344634463446344634363436342634163406340633f633e633d633c633b633a00009003633963396339633963396339633863386338633863376337633663356334633463346334633363336332633163306330632f632e632d632c632b632a900263296329632963286328632763266325632563246323632263216320631f631e631e631d631c631b631a6319631863176316631563146313631263116310
def LOOKUP_FLUSH.c11 : Nat := 0x900600000000000090060000900690069006000000000000636c0000636c636c636c0000636c636c636c636c636c636c636c000000000000636b0000636b636b636b0000636b636b636b636b636b636b636b0000636a636a636a636a636a636a636a63696369636963696368636863676366000000000000636500006365636563650000636563656365636563656365636500006364636463646364636463646364636363636363636363626362636163600000635f635f635f635f635f635f635f635e635e635e635e635d635d635c635b635a635a635a635a635963596358635763566356635563546353635263516350
def LOOKUP_FLUSH.c12 : Nat := 0x9004000063ac63ac63ac000063ac63ac63ac63ac63ac63ac63ac000063ab63ab63ab63ab63ab63ab63ab63aa63aa63aa63aa63a963a963a863a7000063a663a663a663a663a663a663a663a563a563a563a563a463a463a363a263a163a163a163a163a063a0639f639e639d639d639c639b639a6399639863970000900363966396639663966396639663956395639563956394639463936392639163916391639163906390638f638e638d638d638c638b638a638963886387900263866386638663856385638463836382638263816380637f637e637d637c637b637b637a6379637863776376637563746373637263716370636f636e636d
def LOOKUP_FLUSH.c13 : Nat := 0x900500000000000063c9000063c963c963c900000000000063c9000063c963c963c9000063c963c963c963c963c963c963c900000000000063c8000063c863c863c8000063c863c863c863c863c863c863c8000063c763c763c763c763c763c763c763c663c663c663c663c563c563c463c300000000000063c2000063c263c263c2000063c263c263c263c263c263c263c2000063c163c163c163c163c163c163c163c063c063c063c063bf63bf63be63bd000063bc63bc63bc63bc63bc63bc63bc63bb63bb63bb63bb63ba63ba63b963b863b763b763b763b763b663b663b563b463b363b363b263b163b063af63ae63ad
def LOOKUP_FLUSH.c14 : Nat := 0x63e600000000000063e6000063e663e663e600000000000063e6000063e663e663e6000063e663e663e663e663e663e663e600000000000063e5000063e563e563e5000063e563e563e563e563e563e563e5000063e463e463e463e463e463e463e463e363e363e363e363e263e263e163e000000000000063df000063df63df63df000063df63df63df63df63df63df63df000063de63de63de63de63de63de63de63dd63dd63dd63dd63dc63dc63db63da000063d963d963d963d963d963d963d963d863d863d863d863d763d763d663d563d463d463d463d463d363d363d263d163d063d063cf63ce63cd63cc63cb63ca
def LOOKUP_FLUSH.c15 : Nat := 0x9008000000000000000000000000000090080000000000009008000090089008900800000000000000000000000000009008000000000000900800009008900890080000000000009008000090089008900800009008900890089008900890089008000000000000000000000000000063ed00000000000063ed000063ed63ed63ed00000000000063ed000063ed63ed63ed000063ed63ed63ed63ed63ed63ed63ed00000000000063ec000063ec63ec63ec000063ec63ec63ec63ec63ec63ec63ec000063eb63eb63eb63eb63eb63eb63eb63ea63ea63ea63ea63e963e963e863e7
def LOOKUP_FLUSH.c16 : Nat := 0x900490049004644f644f644f644f644e644e644e644e644d644d644c644b644a644a644a644a6449644964486447644664466445644464436442644164409002643f643f643f643e643e643d643c643b643b643a64396438643764366435643464346433643264316430642f642e642d642c642b642a642964286427642690039003642564256424642464236422642164216420641f641e641d641c641b641a641a6419641864176416641564146413641264116410640f640e640d640c9002640b640a640964086407640664056404640364026401640063ff63fe63fd63fc63fb63fa63f963f863f763f663f563f463f363f263f163f063ef63ee0000
def LOOKUP_FLUSH.c17 : Nat := 0x900500009005900590050000648f648f648f648f648f648f648f0000648e648e648e648e648e648e648e648d648d648d648d648c648c648b648a00006489648964896489648964896489648864886488648864876487648664856484648464846484648364836482648164806480647f647e647d647c647b647a00009003647964796479647964796479647864786478647864776477647664756474647464746474647364736472647164706470646f646e646d646c646b646a900264696469646964686468646764666465646564646463646264616460645f645e645e645d645c645b645a6459645864576456645564546453645264516450
def LOOKUP_FLUSH.c18 : Nat := 0x9004000064cf64cf64cf000064cf64cf64cf64cf64cf64cf64cf000064ce64ce64ce64ce64ce64ce64ce64cd64cd64cd64cd64cc64cc64cb64ca000064c964c964c964c964c964c964c964c864c864c864c864c764c764c664c564c464c464c464c464c364c364c264c164c064c064bf64be64bd64bc64bb64ba0000900364b964b964b964b964b964b964b864b864b864b864b764b764b664b564b464b464b464b464b364b364b264b164b064b064af64ae64ad64ac64ab64aa900264a964a964a964a864a864a764a664a564a564a464a364a264a164a0649f649e649e649d649c649b649a6499649864976496649564946493649264916490
def LOOKUP_FLUSH.c19 : Nat := 0x90060000000000009006000090069006900600000000000064ec000064ec64ec64ec000064ec64ec64ec64ec64ec64ec64ec00000000000064eb000064eb64eb64eb000064eb64eb64eb64eb64eb64eb64eb000064ea64ea64ea64ea64ea64ea64ea64e964e964e964e964e864e864e764e600000000000064e5000064e564e564e5000064e564e564e564e564e564e564e5000064e464e464e464e464e464e464e464e364e364e364e364e264e264e164e0000064df64df64df64df64df64df64df64de64de64de64de64dd64dd64dc64db64da64da64da64da64d964d964d864d764d664d664d564d464d364d264d164d0
def LOOKUP_FLUSH.c20 : Nat := 0x90040000652c652c652c0000652c652c652c652c652c652c652c0000652b652b652b652b652b652b652b652a652a652a652a65296529652865270000652665266526652665266526652665256525652565256524652465236522652165216521652165206520651f651e651d651d651c651b651a6519651865170000900365166516651665166516651665156515651565156514651465136512651165116511651165106510650f650e650d650d650c650b650a65096508650790026506650665066505650565046503650265026501650064ff64fe64fd64fc64fb64fb64fa64f964f864f764f664f564f464f364f264f164f064ef64ee64ed
def LOOKUP_FLUSH.c21 : Nat := 0x9005000000000000654900006549654965490000000000006549000065496549654900006549654965496549654965496549000000000000654800006548654865480000654865486548654865486548654800006547654765476547654765476547654665466546654665456545654465430000000000006542000065426542654200006542654265426542654265426542000065416541654165416541654165416540654065406540653f653f653e653d0000653c653c653c653c653c653c653c653b653b653b653b653a653a653965386537653765376537653665366535653465336533653265316530652f652e652d
def LOOKUP_FLUSH.c22 : Nat := 0x656600000000000065660000656665666566000000000000656600006566656665660000656665666566656665666566656600000000000065650000656565656565000065656565656565656565656565650000656465646564656465646564656465636563656365636562656265616560000000000000655f0000655f655f655f0000655f655f655f655f655f655f655f0000655e655e655e655e655e655e655e655d655d655d655d655c655c655b655a00006559655965596559655965596559655865586558655865576557655665556554655465546554655365536552655165506550654f654e654d654c654b654a
def LOOKUP_FLUSH.c23 : Nat := 0x900700000000000000000000000000009007000000000000900700009007900790070000000000000000000000000000656e000000000000656e0000656e656e656e000000000000656e0000656e656e656e0000656e656e656e656e656e656e656e0000000000000000000000000000656d000000000000656d0000656d656d656d000000000000656d0000656d656d656d0000656d656d656d656d656d656d656d000000000000656c0000656c656c656c0000656c656c656c656c656c656c656c0000656b656b656b656b656b656b656b656a656a656a656a6569656965686567
def LOOKUP_FLUSH.c24 : Nat := 0x9004000065ae65ae65ae000065ae65ae65ae65ae65ae65ae65ae000065ad65ad65ad65ad65ad65ad65ad65ac65ac65ac65ac65ab65ab65aa65a9000065a865a865a865a865a865a865a865a765a765a765a765a665a665a565a465a365a365a365a365a265a265a165a0659f659f659e659d659c659b659a6599000090036598659865986598659865986597659765976597659665966595659465936593659365936592659265916590658f658f658e658d658c658b658a658990026588658865886587658765866585658465846583658265816580657f657e657d657d657c657b657a6579657865776576657565746573657265716570656f
def LOOKUP_FLUSH.c25 : Nat := 0x900500000000000065cb000065cb65cb65cb00000000000065cb000065cb65cb65cb000065cb65cb65cb65cb65cb65cb65cb00000000000065ca000065ca65ca65ca000065ca65ca65ca65ca65ca65ca65ca000065c965c965c965c965c965c965c965c865c865c865c865c765c765c665c500000000000065c4000065c465c465c4000065c465c465c465c465c465c465c4000065c365c365c365c365c365c365c365c265c265c265c265c165c165c065bf000065be65be65be65be65be65be65be65bd65bd65bd65bd65bc65bc65bb65ba65b965b965b965b965b865b865b765b665b565b565b465b365b265b165b065af
def LOOKUP_FLUSH.c26 : Nat := 0x65e800000000000065e8000065e865e865e800000000000065e8000065e865e865e8000065e865e865e865e865e865e865e800000000000065e7000065e765e765e7000065e765e765e765e765e765e765e7000065e665e665e665e665e665e665e665e565e565e565e565e465e465e365e200000000000065e1000065e165e165e1000065e165e165e165e165e165e165e1000065e065e065e065e065e065e065e065df65df65df65df65de65de65dd65dc000065db65db65db65db65db65db65db65da65da65da65da65d965d965d865d765d665d665d665d665d565d565d465d365d265d265d165d065cf65ce65cd65cc
def LOOKUP_FLUSH.c27 : Nat := 0x9006000000000000000000000000000065f000000000000065f0000065f065f065f0000000000000000000000000000065f000000000000065f0000065f065f065f000000000000065f0000065f065f065f0000065f065f065f065f065f065f065f0000000000000000000000000000065ef00000000000065ef000065ef65ef65ef00000000000065ef000065ef65ef65ef000065ef65ef65ef65ef65ef65ef65ef00000000000065ee000065ee65ee65ee000065ee65ee65ee65ee65ee65ee65ee000065ed65ed65ed65ed65ed65ed65ed65ec65ec65ec65ec65eb65eb65ea65e9
def LOOKUP_FLUSH.c28 : Nat := 0x660d000000000000660d0000660d660d660d000000000000660d0000660d660d660d0000660d660d660d660d660d660d660d000000000000660c0000660c660c660c0000660c660c660c660c660c660c660c0000660b660b660b660b660b660b660b660a660a660a660a6609660966086607000000000000660600006606660666060000660666066606660666066606660600006605660566056605660566056605660466046604660466036603660266010000660066006600660066006600660065ff65ff65ff65ff65fe65fe65fd65fc65fb65fb65fb65fb65fa65fa65f965f865f765f765f665f565f465f365f265f1
def LOOKUP_FLUSH.c29 : Nat := 0x661500000000000000000000000000006615000000000000661500006615661566150000000000000000000000000000661500000000000066150000661566156615000000000000661500006615661566150000661566156615661566156615661500000000000000000000000000006614000000000000661400006614661466140000000000006614000066146614661400006614661466146614661466146614000000000000661300006613661366130000661366136613661366136613661300006612661266126612661266126612661166116611661166106610660f660e
def LOOKUP_FLUSH.c30 : Nat := 0x661d0000000000000000000000000000661d000000000000661d0000661d661d661d0000000000000000000000000000661d000000000000661d0000661d661d661d000000000000661d0000661d661d661d0000661d661d661d661d661d661d661d0000000000000000000000000000661c000000000000661c0000661c661c661c000000000000661c0000661c661c661c0000661c661c661c661c661c661c661c000000000000661b0000661b661b661b0000661b661b661b661b661b661b661b0000661a661a661a661a661a661a661a66196619661966196618661866176616
def LOOKUP_FLUSH.c31 : Nat := 0x9009000000000000000000000000000000000000000000000000000000000000900900000000000000000000000000009009000000000000900900009009900990090000000000000000000000000000000000000000000000000000000000009009000000000000000000000000000090090000000000009009000090099009900900000000000000000000000000009009000000000000900900009009900990090000000000009009000090099009900900009009900990099009900990099009
def LOOKUP_FLUSH.c32 : Nat := 0x900490049004667e667e667e667e667d667d667d667d667c667c667b667a900166796679667966786678667766766675667566746673667266716670666f9002666e666e666e666d666d666c666b666a666a66696668666766666665666490016663666266616660665f665e665d665c665b665a665966586657665666559003900366546654665366536652665166506650664f664e664d664c664b664a90016649664866476646664566446643664266416640663f663e663d663c663b9002663a6639663866376636663566346633663266316630662f662e662d662c9001662b662a6629662866276626662566246623662266216620661f661e0000
def LOOKUP_FLUSH.c33 : Nat := 0x90050000900590059005000066be66be66be66be66be66be66be000066bd66bd66bd66bd66bd66bd66bd66bc66bc66bc66bc66bb66bb66ba66b9000066b866b866b866b866b866b866b866b766b766b766b766b666b666b566b4900166b366b366b366b266b266b166b066af66af66ae66ad66ac66ab66aa66a90000900366a866a866a866a866a866a866a766a766a766a766a666a666a566a4900166a366a366a366a266a266a166a0669f669f669e669d669c669b669a669990026698669866986697669766966695669466946693669266916690668f668e9001668d668c668b668a6689668866876686668566846683668266816680667f
def LOOKUP_FLUSH.c34 : Nat := 0x9004000066fe66fe66fe000066fe66fe66fe66fe66fe66fe66fe000066fd66fd66fd66fd66fd66fd66fd66fc66fc66fc66fc66fb66fb66fa66f9000066f866f866f866f866f866f866f866f766f766f766f766f666f666f566f4900166f366f366f366f266f266f166f066ef66ef66ee66ed66ec66eb66ea66e90000900366e866e866e866e866e866e866e766e766e766e766e666e666e566e4900166e366e366e366e266e266e166e066df66df66de66dd66dc66db66da66d9900266d866d866d866d766d766d666d566d466d466d366d266d166d066cf66ce900166cd66cc66cb66ca66c966c866c766c666c566c466c366c266c166c066bf
def LOOKUP_FLUSH.c35 : Nat := 0x900600000000000090060000900690069006000000000000671b0000671b671b671b0000671b671b671b671b671b671b671b000000000000671a0000671a671a671a0000671a671a671a671a671a671a671a00006719671967196719671967196719671867186718671867176717671667150000000000006714000067146714671400006714671467146714671467146714000067136713671367136713671367136712671267126712671167116710670f0000670e670e670e670e670e670e670e670d670d670d670d670c670c670b670a90016709670967096708670867076706670567056704670367026701670066ff
def LOOKUP_FLUSH.c36 : Nat := 0x90040000675b675b675b0000675b675b675b675b675b675b675b0000675a675a675a675a675a675a675a6759675967596759675867586757675600006755675567556755675567556755675467546754675467536753675267519001675067506750674f674f674e674d674c674c674b674a674967486747674600009003674567456745674567456745674467446744674467436743674267419001674067406740673f673f673e673d673c673c673b673a673967386737673690026735673567356734673467336732673167316730672f672e672d672c672b9001672a6729672867276726672567246723672267216720671f671e671d671c
def LOOKUP_FLUSH.c37 : Nat := 0x900500000000000067780000677867786778000000000000677800006778677867780000677867786778677867786778677800000000000067770000677767776777000067776777677767776777677767770000677667766776677667766776677667756775677567756774677467736772000000000000677100006771677167710000677167716771677167716771677100006770677067706770677067706770676f676f676f676f676e676e676d676c0000676b676b676b676b676b676b676b676a676a676a676a6769676967686767900167666766676667656765676467636762676267616760675f675e675d675c
def LOOKUP_FLUSH.c38 : Nat := 0x67950000000000006795000067956795679500000000000067950000679567956795000067956795679567956795679567950000000000006794000067946794679400006794679467946794679467946794000067936793679367936793679367936792679267926792679167916790678f000000000000678e0000678e678e678e0000678e678e678e678e678e678e678e0000678d678d678d678d678d678d678d678c678c678c678c678b678b678a6789000067886788678867886788678867886787678767876787678667866785678490016783678367836782678267816780677f677f677e677d677c677b677a6779
def LOOKUP_FLUSH.c39 : Nat := 0x900700000000000000000000000000009007000000000000900700009007900790070000000000000000000000000000679d000000000000679d0000679d679d679d000000000000679d0000679d679d679d0000679d679d679d679d679d679d679d0000000000000000000000000000679c000000000000679c0000679c679c679c000000000000679c0000679c679c679c0000679c679c679c679c679c679c679c000000000000679b0000679b679b679b0000679b679b679b679b679b679b679b0000679a679a679a679a679a679a679a67996799679967996798679867976796
def LOOKUP_FLUSH.c40 : Nat := 0x9004000067dd67dd67dd000067dd67dd67dd67dd67dd67dd67dd000067dc67dc67dc67dc67dc67dc67dc67db67db67db67db67da67da67d967d8000067d767d767d767d767d767d767d767d667d667d667d667d567d567d467d3900167d267d267d267d167d167d067cf67ce67ce67cd67cc67cb67ca67c967c80000900367c767c767c767c767c767c767c667c667c667c667c567c567c467c3900167c267c267c267c167c167c067bf67be67be67bd67bc67bb67ba67b967b8900267b767b767b767b667b667b567b467b367b367b267b167b067af67ae67ad900167ac67ab67aa67a967a867a767a667a567a467a367a267a167a0679f679e
def LOOKUP_FLUSH.c41 : Nat := 0x900500000000000067fa000067fa67fa67fa00000000000067fa000067fa67fa67fa000067fa67fa67fa67fa67fa67fa67fa00000000000067f9000067f967f967f9000067f967f967f967f967f967f967f9000067f867f867f867f867f867f867f867f767f767f767f767f667f667f567f400000000000067f3000067f367f367f3000067f367f367f367f367f367f367f3000067f267f267f267f267f267f267f267f167f167f167f167f067f067ef67ee000067ed67ed67ed67ed67ed67ed67ed67ec67ec67ec67ec67eb67eb67ea67e9900167e867e867e867e767e767e667e567e467e467e367e267e167e067df67de
def LOOKUP_FLUSH.c42 : Nat := 0x68170000000000006817000068176817681700000000000068170000681768176817000068176817681768176817681768170000000000006816000068166816681600006816681668166816681668166816000068156815681568156815681568156814681468146814681368136812681100000000000068100000681068106810000068106810681068106810681068100000680f680f680f680f680f680f680f680e680e680e680e680d680d680c680b0000680a680a680a680a680a680a680a680968096809680968086808680768069001680568056805680468046803680268016801680067ff67fe67fd67fc67fb
def LOOKUP_FLUSH.c43 : Nat := 0x90060000000000000000000000000000681f000000000000681f0000681f681f681f0000000000000000000000000000681f000000000000681f0000681f681f681f000000000000681f0000681f681f681f0000681f681f681f681f681f681f681f0000000000000000000000000000681e000000000000681e0000681e681e681e000000000000681e0000681e681e681e0000681e681e681e681e681e681e681e000000000000681d0000681d681d681d0000681d681d681d681d681d681d681d0000681c681c681c681c681c681c681c681b681b681b681b681a681a68196818
def LOOKUP_FLUSH.c44 : Nat := 0x683c000000000000683c0000683c683c683c000000000000683c0000683c683c683c0000683c683c683c683c683c683c683c000000000000683b0000683b683b683b0000683b683b683b683b683b683b683b0000683a683a683a683a683a683a683a68396839683968396838683868376836000000000000683500006835683568350000683568356835683568356835683500006834683468346834683468346834683368336833683368326832683168300000682f682f682f682f682f682f682f682e682e682e682e682d682d682c682b9001682a682a682a682968296828682768266826682568246823682268216820
def LOOKUP_FLUSH.c45 : Nat := 0x6844000000000000000000000000000068440000000000006844000068446844684400000000000000000000000000006844000000000000684400006844684468440000000000006844000068446844684400006844684468446844684468446844000000000000000000000000000068430000000000006843000068436843684300000000000068430000684368436843000068436843684368436843684368430000000000006842000068426842684200006842684268426842684268426842000068416841684168416841684168416840684068406840683f683f683e683d
def LOOKUP_FLUSH.c46 : Nat := 0x684c0000000000000000000000000000684c000000000000684c0000684c684c684c0000000000000000000000000000684c000000000000684c0000684c684c684c000000000000684c0000684c684c684c0000684c684c684c684c684c684c684c0000000000000000000000000000684b000000000000684b0000684b684b684b000000000000684b0000684b684b684b0000684b684b684b684b684b684b684b000000000000684a0000684a684a684a0000684a684a684a684a684a684a684a0000684968496849684968496849684968486848684868486847684768466845
def LOOKUP_FLUSH.c47 : Nat := 0x900800000000000000000000000000000000000000000000000000000000000090080000000000000000000000000000900800000000000090080000900890089008000000000000000000000000000000000000000000000000000000000000684d0000000000000000000000000000684d000000000000684d0000684d684d684d0000000000000000000000000000684d000000000000684d0000684d684d684d000000000000684d0000684d684d684d0000684d684d684d684d684d684d684d
def LOOKUP_FLUSH.c48 : Nat := 0x90040000688d688d688d0000688d688d688d688d688d688d688d0000688c688c688c688c688c688c688c688b688b688b688b688a688a6889688800006887688768876887688768876887688668866886688668856885688468839001688268826882688168816880687f687e687e687d687c687b687a6879687800009003687768776877687768776877687668766876687668756875687468739001687268726872687168716870686f686e686e686d686c686b686a686968689002686768676867686668666865686468636863686268616860685f685e685d9001685c685b685a6859685868576856685568546853685268516850684f684e
def LOOKUP_FLUSH.c49 : Nat := 0x900500000000000068aa000068aa68aa68aa00000000000068aa000068aa68aa68aa000068aa68aa68aa68aa68aa68aa68aa00000000000068a9000068a968a968a9000068a968a968a968a968a968a968a9000068a868a868a868a868a868a868a868a768a768a768a768a668a668a568a400000000000068a3000068a368a368a3000068a368a368a368a368a368a368a3000068a268a268a268a268a268a268a268a168a168a168a168a068a0689f689e0000689d689d689d689d689d689d689d689c689c689c689c689b689b689a689990016898689868986897689768966895689468946893689268916890688f688e
def LOOKUP_FLUSH.c50 : Nat := 0x68c700000000000068c7000068c768c768c700000000000068c7000068c768c768c7000068c768c768c768c768c768c768c700000000000068c6000068c668c668c6000068c668c668c668c668c668c668c6000068c568c568c568c568c568c568c568c468c468c468c468c368c368c268c100000000000068c0000068c068c068c0000068c068c068c068c068c068c068c0000068bf68bf68bf68bf68bf68bf68bf68be68be68be68be68bd68bd68bc68bb000068ba68ba68ba68ba68ba68ba68ba68b968b968b968b968b868b868b768b6900168b568b568b568b468b468b368b268b168b168b068af68ae68ad68ac68ab
def LOOKUP_FLUSH.c51 : Nat := 0x9006000000000000000000000000000068cf00000000000068cf000068cf68cf68cf000000000000000000000000000068cf00000000000068cf000068cf68cf68cf00000000000068cf000068cf68cf68cf000068cf68cf68cf68cf68cf68cf68cf000000000000000000000000000068ce00000000000068ce000068ce68ce68ce00000000000068ce000068ce68ce68ce000068ce68ce68ce68ce68ce68ce68ce00000000000068cd000068cd68cd68cd000068cd68cd68cd68cd68cd68cd68cd000068cc68cc68cc68cc68cc68cc68cc68cb68cb68cb68cb68ca68ca68c968c8
def LOOKUP_FLUSH.c52 : Nat := 0x68ec00000000000068ec000068ec68ec68ec00000000000068ec000068ec68ec68ec000068ec68ec68ec68ec68ec68ec68ec00000000000068eb000068eb68eb68eb000068eb68eb68eb68eb68eb68eb68eb000068ea68ea68ea68ea68ea68ea68ea68e968e968e968e968e868e868e768e600000000000068e5000068e568e568e5000068e568e568e568e568e568e568e5000068e468e468e468e468e468e468e468e368e368e368e368e268e268e168e0000068df68df68df68df68df68df68df68de68de68de68de68dd68dd68dc68db900168da68da68da68d968d968d868d768d668d668d568d468d368d268d168d0
def LOOKUP_FLUSH.c53 : Nat := 0x68f4000000000000000000000000000068f400000000000068f4000068f468f468f4000000000000000000000000000068f400000000000068f4000068f468f468f400000000000068f4000068f468f468f4000068f468f468f468f468f468f468f4000000000000000000000000000068f300000000000068f3000068f368f368f300000000000068f3000068f368f368f3000068f368f368f368f368f368f368f300000000000068f2000068f268f268f2000068f268f268f268f268f268f268f2000068f168f168f168f168f168f168f168f068f068f068f068ef68ef68ee68ed
def LOOKUP_FLUSH.c54 : Nat := 0x68fc000000000000000000000000000068fc00000000000068fc000068fc68fc68fc000000000000000000000000000068fc00000000000068fc000068fc68fc68fc00000000000068fc000068fc68fc68fc000068fc68fc68fc68fc68fc68fc68fc000000000000000000000000000068fb00000000000068fb000068fb68fb68fb00000000000068fb000068fb68fb68fb000068fb68fb68fb68fb68fb68fb68fb00000000000068fa000068fa68fa68fa000068fa68fa68fa68fa68fa68fa68fa000068f968f968f968f968f968f968f968f868f868f868f868f768f768f668f5
def LOOKUP_FLUSH.c55 : Nat := 0x900700000000000000000000000000000000000000000000000000000000000068fd000000000000000000000000000068fd00000000000068fd000068fd68fd68fd00000000000000000000000000000000000000000000000000000000000068fd000000000000000000000000000068fd00000000000068fd000068fd68fd68fd000000000000000000000000000068fd00000000000068fd000068fd68fd68fd00000000000068fd000068fd68fd68fd000068fd68fd68fd68fd68fd68fd68fd
def LOOKUP_FLUSH.c56 : Nat := 0x691a000000000000691a0000691a691a691a000000000000691a0000691a691a691a0000691a691a691a691a691a691a691a00000000000069190000691969196919000069196919691969196919691969190000691869186918691869186918691869176917691769176916691669156914000000000000691300006913691369130000691369136913691369136913691300006912691269126912691269126912691169116911691169106910690f690e0000690d690d690d690d690d690d690d690c690c690c690c690b690b690a69099001690869086908690769076906690569046904690369026901690068ff68fe
def LOOKUP_FLUSH.c57 : Nat := 0x69220000000000000000000000000000692200000000000069220000692269226922000000000000000000000000000069220000000000006922000069226922692200000000000069220000692269226922000069226922692269226922692269220000000000000000000000000000692100000000000069210000692169216921000000000000692100006921692169210000692169216921692169216921692100000000000069200000692069206920000069206920692069206920692069200000691f691f691f691f691f691f691f691e691e691e691e691d691d691c691b
def LOOKUP_FLUSH.c58 : Nat := 0x692a0000000000000000000000000000692a000000000000692a0000692a692a692a0000000000000000000000000000692a000000000000692a0000692a692a692a000000000000692a0000692a692a692a0000692a692a692a692a692a692a692a0000000000000000000000000000692900000000000069290000692969296929000000000000692900006929692969290000692969296929692969296929692900000000000069280000692869286928000069286928692869286928692869280000692769276927692769276927692769266926692669266925692569246923
def LOOKUP_FLUSH.c59 : Nat := 0x692b000000000000000000000000000000000000000000000000000000000000692b0000000000000000000000000000692b000000000000692b0000692b692b692b000000000000000000000000000000000000000000000000000000000000692b0000000000000000000000000000692b000000000000692b0000692b692b692b0000000000000000000000000000692b000000000000692b0000692b692b692b000000000000692b0000692b692b692b0000692b692b692b692b692b692b692b
def LOOKUP_FLUSH.c60 : Nat := 0x693300000000000000000000000000006933000000000000693300006933693369330000000000000000000000000000693300000000000069330000693369336933000000000000693300006933693369330000693369336933693369336933693300000000000000000000000000006932000000000000693200006932693269320000000000006932000069326932693200006932693269326932693269326932000000000000693100006931693169310000693169316931693169316931693100006930693069306930693069306930692f692f692f692f692e692e692d692c
def LOOKUP_FLUSH.c61 : Nat := 0x6934000000000000000000000000000000000000000000000000000000000000693400000000000000000000000000006934000000000000693400006934693469340000000000000000000000000000000000000000000000000000000000006934000000000000000000000000000069340000000000006934000069346934693400000000000000000000000000006934000000000000693400006934693469340000000000006934000069346934693400006934693469346934693469346934
def LOOKUP_FLUSH.c62 : Nat := 0x900a000000000000000000000000000000000000000000000000000000000000900a0000000000000000000000000000900a000000000000900a0000900a900a900a000000000000000000000000000000000000000000000000000000000000900a0000000000000000000000000000900a000000000000900a0000900a900a900a0000000000000000000000000000900a000000000000900a0000900a900a900a000000000000900a0000900a900a900a0000900a900a900a900a900a900a900a
def LOOKUP_FLUSH.c63 : Nat := 0x900a0000000000000000000000000000000000000000000000000000000000000000000000000000000000000000000000000000000000000000000000000000900a000000000000000000000000000000000000000000000000000000000000900a0000000000000000000000000000900a000000000000900a0000900a900a900a
/-- src/flush_lookup.rs:1-518, `LOOKUP_FLUSH`, 8192 entries of 16 bits -/
def LOOKUP_FLUSH : PackedArray :=
  { len := 8192, bits := 16, logPer := 7, chunks := (.node 32 (.node 16 (.node 8 (.node 4 (.node 2 (.node 1 (.leaf LOOKUP_FLUSH.c0) (.leaf LOOKUP_FLUSH.c1)) (.node 3 (.leaf LOOKUP_FLUSH.c2) (.leaf LOOKUP_FLUSH.c3))) (.node 6 (.node 5 (.leaf LOOKUP_FLUSH.c4) (.leaf LOOKUP_FLUSH.c5)) (.node 7 (.leaf LOOKUP_FLUSH.c6) (.leaf LOOKUP_FLUSH.c7)))) (.node 12 (.node 10 (.node 9 (.leaf LOOKUP_FLUSH.c8) (.leaf LOOKUP_FLUSH.c9)) (.node 11 (.leaf LOOKUP_FLUSH.c10) (.leaf LOOKUP_FLUSH.c11))) (.node 14 (.node 13 (.leaf LOOKUP_FLUSH.c12) (.leaf LOOKUP_FLUSH.c13)) (.node 15 (.leaf LOOKUP_FLUSH.c14) (.leaf LOOKUP_FLUSH.c15))))) (.node 24 (.node 20 (.node 18 (.node 17 (.leaf LOOKUP_FLUSH.c16) (.leaf LOOKUP_FLUSH.c17)) (.node 19 (.leaf LOOKUP_FLUSH.c18) (.leaf LOOKUP_FLUSH.c19))) (.node 22 (.node 21 (.leaf LOOKUP_FLUSH.c20) (.leaf LOOKUP_FLUSH.c21)) (.node 23 (.leaf LOOKUP_FLUSH.c22) (.leaf LOOKUP_FLUSH.c23)))) (.node 28 (.node 26 (.node 25 (.leaf LOOKUP_FLUSH.c24) (.leaf LOOKUP_FLUSH.c25)) (.node 27 (.leaf LOOKUP_FLUSH.c26) (.leaf LOOKUP_FLUSH.c27))) (.node 30 (.node 29 (.leaf LOOKUP_FLUSH.c28) (.leaf LOOKUP_FLUSH.c29)) (.node 31 (.leaf LOOKUP_FLUSH.c30) (.leaf LOOKUP_FLUSH.c31)))))) (.node 48 (.node 40 (.node 36 (.node 34 (.node 33 (.leaf LOOKUP_FLUSH.c32) (.leaf LOOKUP_FLUSH.c33)) (.node 35 (.leaf LOOKUP_FLUSH.c34) (.leaf LOOKUP_FLUSH.c35))) (.node 38 (.node 37 (.leaf LOOKUP_FLUSH.c36) (.leaf LOOKUP_FLUSH.c37)) (.node 39 (.leaf LOOKUP_FLUSH.c38) (.leaf LOOKUP_FLUSH.c39)))) (.node 44 (.node 42 (.node 41 (.leaf LOOKUP_FLUSH.c40) (.leaf LOOKUP_FLUSH.c41)) (.node 43 (.leaf LOOKUP_FLUSH.c42) (.leaf LOOKUP_FLUSH.c43))) (.node 46 (.node 45 (.leaf LOOKUP_FLUSH.c44) (.leaf LOOKUP_FLUSH.c45)) (.node 47 (.leaf LOOKUP_FLUSH.c46) (.leaf LOOKUP_FLUSH.c47))))) (.node 56 (.node 52 (.node 50 (.node 49 (.leaf LOOKUP_FLUSH.c48) (.leaf LOOKUP_FLUSH.c49)) (.node 51 (.leaf LOOKUP_FLUSH.c50) (.leaf LOOKUP_FLUSH.c51))) (.node 54 (.node 53 (.leaf LOOKUP_FLUSH.c52) (.leaf LOOKUP_FLUSH.c53)) (.node 55 (.leaf LOOKUP_FLUSH.c54) (.leaf LOOKUP_FLUSH.c55)))) (.node 60 (.node 58 (.node 57 (.leaf LOOKUP_FLUSH.c56) (.leaf LOOKUP_FLUSH.c57)) (.node 59 (.leaf LOOKUP_FLUSH.c58) (.leaf LOOKUP_FLUSH.c59))) (.node 62 (.node 61 (.leaf LOOKUP_FLUSH.c60) (.leaf LOOKUP_FLUSH.c61)) (.node 63 (.leaf LOOKUP_FLUSH.c62) (.leaf LOOKUP_FLUSH.c63))))))) }

end Pokers
