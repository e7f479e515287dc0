import Verif.Tables.Packed
/-! Generated by tools/gen_tables.py - do not edit. -/
namespace Pokers

def scoreCode.c0 : Nat := 0x0
def scoreCode.c1 : Nat := 0x0
def scoreCode.c2 : Nat := 0x0
def scoreCode.c3 : Nat := 0x0
def scoreCode.c4 : Nat := 0x0
def scoreCode.c5 : Nat := 0x0
def scoreCode.c6 : Nat := 0x0
def scoreCode.c7 : Nat := 0x0
def scoreCode.c8 : Nat := 0x0
def scoreCode.c9 : Nat := 0x0
def scoreCode.c10 : Nat := 0x0
def scoreCode.c11 : Nat := 0x0
def scoreCode.c12 : Nat := 0x0
def scoreCode.c13 : Nat := 0x0
def scoreCode.c14 : Nat := 0x0
def scoreCode.c15 : Nat := 0x0
def scoreCode.c16 : Nat := 0x0
def scoreCode.c17 : Nat := 0x0
def scoreCode.c18 : Nat := 0x0
def scoreCode.c19 : Nat := 0x0
def scoreCode.c20 : Nat := 0x0
def scoreCode.c21 : Nat := 0x0
def scoreCode.c22 : Nat := 0x0
def scoreCode.c23 : Nat := 0x0
def scoreCode.c24 : Nat := 0x0
def scoreCode.c25 : Nat := 0x0
def scoreCode.c26 : Nat := 0x0
def scoreCode.c27 : Nat := 0x0
def scoreCode.c28 : Nat := 0x0
def scoreCode.c29 : Nat := 0x0
def scoreCode.c30 : Nat := 0x0
def scoreCode.c31 : Nat := 0x0
def scoreCode.c32 : Nat := 0x0
def scoreCode.c33 : Nat := 0x0
def scoreCode.c34 : Nat := 0x0
def scoreCode.c35 : Nat := 0x0
def scoreCode.c36 : Nat := 0x0
def scoreCode.c37 : Nat := 0x0
def scoreCode.c38 : Nat := 0x0
def scoreCode.c39 : Nat := 0x0
def scoreCode.c40 : Nat := 0x0
def scoreCode.c41 : Nat := 0x0
def scoreCode.c42 : Nat := 0x0
def scoreCode.c43 : Nat := 0x0
def scoreCode.c44 : Nat := 0x0
def scoreCode.c45 : Nat := 0x0
def scoreCode.c46 : Nat := 0x0
def scoreCode.c47 : Nat := 0x0
def scoreCode.c48 : Nat := 0x0
def scoreCode.c49 : Nat := 0x0
def scoreCode.c50 : Nat := 0x0
def scoreCode.c51 : Nat := 0x0
def scoreCode.c52 : Nat := 0x0
def scoreCode.c53 : Nat := 0x0
def scoreCode.c54 : Nat := 0x0
def scoreCode.c55 : Nat := 0x0
def scoreCode.c56 : Nat := 0x0
def scoreCode.c57 : Nat := 0x0
def scoreCode.c58 : Nat := 0x0
def scoreCode.c59 : Nat := 0x0
def scoreCode.c60 : Nat := 0x0
def scoreCode.c61 : Nat := 0x0
def scoreCode.c62 : Nat := 0x0
def scoreCode.c63 : Nat := 0x0
def scoreCode.c64 : Nat := 0x174100174000173210173200173100173000172100172000171000165431165430165421165420165410165400165321165320165310165300165210165200165100165000164321164320164310164300164210164200164100164000163210163200163100163000162100162000161000154320154310154300154210154200154100154000153210153200153100153000152100152000151000143210143200143100143000142100142000141000132100132000131000121000000000
def scoreCode.c65 : Nat := 0x185200185100185000184321184320184310184300184210184200184100184000183210183200183100183000182100182000181000176542176541176540176532176531176530176521176520176510176500176432176431176430176421176420176410176400176321176320176310176300176210176200176100176000175432175431175430175421175420175410175400175321175320175310175300175210175200175100175000174321174320174310174300174210174200
def scoreCode.c66 : Nat := 0x187543187542187541187540187532187531187530187521187520187510187500187432187431187430187421187420187410187400187321187320187310187300187210187200187100187000186543186542186541186540186532186531186530186521186520186510186500186432186431186430186421186420186410186400186321186320186310186300186210186200186100186000185432185431185430185421185420185410185400185321185320185310185300185210
def scoreCode.c67 : Nat := 0x196521196520196510196500196432196431196430196421196420196410196400196321196320196310196300196210196200196100196000195432195431195430195421195420195410195400195321195320195310195300195210195200195100195000194321194320194310194300194210194200194100194000193210193200193100193000192100192000191000187653187652187651187650187643187642187641187640187632187631187630187621187620187610187600
def scoreCode.c68 : Nat := 0x198432198431198430198421198420198410198400198321198320198310198300198210198200198100198000197654197653197652197651197650197643197642197641197640197632197631197630197621197620197610197600197543197542197541197540197532197531197530197521197520197510197500197432197431197430197421197420197410197400197321197320197310197300197210197200197100197000196543196542196541196540196532196531196530
def scoreCode.c69 : Nat := 0x1a50001a43211a43201a43101a43001a42101a42001a41001a40001a32101a32001a31001a30001a21001a20001a1000198764198763198762198761198760198754198753198752198751198750198743198742198741198740198732198731198730198721198720198710198700198654198653198652198651198650198643198642198641198640198632198631198630198621198620198610198600198543198542198541198540198532198531198530198521198520198510198500
def scoreCode.c70 : Nat := 0x1a75411a75401a75321a75311a75301a75211a75201a75101a75001a74321a74311a74301a74211a74201a74101a74001a73211a73201a73101a73001a72101a72001a71001a70001a65431a65421a65411a65401a65321a65311a65301a65211a65201a65101a65001a64321a64311a64301a64211a64201a64101a64001a63211a63201a63101a63001a62101a62001a61001a60001a54321a54311a54301a54211a54201a54101a54001a53211a53201a53101a53001a52101a52001a5100
def scoreCode.c71 : Nat := 0x1a87211a87201a87101a87001a86541a86531a86521a86511a86501a86431a86421a86411a86401a86321a86311a86301a86211a86201a86101a86001a85431a85421a85411a85401a85321a85311a85301a85211a85201a85101a85001a84321a84311a84301a84211a84201a84101a84001a83211a83201a83101a83001a82101a82001a81001a80001a76541a76531a76521a76511a76501a76431a76421a76411a76401a76321a76311a76301a76211a76201a76101a76001a75431a7542
def scoreCode.c72 : Nat := 0x1a97211a97201a97101a97001a96541a96531a96521a96511a96501a96431a96421a96411a96401a96321a96311a96301a96211a96201a96101a96001a95431a95421a95411a95401a95321a95311a95301a95211a95201a95101a95001a94321a94311a94301a94211a94201a94101a94001a93211a93201a93101a93001a92101a92001a91001a90001a87651a87641a87631a87621a87611a87601a87541a87531a87521a87511a87501a87431a87421a87411a87401a87321a87311a8730
def scoreCode.c73 : Nat := 0x1b52001b51001b50001b43211b43201b43101b43001b42101b42001b41001b40001b32101b32001b31001b30001b21001b20001b10001a98751a98741a98731a98721a98711a98701a98651a98641a98631a98621a98611a98601a98541a98531a98521a98511a98501a98431a98421a98411a98401a98321a98311a98301a98211a98201a98101a98001a97651a97641a97631a97621a97611a97601a97541a97531a97521a97511a97501a97431a97421a97411a97401a97321a97311a9730
def scoreCode.c74 : Nat := 0x1b75431b75421b75411b75401b75321b75311b75301b75211b75201b75101b75001b74321b74311b74301b74211b74201b74101b74001b73211b73201b73101b73001b72101b72001b71001b70001b65431b65421b65411b65401b65321b65311b65301b65211b65201b65101b65001b64321b64311b64301b64211b64201b64101b64001b63211b63201b63101b63001b62101b62001b61001b60001b54321b54311b54301b54211b54201b54101b54001b53211b53201b53101b53001b5210
def scoreCode.c75 : Nat := 0x1b87311b87301b87211b87201b87101b87001b86541b86531b86521b86511b86501b86431b86421b86411b86401b86321b86311b86301b86211b86201b86101b86001b85431b85421b85411b85401b85321b85311b85301b85211b85201b85101b85001b84321b84311b84301b84211b84201b84101b84001b83211b83201b83101b83001b82101b82001b81001b80001b76541b76531b76521b76511b76501b76431b76421b76411b76401b76321b76311b76301b76211b76201b76101b7600
def scoreCode.c76 : Nat := 0x1b97311b97301b97211b97201b97101b97001b96541b96531b96521b96511b96501b96431b96421b96411b96401b96321b96311b96301b96211b96201b96101b96001b95431b95421b95411b95401b95321b95311b95301b95211b95201b95101b95001b94321b94311b94301b94211b94201b94101b94001b93211b93201b93101b93001b92101b92001b91001b90001b87651b87641b87631b87621b87611b87601b87541b87531b87521b87511b87501b87431b87421b87411b87401b8732
def scoreCode.c77 : Nat := 0x1ba5211ba5201ba5101ba5001ba4321ba4311ba4301ba4211ba4201ba4101ba4001ba3211ba3201ba3101ba3001ba2101ba2001ba1001ba0001b98761b98751b98741b98731b98721b98711b98701b98651b98641b98631b98621b98611b98601b98541b98531b98521b98511b98501b98431b98421b98411b98401b98321b98311b98301b98211b98201b98101b98001b97651b97641b97631b97621b97611b97601b97541b97531b97521b97511b97501b97431b97421b97411b97401b9732
def scoreCode.c78 : Nat := 0x1ba8621ba8611ba8601ba8541ba8531ba8521ba8511ba8501ba8431ba8421ba8411ba8401ba8321ba8311ba8301ba8211ba8201ba8101ba8001ba7651ba7641ba7631ba7621ba7611ba7601ba7541ba7531ba7521ba7511ba7501ba7431ba7421ba7411ba7401ba7321ba7311ba7301ba7211ba7201ba7101ba7001ba6541ba6531ba6521ba6511ba6501ba6431ba6421ba6411ba6401ba6321ba6311ba6301ba6211ba6201ba6101ba6001ba5431ba5421ba5411ba5401ba5321ba5311ba530
def scoreCode.c79 : Nat := 0x1c52001c51001c50001c43211c43201c43101c43001c42101c42001c41001c40001c32101c32001c31001c30001c21001c20001c10001ba9861ba9851ba9841ba9831ba9821ba9811ba9801ba9761ba9751ba9741ba9731ba9721ba9711ba9701ba9651ba9641ba9631ba9621ba9611ba9601ba9541ba9531ba9521ba9511ba9501ba9431ba9421ba9411ba9401ba9321ba9311ba9301ba9211ba9201ba9101ba9001ba8761ba8751ba8741ba8731ba8721ba8711ba8701ba8651ba8641ba863
def scoreCode.c80 : Nat := 0x1c75431c75421c75411c75401c75321c75311c75301c75211c75201c75101c75001c74321c74311c74301c74211c74201c74101c74001c73211c73201c73101c73001c72101c72001c71001c70001c65431c65421c65411c65401c65321c65311c65301c65211c65201c65101c65001c64321c64311c64301c64211c64201c64101c64001c63211c63201c63101c63001c62101c62001c61001c60001c54321c54311c54301c54211c54201c54101c54001c53211c53201c53101c53001c5210
def scoreCode.c81 : Nat := 0x1c87311c87301c87211c87201c87101c87001c86541c86531c86521c86511c86501c86431c86421c86411c86401c86321c86311c86301c86211c86201c86101c86001c85431c85421c85411c85401c85321c85311c85301c85211c85201c85101c85001c84321c84311c84301c84211c84201c84101c84001c83211c83201c83101c83001c82101c82001c81001c80001c76541c76531c76521c76511c76501c76431c76421c76411c76401c76321c76311c76301c76211c76201c76101c7600
def scoreCode.c82 : Nat := 0x1c97311c97301c97211c97201c97101c97001c96541c96531c96521c96511c96501c96431c96421c96411c96401c96321c96311c96301c96211c96201c96101c96001c95431c95421c95411c95401c95321c95311c95301c95211c95201c95101c95001c94321c94311c94301c94211c94201c94101c94001c93211c93201c93101c93001c92101c92001c91001c90001c87651c87641c87631c87621c87611c87601c87541c87531c87521c87511c87501c87431c87421c87411c87401c8732
def scoreCode.c83 : Nat := 0x1ca5211ca5201ca5101ca5001ca4321ca4311ca4301ca4211ca4201ca4101ca4001ca3211ca3201ca3101ca3001ca2101ca2001ca1001ca0001c98761c98751c98741c98731c98721c98711c98701c98651c98641c98631c98621c98611c98601c98541c98531c98521c98511c98501c98431c98421c98411c98401c98321c98311c98301c98211c98201c98101c98001c97651c97641c97631c97621c97611c97601c97541c97531c97521c97511c97501c97431c97421c97411c97401c9732
def scoreCode.c84 : Nat := 0x1ca8621ca8611ca8601ca8541ca8531ca8521ca8511ca8501ca8431ca8421ca8411ca8401ca8321ca8311ca8301ca8211ca8201ca8101ca8001ca7651ca7641ca7631ca7621ca7611ca7601ca7541ca7531ca7521ca7511ca7501ca7431ca7421ca7411ca7401ca7321ca7311ca7301ca7211ca7201ca7101ca7001ca6541ca6531ca6521ca6511ca6501ca6431ca6421ca6411ca6401ca6321ca6311ca6301ca6211ca6201ca6101ca6001ca5431ca5421ca5411ca5401ca5321ca5311ca530
def scoreCode.c85 : Nat := 0x1cb5101cb5001cb4321cb4311cb4301cb4211cb4201cb4101cb4001cb3211cb3201cb3101cb3001cb2101cb2001cb1001cb0001ca9871ca9861ca9851ca9841ca9831ca9821ca9811ca9801ca9761ca9751ca9741ca9731ca9721ca9711ca9701ca9651ca9641ca9631ca9621ca9611ca9601ca9541ca9531ca9521ca9511ca9501ca9431ca9421ca9411ca9401ca9321ca9311ca9301ca9211ca9201ca9101ca9001ca8761ca8751ca8741ca8731ca8721ca8711ca8701ca8651ca8641ca863
def scoreCode.c86 : Nat := 0x1cb8601cb8541cb8531cb8521cb8511cb8501cb8431cb8421cb8411cb8401cb8321cb8311cb8301cb8211cb8201cb8101cb8001cb7651cb7641cb7631cb7621cb7611cb7601cb7541cb7531cb7521cb7511cb7501cb7431cb7421cb7411cb7401cb7321cb7311cb7301cb7211cb7201cb7101cb7001cb6541cb6531cb6521cb6511cb6501cb6431cb6421cb6411cb6401cb6321cb6311cb6301cb6211cb6201cb6101cb6001cb5431cb5421cb5411cb5401cb5321cb5311cb5301cb5211cb520
def scoreCode.c87 : Nat := 0x1cba531cba521cba511cba501cba431cba421cba411cba401cba321cba311cba301cba211cba201cba101cba001cb9871cb9861cb9851cb9841cb9831cb9821cb9811cb9801cb9761cb9751cb9741cb9731cb9721cb9711cb9701cb9651cb9641cb9631cb9621cb9611cb9601cb9541cb9531cb9521cb9511cb9501cb9431cb9421cb9411cb9401cb9321cb9311cb9301cb9211cb9201cb9101cb9001cb8761cb8751cb8741cb8731cb8721cb8711cb8701cb8651cb8641cb8631cb8621cb861
def scoreCode.c88 : Nat := 0x1d63001d62101d62001d61001d60001d54321d54311d54301d54211d54201d54101d54001d53211d53201d53101d53001d52101d52001d51001d50001d43201d43101d43001d42101d42001d41001d40001d32101d32001d31001d30001d21001d20001d10001cba971cba961cba951cba941cba931cba921cba911cba901cba871cba861cba851cba841cba831cba821cba811cba801cba761cba751cba741cba731cba721cba711cba701cba651cba641cba631cba621cba611cba601cba54
def scoreCode.c89 : Nat := 0x1d80001d76541d76531d76521d76511d76501d76431d76421d76411d76401d76321d76311d76301d76211d76201d76101d76001d75431d75421d75411d75401d75321d75311d75301d75211d75201d75101d75001d74321d74311d74301d74211d74201d74101d74001d73211d73201d73101d73001d72101d72001d71001d70001d65431d65421d65411d65401d65321d65311d65301d65211d65201d65101d65001d64321d64311d64301d64211d64201d64101d64001d63211d63201d6310
def scoreCode.c90 : Nat := 0x1d90001d87651d87641d87631d87621d87611d87601d87541d87531d87521d87511d87501d87431d87421d87411d87401d87321d87311d87301d87211d87201d87101d87001d86541d86531d86521d86511d86501d86431d86421d86411d86401d86321d86311d86301d86211d86201d86101d86001d85431d85421d85411d85401d85321d85311d85301d85211d85201d85101d85001d84321d84311d84301d84211d84201d84101d84001d83211d83201d83101d83001d82101d82001d8100
def scoreCode.c91 : Nat := 0x1d98001d97651d97641d97631d97621d97611d97601d97541d97531d97521d97511d97501d97431d97421d97411d97401d97321d97311d97301d97211d97201d97101d97001d96541d96531d96521d96511d96501d96431d96421d96411d96401d96321d96311d96301d96211d96201d96101d96001d95431d95421d95411d95401d95321d95311d95301d95211d95201d95101d95001d94321d94311d94301d94211d94201d94101d94001d93211d93201d93101d93001d92101d92001d9100
def scoreCode.c92 : Nat := 0x1da6421da6411da6401da6321da6311da6301da6211da6201da6101da6001da5431da5421da5411da5401da5321da5311da5301da5211da5201da5101da5001da4321da4311da4301da4211da4201da4101da4001da3211da3201da3101da3001da2101da2001da1001da0001d98761d98751d98741d98731d98721d98711d98701d98651d98641d98631d98621d98611d98601d98541d98531d98521d98511d98501d98431d98421d98411d98401d98321d98311d98301d98211d98201d9810
def scoreCode.c93 : Nat := 0x1da9321da9311da9301da9211da9201da9101da9001da8761da8751da8741da8731da8721da8711da8701da8651da8641da8631da8621da8611da8601da8541da8531da8521da8511da8501da8431da8421da8411da8401da8321da8311da8301da8211da8201da8101da8001da7651da7641da7631da7621da7611da7601da7541da7531da7521da7511da7501da7431da7421da7411da7401da7321da7311da7301da7211da7201da7101da7001da6541da6531da6521da6511da6501da643
def scoreCode.c94 : Nat := 0x1db6401db6321db6311db6301db6211db6201db6101db6001db5431db5421db5411db5401db5321db5311db5301db5211db5201db5101db5001db4321db4311db4301db4211db4201db4101db4001db3211db3201db3101db3001db2101db2001db1001db0001da9871da9861da9851da9841da9831da9821da9811da9801da9761da9751da9741da9731da9721da9711da9701da9651da9641da9631da9621da9611da9601da9541da9531da9521da9511da9501da9431da9421da9411da940
def scoreCode.c95 : Nat := 0x1db9301db9211db9201db9101db9001db8761db8751db8741db8731db8721db8711db8701db8651db8641db8631db8621db8611db8601db8541db8531db8521db8511db8501db8431db8421db8411db8401db8321db8311db8301db8211db8201db8101db8001db7651db7641db7631db7621db7611db7601db7541db7531db7521db7511db7501db7431db7421db7411db7401db7321db7311db7301db7211db7201db7101db7001db6541db6531db6521db6511db6501db6431db6421db641
def scoreCode.c96 : Nat := 0x1dba821dba811dba801dba761dba751dba741dba731dba721dba711dba701dba651dba641dba631dba621dba611dba601dba541dba531dba521dba511dba501dba431dba421dba411dba401dba321dba311dba301dba211dba201dba101dba001db9871db9861db9851db9841db9831db9821db9811db9801db9761db9751db9741db9731db9721db9711db9701db9651db9641db9631db9621db9611db9601db9541db9531db9521db9511db9501db9431db9421db9411db9401db9321db931
def scoreCode.c97 : Nat := 0x1dc7401dc7321dc7311dc7301dc7211dc7201dc7101dc7001dc6541dc6531dc6521dc6511dc6501dc6431dc6421dc6411dc6401dc6321dc6311dc6301dc6211dc6201dc6101dc6001dc5431dc5421dc5411dc5401dc5321dc5311dc5301dc5211dc5201dc5101dc5001dc4321dc4311dc4301dc4211dc4201dc4101dc4001dc3211dc3201dc3101dc3001dc2101dc2001dc1001dc0001dba981dba971dba961dba951dba941dba931dba921dba911dba901dba871dba861dba851dba841dba83
def scoreCode.c98 : Nat := 0x1dc9641dc9631dc9621dc9611dc9601dc9541dc9531dc9521dc9511dc9501dc9431dc9421dc9411dc9401dc9321dc9311dc9301dc9211dc9201dc9101dc9001dc8761dc8751dc8741dc8731dc8721dc8711dc8701dc8651dc8641dc8631dc8621dc8611dc8601dc8541dc8531dc8521dc8511dc8501dc8431dc8421dc8411dc8401dc8321dc8311dc8301dc8211dc8201dc8101dc8001dc7651dc7641dc7631dc7621dc7611dc7601dc7541dc7531dc7521dc7511dc7501dc7431dc7421dc741
def scoreCode.c99 : Nat := 0x1dcb101dcb001dca981dca971dca961dca951dca941dca931dca921dca911dca901dca871dca861dca851dca841dca831dca821dca811dca801dca761dca751dca741dca731dca721dca711dca701dca651dca641dca631dca621dca611dca601dca541dca531dca521dca511dca501dca431dca421dca411dca401dca321dca311dca301dca211dca201dca101dca001dc9871dc9861dc9851dc9841dc9831dc9821dc9811dc9801dc9761dc9751dc9741dc9731dc9721dc9711dc9701dc965
def scoreCode.c100 : Nat := 0x1dcba81dcba71dcba61dcba51dcba41dcba31dcba21dcba11dcba01dcb981dcb971dcb961dcb951dcb941dcb931dcb921dcb911dcb901dcb871dcb861dcb851dcb841dcb831dcb821dcb811dcb801dcb761dcb751dcb741dcb731dcb721dcb711dcb701dcb651dcb641dcb631dcb621dcb611dcb601dcb541dcb531dcb521dcb511dcb501dcb431dcb421dcb411dcb401dcb321dcb311dcb301dcb211dcb20
def scoreCode.c101 : Nat := 0x0
def scoreCode.c102 : Nat := 0x0
def scoreCode.c103 : Nat := 0x0
def scoreCode.c104 : Nat := 0x0
def scoreCode.c105 : Nat := 0x0
def scoreCode.c106 : Nat := 0x0
def scoreCode.c107 : Nat := 0x0
def scoreCode.c108 : Nat := 0x0
def scoreCode.c109 : Nat := 0x0
def scoreCode.c110 : Nat := 0x0
def scoreCode.c111 : Nat := 0x0
def scoreCode.c112 : Nat := 0x0
def scoreCode.c113 : Nat := 0x0
def scoreCode.c114 : Nat := 0x0
def scoreCode.c115 : Nat := 0x0
def scoreCode.c116 : Nat := 0x0
def scoreCode.c117 : Nat := 0x0
def scoreCode.c118 : Nat := 0x0
def scoreCode.c119 : Nat := 0x0
def scoreCode.c120 : Nat := 0x0
def scoreCode.c121 : Nat := 0x0
def scoreCode.c122 : Nat := 0x0
def scoreCode.c123 : Nat := 0x0
def scoreCode.c124 : Nat := 0x0
def scoreCode.c125 : Nat := 0x0
def scoreCode.c126 : Nat := 0x0
def scoreCode.c127 : Nat := 0x0
def scoreCode.c128 : Nat := 0x218750218740218730218720218700218650218640218630218620218600218540218530218520218500218430218420218400218320218300218200218000217650217640217630217620217600217540217530217520217500217430217420217400217320217300217200217000216540216530216520216500216430216420216400216320216300216200216000215430215420215400215320215300215200215000214320214300214200214000213200213000212000210000000000
def scoreCode.c129 : Nat := 0x21a95021a94021a93021a92021a90021a87021a86021a85021a84021a83021a82021a80021a76021a75021a74021a73021a72021a70021a65021a64021a63021a62021a60021a54021a53021a52021a50021a43021a42021a40021a32021a30021a20021a000219870219860219850219840219830219820219800219760219750219740219730219720219700219650219640219630219620219600219540219530219520219500219430219420219400219320219300219200219000218760
def scoreCode.c130 : Nat := 0x21c64021c63021c62021c60021c54021c53021c52021c50021c43021c42021c40021c32021c30021c20021c00021ba9021ba8021ba7021ba6021ba5021ba4021ba3021ba2021ba0021b98021b97021b96021b95021b94021b93021b92021b90021b87021b86021b85021b84021b83021b82021b80021b76021b75021b74021b73021b72021b70021b65021b64021b63021b62021b60021b54021b53021b52021b50021b43021b42021b40021b32021b30021b20021b00021a98021a97021a960
def scoreCode.c131 : Nat := 0x21d80021d76021d75021d74021d73021d72021d70021d65021d64021d63021d62021d60021d54021d53021d52021d50021d43021d42021d40021d32021d30021d20021d00021cba021cb9021cb8021cb7021cb6021cb5021cb4021cb3021cb2021cb0021ca9021ca8021ca7021ca6021ca5021ca4021ca3021ca2021ca0021c98021c97021c96021c95021c94021c93021c92021c90021c87021c86021c85021c84021c83021c82021c80021c76021c75021c74021c73021c72021c70021c650
def scoreCode.c132 : Nat := 0x22640022631022630022610022600022543022541022540022531022530022510022500022431022430022410022400022310022300022100022000021dcb021dca021dc9021dc8021dc7021dc6021dc5021dc4021dc3021dc2021dc0021dba021db9021db8021db7021db6021db5021db4021db3021db2021db0021da9021da8021da7021da6021da5021da4021da3021da2021da0021d98021d97021d96021d95021d94021d93021d92021d90021d87021d86021d85021d84021d83021d820
def scoreCode.c133 : Nat := 0x229740229730229710229700229650229640229630229610229600229540229530229510229500229430229410229400229310229300229100229000228760228750228740228730228710228700228650228640228630228610228600228540228530228510228500228430228410228400228310228300228100228000227650227640227630227610227600227540227530227510227500227430227410227400227310227300227100227000226540226530226510226500226430226410
def scoreCode.c134 : Nat := 0x22b71022b70022b65022b64022b63022b61022b60022b54022b53022b51022b50022b43022b41022b40022b31022b30022b10022b00022a98022a97022a96022a95022a94022a93022a91022a90022a87022a86022a85022a84022a83022a81022a80022a76022a75022a74022a73022a71022a70022a65022a64022a63022a61022a60022a54022a53022a51022a50022a43022a41022a40022a31022a30022a10022a000229870229860229850229840229830229810229800229760229750
def scoreCode.c135 : Nat := 0x22c97022c96022c95022c94022c93022c91022c90022c87022c86022c85022c84022c83022c81022c80022c76022c75022c74022c73022c71022c70022c65022c64022c63022c61022c60022c54022c53022c51022c50022c43022c41022c40022c31022c30022c10022c00022ba9022ba8022ba7022ba6022ba5022ba4022ba3022ba1022ba0022b98022b97022b96022b95022b94022b93022b91022b90022b87022b86022b85022b84022b83022b81022b80022b76022b75022b74022b730
def scoreCode.c136 : Nat := 0x22da7022da6022da5022da4022da3022da1022da0022d98022d97022d96022d95022d94022d93022d91022d90022d87022d86022d85022d84022d83022d81022d80022d76022d75022d74022d73022d71022d70022d65022d64022d63022d61022d60022d54022d53022d51022d50022d43022d41022d40022d31022d30022d10022d00022cba022cb9022cb8022cb7022cb6022cb5022cb4022cb3022cb1022cb0022ca9022ca8022ca7022ca6022ca5022ca4022ca3022ca1022ca0022c980
def scoreCode.c137 : Nat := 0x23764023762023761023760023754023752023751023750023742023741023740023721023720023710023700023654023652023651023650023642023641023640023621023620023610023600023542023541023540023521023520023510023500023421023420023410023400023210023200023100023000022dcb022dca022dc9022dc8022dc7022dc6022dc5022dc4022dc3022dc1022dc0022dba022db9022db8022db7022db6022db5022db4022db3022db1022db0022da9022da80
def scoreCode.c138 : Nat := 0x23a60023a54023a52023a51023a50023a42023a41023a40023a21023a20023a10023a000239870239860239850239840239820239810239800239760239750239740239720239710239700239650239640239620239610239600239540239520239510239500239420239410239400239210239200239100239000238760238750238740238720238710238700238650238640238620238610238600238540238520238510238500238420238410238400238210238200238100238000237650
def scoreCode.c139 : Nat := 0x23ba1023ba0023b98023b97023b96023b95023b94023b92023b91023b90023b87023b86023b85023b84023b82023b81023b80023b76023b75023b74023b72023b71023b70023b65023b64023b62023b61023b60023b54023b52023b51023b50023b42023b41023b40023b21023b20023b10023b00023a98023a97023a96023a95023a94023a92023a91023a90023a87023a86023a85023a84023a82023a81023a80023a76023a75023a74023a72023a71023a70023a65023a64023a62023a610
def scoreCode.c140 : Nat := 0x23d00023cba023cb9023cb8023cb7023cb6023cb5023cb4023cb2023cb1023cb0023ca9023ca8023ca7023ca6023ca5023ca4023ca2023ca1023ca0023c98023c97023c96023c95023c94023c92023c91023c90023c87023c86023c85023c84023c82023c81023c80023c76023c75023c74023c72023c71023c70023c65023c64023c62023c61023c60023c54023c52023c51023c50023c42023c41023c40023c21023c20023c10023c00023ba9023ba8023ba7023ba6023ba5023ba4023ba20
def scoreCode.c141 : Nat := 0x23dc9023dc8023dc7023dc6023dc5023dc4023dc2023dc1023dc0023dba023db9023db8023db7023db6023db5023db4023db2023db1023db0023da9023da8023da7023da6023da5023da4023da2023da1023da0023d98023d97023d96023d95023d94023d92023d91023d90023d87023d86023d85023d84023d82023d81023d80023d76023d75023d74023d72023d71023d70023d65023d64023d62023d61023d60023d54023d52023d51023d50023d42023d41023d40023d21023d20023d100
def scoreCode.c142 : Nat := 0x24873024872024871024870024865024863024862024861024860024853024852024851024850024832024831024830024821024820024810024800024765024763024762024761024760024753024752024751024750024732024731024730024721024720024710024700024653024652024651024650024632024631024630024621024620024610024600024532024531024530024521024520024510024500024321024320024310024300024210024200024100024000023dcb023dca0
def scoreCode.c143 : Nat := 0x24a93024a92024a91024a90024a87024a86024a85024a83024a82024a81024a80024a76024a75024a73024a72024a71024a70024a65024a63024a62024a61024a60024a53024a52024a51024a50024a32024a31024a30024a21024a20024a10024a000249870249860249850249830249820249810249800249760249750249730249720249710249700249650249630249620249610249600249530249520249510249500249320249310249300249210249200249100249000248760248750
def scoreCode.c144 : Nat := 0x24c62024c61024c60024c53024c52024c51024c50024c32024c31024c30024c21024c20024c10024c00024ba9024ba8024ba7024ba6024ba5024ba3024ba2024ba1024ba0024b98024b97024b96024b95024b93024b92024b91024b90024b87024b86024b85024b83024b82024b81024b80024b76024b75024b73024b72024b71024b70024b65024b63024b62024b61024b60024b53024b52024b51024b50024b32024b31024b30024b21024b20024b10024b00024a98024a97024a96024a950
def scoreCode.c145 : Nat := 0x24d76024d75024d73024d72024d71024d70024d65024d63024d62024d61024d60024d53024d52024d51024d50024d32024d31024d30024d21024d20024d10024d00024cba024cb9024cb8024cb7024cb6024cb5024cb3024cb2024cb1024cb0024ca9024ca8024ca7024ca6024ca5024ca3024ca2024ca1024ca0024c98024c97024c96024c95024c93024c92024c91024c90024c87024c86024c85024c83024c82024c81024c80024c76024c75024c73024c72024c71024c70024c65024c630
def scoreCode.c146 : Nat := 0x25621025620025610025600025432025431025430025421025420025410025400025321025320025310025300025210025200025100025000024dcb024dca024dc9024dc8024dc7024dc6024dc5024dc3024dc2024dc1024dc0024dba024db9024db8024db7024db6024db5024db3024db2024db1024db0024da9024da8024da7024da6024da5024da3024da2024da1024da0024d98024d97024d96024d95024d93024d92024d91024d90024d87024d86024d85024d83024d82024d81024d800
def scoreCode.c147 : Nat := 0x259720259710259700259640259630259620259610259600259430259420259410259400259320259310259300259210259200259100259000258760258740258730258720258710258700258640258630258620258610258600258430258420258410258400258320258310258300258210258200258100258000257640257630257620257610257600257430257420257410257400257320257310257300257210257200257100257000256430256420256410256400256320256310256300
def scoreCode.c148 : Nat := 0x25b70025b64025b63025b62025b61025b60025b43025b42025b41025b40025b32025b31025b30025b21025b20025b10025b00025a98025a97025a96025a94025a93025a92025a91025a90025a87025a86025a84025a83025a82025a81025a80025a76025a74025a73025a72025a71025a70025a64025a63025a62025a61025a60025a43025a42025a41025a40025a32025a31025a30025a21025a20025a10025a000259870259860259840259830259820259810259800259760259740259730
def scoreCode.c149 : Nat := 0x25c96025c94025c93025c92025c91025c90025c87025c86025c84025c83025c82025c81025c80025c76025c74025c73025c72025c71025c70025c64025c63025c62025c61025c60025c43025c42025c41025c40025c32025c31025c30025c21025c20025c10025c00025ba9025ba8025ba7025ba6025ba4025ba3025ba2025ba1025ba0025b98025b97025b96025b94025b93025b92025b91025b90025b87025b86025b84025b83025b82025b81025b80025b76025b74025b73025b72025b710
def scoreCode.c150 : Nat := 0x25da6025da4025da3025da2025da1025da0025d98025d97025d96025d94025d93025d92025d91025d90025d87025d86025d84025d83025d82025d81025d80025d76025d74025d73025d72025d71025d70025d64025d63025d62025d61025d60025d43025d42025d41025d40025d32025d31025d30025d21025d20025d10025d00025cba025cb9025cb8025cb7025cb6025cb4025cb3025cb2025cb1025cb0025ca9025ca8025ca7025ca6025ca4025ca3025ca2025ca1025ca0025c98025c970
def scoreCode.c151 : Nat := 0x26752026751026750026743026742026741026740026732026731026730026721026720026710026700026543026542026541026540026532026531026530026521026520026510026500026432026431026430026421026420026410026400026321026320026310026300026210026200026100026000025dcb025dca025dc9025dc8025dc7025dc6025dc4025dc3025dc2025dc1025dc0025dba025db9025db8025db7025db6025db4025db3025db2025db1025db0025da9025da8025da70
def scoreCode.c152 : Nat := 0x26a43026a42026a41026a40026a32026a31026a30026a21026a20026a10026a000269870269850269840269830269820269810269800269750269740269730269720269710269700269540269530269520269510269500269430269420269410269400269320269310269300269210269200269100269000268750268740268730268720268710268700268540268530268520268510268500268430268420268410268400268320268310268300268210268200268100268000267540267530
def scoreCode.c153 : Nat := 0x26ba0026b98026b97026b95026b94026b93026b92026b91026b90026b87026b85026b84026b83026b82026b81026b80026b75026b74026b73026b72026b71026b70026b54026b53026b52026b51026b50026b43026b42026b41026b40026b32026b31026b30026b21026b20026b10026b00026a98026a97026a95026a94026a93026a92026a91026a90026a87026a85026a84026a83026a82026a81026a80026a75026a74026a73026a72026a71026a70026a54026a53026a52026a51026a500
def scoreCode.c154 : Nat := 0x26cba026cb9026cb8026cb7026cb5026cb4026cb3026cb2026cb1026cb0026ca9026ca8026ca7026ca5026ca4026ca3026ca2026ca1026ca0026c98026c97026c95026c94026c93026c92026c91026c90026c87026c85026c84026c83026c82026c81026c80026c75026c74026c73026c72026c71026c70026c54026c53026c52026c51026c50026c43026c42026c41026c40026c32026c31026c30026c21026c20026c10026c00026ba9026ba8026ba7026ba5026ba4026ba3026ba2026ba10
def scoreCode.c155 : Nat := 0x26dc8026dc7026dc5026dc4026dc3026dc2026dc1026dc0026dba026db9026db8026db7026db5026db4026db3026db2026db1026db0026da9026da8026da7026da5026da4026da3026da2026da1026da0026d98026d97026d95026d94026d93026d92026d91026d90026d87026d85026d84026d83026d82026d81026d80026d75026d74026d73026d72026d71026d70026d54026d53026d52026d51026d50026d43026d42026d41026d40026d32026d31026d30026d21026d20026d10026d000
def scoreCode.c156 : Nat := 0x27862027861027860027854027853027852027851027850027843027842027841027840027832027831027830027821027820027810027800027654027653027652027651027650027643027642027641027640027632027631027630027621027620027610027600027543027542027541027540027532027531027530027521027520027510027500027432027431027430027421027420027410027400027321027320027310027300027210027200027100027000026dcb026dca026dc90
def scoreCode.c157 : Nat := 0x27a92027a91027a90027a86027a85027a84027a83027a82027a81027a80027a65027a64027a63027a62027a61027a60027a54027a53027a52027a51027a50027a43027a42027a41027a40027a32027a31027a30027a21027a20027a10027a000279860279850279840279830279820279810279800279650279640279630279620279610279600279540279530279520279510279500279430279420279410279400279320279310279300279210279200279100279000278650278640278630
def scoreCode.c158 : Nat := 0x27c51027c50027c43027c42027c41027c40027c32027c31027c30027c21027c20027c10027c00027ba9027ba8027ba6027ba5027ba4027ba3027ba2027ba1027ba0027b98027b96027b95027b94027b93027b92027b91027b90027b86027b85027b84027b83027b82027b81027b80027b65027b64027b63027b62027b61027b60027b54027b53027b52027b51027b50027b43027b42027b41027b40027b32027b31027b30027b21027b20027b10027b00027a98027a96027a95027a94027a930
def scoreCode.c159 : Nat := 0x27d64027d63027d62027d61027d60027d54027d53027d52027d51027d50027d43027d42027d41027d40027d32027d31027d30027d21027d20027d10027d00027cba027cb9027cb8027cb6027cb5027cb4027cb3027cb2027cb1027cb0027ca9027ca8027ca6027ca5027ca4027ca3027ca2027ca1027ca0027c98027c96027c95027c94027c93027c92027c91027c90027c86027c85027c84027c83027c82027c81027c80027c65027c64027c63027c62027c61027c60027c54027c53027c520
def scoreCode.c160 : Nat := 0x28520028510028500028432028431028430028421028420028410028400028321028320028310028300028210028200028100028000027dcb027dca027dc9027dc8027dc6027dc5027dc4027dc3027dc2027dc1027dc0027dba027db9027db8027db6027db5027db4027db3027db2027db1027db0027da9027da8027da6027da5027da4027da3027da2027da1027da0027d98027d96027d95027d94027d93027d92027d91027d90027d86027d85027d84027d83027d82027d81027d80027d650
def scoreCode.c161 : Nat := 0x289610289600289540289530289520289510289500289430289420289410289400289320289310289300289210289200289100289000287650287640287630287620287610287600287540287530287520287510287500287430287420287410287400287320287310287300287210287200287100287000286540286530286520286510286500286430286420286410286400286320286310286300286210286200286100286000285430285420285410285400285320285310285300285210
def scoreCode.c162 : Nat := 0x28b54028b53028b52028b51028b50028b43028b42028b41028b40028b32028b31028b30028b21028b20028b10028b00028a97028a96028a95028a94028a93028a92028a91028a90028a76028a75028a74028a73028a72028a71028a70028a65028a64028a63028a62028a61028a60028a54028a53028a52028a51028a50028a43028a42028a41028a40028a32028a31028a30028a21028a20028a10028a000289760289750289740289730289720289710289700289650289640289630289620
def scoreCode.c163 : Nat := 0x28c94028c93028c92028c91028c90028c76028c75028c74028c73028c72028c71028c70028c65028c64028c63028c62028c61028c60028c54028c53028c52028c51028c50028c43028c42028c41028c40028c32028c31028c30028c21028c20028c10028c00028ba9028ba7028ba6028ba5028ba4028ba3028ba2028ba1028ba0028b97028b96028b95028b94028b93028b92028b91028b90028b76028b75028b74028b73028b72028b71028b70028b65028b64028b63028b62028b61028b600
def scoreCode.c164 : Nat := 0x28da4028da3028da2028da1028da0028d97028d96028d95028d94028d93028d92028d91028d90028d76028d75028d74028d73028d72028d71028d70028d65028d64028d63028d62028d61028d60028d54028d53028d52028d51028d50028d43028d42028d41028d40028d32028d31028d30028d21028d20028d10028d00028cba028cb9028cb7028cb6028cb5028cb4028cb3028cb2028cb1028cb0028ca9028ca7028ca6028ca5028ca4028ca3028ca2028ca1028ca0028c97028c96028c950
def scoreCode.c165 : Nat := 0x29651029650029643029642029641029640029632029631029630029621029620029610029600029543029542029541029540029532029531029530029521029520029510029500029432029431029430029421029420029410029400029321029320029310029300029210029200029100029000028dcb028dca028dc9028dc7028dc6028dc5028dc4028dc3028dc2028dc1028dc0028dba028db9028db7028db6028db5028db4028db3028db2028db1028db0028da9028da7028da6028da50
def scoreCode.c166 : Nat := 0x29a42029a41029a40029a32029a31029a30029a21029a20029a10029a000298760298750298740298730298720298710298700298650298640298630298620298610298600298540298530298520298510298500298430298420298410298400298320298310298300298210298200298100298000297650297640297630297620297610297600297540297530297520297510297500297430297420297410297400297320297310297300297210297200297100297000296540296530296520
def scoreCode.c167 : Nat := 0x29b87029b86029b85029b84029b83029b82029b81029b80029b76029b75029b74029b73029b72029b71029b70029b65029b64029b63029b62029b61029b60029b54029b53029b52029b51029b50029b43029b42029b41029b40029b32029b31029b30029b21029b20029b10029b00029a87029a86029a85029a84029a83029a82029a81029a80029a76029a75029a74029a73029a72029a71029a70029a65029a64029a63029a62029a61029a60029a54029a53029a52029a51029a50029a430
def scoreCode.c168 : Nat := 0x29cb8029cb7029cb6029cb5029cb4029cb3029cb2029cb1029cb0029ca8029ca7029ca6029ca5029ca4029ca3029ca2029ca1029ca0029c87029c86029c85029c84029c83029c82029c81029c80029c76029c75029c74029c73029c72029c71029c70029c65029c64029c63029c62029c61029c60029c54029c53029c52029c51029c50029c43029c42029c41029c40029c32029c31029c30029c21029c20029c10029c00029ba8029ba7029ba6029ba5029ba4029ba3029ba2029ba1029ba00
def scoreCode.c169 : Nat := 0x29dc6029dc5029dc4029dc3029dc2029dc1029dc0029dba029db8029db7029db6029db5029db4029db3029db2029db1029db0029da8029da7029da6029da5029da4029da3029da2029da1029da0029d87029d86029d85029d84029d83029d82029d81029d80029d76029d75029d74029d73029d72029d71029d70029d65029d64029d63029d62029d61029d60029d54029d53029d52029d51029d50029d43029d42029d41029d40029d32029d31029d30029d21029d20029d10029d00029cba0
def scoreCode.c170 : Nat := 0x2a76102a76002a75402a75302a75202a75102a75002a74302a74202a74102a74002a73202a73102a73002a72102a72002a71002a70002a65402a65302a65202a65102a65002a64302a64202a64102a64002a63202a63102a63002a62102a62002a61002a60002a54302a54202a54102a54002a53202a53102a53002a52102a52002a51002a50002a43202a43102a43002a42102a42002a41002a40002a32102a32002a31002a30002a21002a20002a10002a000029dcb029dca029dc8029dc70
def scoreCode.c171 : Nat := 0x2a98102a98002a97602a97502a97402a97302a97202a97102a97002a96502a96402a96302a96202a96102a96002a95402a95302a95202a95102a95002a94302a94202a94102a94002a93202a93102a93002a92102a92002a91002a90002a87602a87502a87402a87302a87202a87102a87002a86502a86402a86302a86202a86102a86002a85402a85302a85202a85102a85002a84302a84202a84102a84002a83202a83102a83002a82102a82002a81002a80002a76502a76402a76302a7620
def scoreCode.c172 : Nat := 0x2ac5002ac4302ac4202ac4102ac4002ac3202ac3102ac3002ac2102ac2002ac1002ac0002ab9802ab9702ab9602ab9502ab9402ab9302ab9202ab9102ab9002ab8702ab8602ab8502ab8402ab8302ab8202ab8102ab8002ab7602ab7502ab7402ab7302ab7202ab7102ab7002ab6502ab6402ab6302ab6202ab6102ab6002ab5402ab5302ab5202ab5102ab5002ab4302ab4202ab4102ab4002ab3202ab3102ab3002ab2102ab2002ab1002ab0002a98702a98602a98502a98402a98302a9820
def scoreCode.c173 : Nat := 0x2ad6302ad6202ad6102ad6002ad5402ad5302ad5202ad5102ad5002ad4302ad4202ad4102ad4002ad3202ad3102ad3002ad2102ad2002ad1002ad0002acb902acb802acb702acb602acb502acb402acb302acb202acb102acb002ac9802ac9702ac9602ac9502ac9402ac9302ac9202ac9102ac9002ac8702ac8602ac8502ac8402ac8302ac8202ac8102ac8002ac7602ac7502ac7402ac7302ac7202ac7102ac7002ac6502ac6402ac6302ac6202ac6102ac6002ac5402ac5302ac5202ac510
def scoreCode.c174 : Nat := 0x2b51002b50002b43202b43102b43002b42102b42002b41002b40002b32102b32002b31002b30002b21002b20002b10002b00002adcb02adc902adc802adc702adc602adc502adc402adc302adc202adc102adc002adb902adb802adb702adb602adb502adb402adb302adb202adb102adb002ad9802ad9702ad9602ad9502ad9402ad9302ad9202ad9102ad9002ad8702ad8602ad8502ad8402ad8302ad8202ad8102ad8002ad7602ad7502ad7402ad7302ad7202ad7102ad7002ad6502ad640
def scoreCode.c175 : Nat := 0x2b86002b85402b85302b85202b85102b85002b84302b84202b84102b84002b83202b83102b83002b82102b82002b81002b80002b76502b76402b76302b76202b76102b76002b75402b75302b75202b75102b75002b74302b74202b74102b74002b73202b73102b73002b72102b72002b71002b70002b65402b65302b65202b65102b65002b64302b64202b64102b64002b63202b63102b63002b62102b62002b61002b60002b54302b54202b54102b54002b53202b53102b53002b52102b5200
def scoreCode.c176 : Nat := 0x2ba5302ba5202ba5102ba5002ba4302ba4202ba4102ba4002ba3202ba3102ba3002ba2102ba2002ba1002ba0002b98702b98602b98502b98402b98302b98202b98102b98002b97602b97502b97402b97302b97202b97102b97002b96502b96402b96302b96202b96102b96002b95402b95302b95202b95102b95002b94302b94202b94102b94002b93202b93102b93002b92102b92002b91002b90002b87602b87502b87402b87302b87202b87102b87002b86502b86402b86302b86202b8610
def scoreCode.c177 : Nat := 0x2bc8302bc8202bc8102bc8002bc7602bc7502bc7402bc7302bc7202bc7102bc7002bc6502bc6402bc6302bc6202bc6102bc6002bc5402bc5302bc5202bc5102bc5002bc4302bc4202bc4102bc4002bc3202bc3102bc3002bc2102bc2002bc1002bc0002ba9802ba9702ba9602ba9502ba9402ba9302ba9202ba9102ba9002ba8702ba8602ba8502ba8402ba8302ba8202ba8102ba8002ba7602ba7502ba7402ba7302ba7202ba7102ba7002ba6502ba6402ba6302ba6202ba6102ba6002ba540
def scoreCode.c178 : Nat := 0x2bd9302bd9202bd9102bd9002bd8702bd8602bd8502bd8402bd8302bd8202bd8102bd8002bd7602bd7502bd7402bd7302bd7202bd7102bd7002bd6502bd6402bd6302bd6202bd6102bd6002bd5402bd5302bd5202bd5102bd5002bd4302bd4202bd4102bd4002bd3202bd3102bd3002bd2102bd2002bd1002bd0002bca902bca802bca702bca602bca502bca402bca302bca202bca102bca002bc9802bc9702bc9602bc9502bc9402bc9302bc9202bc9102bc9002bc8702bc8602bc8502bc840
def scoreCode.c179 : Nat := 0x2c65002c64302c64202c64102c64002c63202c63102c63002c62102c62002c61002c60002c54302c54202c54102c54002c53202c53102c53002c52102c52002c51002c50002c43202c43102c43002c42102c42002c41002c40002c32102c32002c31002c30002c21002c20002c10002c00002bdca02bdc902bdc802bdc702bdc602bdc502bdc402bdc302bdc202bdc102bdc002bda902bda802bda702bda602bda502bda402bda302bda202bda102bda002bd9802bd9702bd9602bd9502bd940
def scoreCode.c180 : Nat := 0x2c94102c94002c93202c93102c93002c92102c92002c91002c90002c87602c87502c87402c87302c87202c87102c87002c86502c86402c86302c86202c86102c86002c85402c85302c85202c85102c85002c84302c84202c84102c84002c83202c83102c83002c82102c82002c81002c80002c76502c76402c76302c76202c76102c76002c75402c75302c75202c75102c75002c74302c74202c74102c74002c73202c73102c73002c72102c72002c71002c70002c65402c65302c65202c6510
def scoreCode.c181 : Nat := 0x2ca8602ca8502ca8402ca8302ca8202ca8102ca8002ca7602ca7502ca7402ca7302ca7202ca7102ca7002ca6502ca6402ca6302ca6202ca6102ca6002ca5402ca5302ca5202ca5102ca5002ca4302ca4202ca4102ca4002ca3202ca3102ca3002ca2102ca2002ca1002ca0002c98702c98602c98502c98402c98302c98202c98102c98002c97602c97502c97402c97302c97202c97102c97002c96502c96402c96302c96202c96102c96002c95402c95302c95202c95102c95002c94302c9420
def scoreCode.c182 : Nat := 0x2cba702cba602cba502cba402cba302cba202cba102cba002cb9802cb9702cb9602cb9502cb9402cb9302cb9202cb9102cb9002cb8702cb8602cb8502cb8402cb8302cb8202cb8102cb8002cb7602cb7502cb7402cb7302cb7202cb7102cb7002cb6502cb6402cb6302cb6202cb6102cb6002cb5402cb5302cb5202cb5102cb5002cb4302cb4202cb4102cb4002cb3202cb3102cb3002cb2102cb2002cb1002cb0002ca9802ca9702ca9602ca9502ca9402ca9302ca9202ca9102ca9002ca870
def scoreCode.c183 : Nat := 0x2cdb502cdb402cdb302cdb202cdb102cdb002cda902cda802cda702cda602cda502cda402cda302cda202cda102cda002cd9802cd9702cd9602cd9502cd9402cd9302cd9202cd9102cd9002cd8702cd8602cd8502cd8402cd8302cd8202cd8102cd8002cd7602cd7502cd7402cd7302cd7202cd7102cd7002cd6502cd6402cd6302cd6202cd6102cd6002cd5402cd5302cd5202cd5102cd5002cd4302cd4202cd4102cd4002cd3202cd3102cd3002cd2102cd2002cd1002cd0002cba902cba80
def scoreCode.c184 : Nat := 0x2d76002d75402d75302d75202d75102d75002d74302d74202d74102d74002d73202d73102d73002d72102d72002d71002d70002d65402d65302d65202d65102d65002d64302d64202d64102d64002d63202d63102d63002d62102d62002d61002d60002d54302d54202d54102d54002d53202d53102d53002d52102d52002d51002d50002d43202d43102d43002d42102d42002d41002d40002d32102d32002d31002d30002d21002d20002d10002d00002cdba02cdb902cdb802cdb702cdb60
def scoreCode.c185 : Nat := 0x2d98002d97602d97502d97402d97302d97202d97102d97002d96502d96402d96302d96202d96102d96002d95402d95302d95202d95102d95002d94302d94202d94102d94002d93202d93102d93002d92102d92002d91002d90002d87602d87502d87402d87302d87202d87102d87002d86502d86402d86302d86202d86102d86002d85402d85302d85202d85102d85002d84302d84202d84102d84002d83202d83102d83002d82102d82002d81002d80002d76502d76402d76302d76202d7610
def scoreCode.c186 : Nat := 0x2db4302db4202db4102db4002db3202db3102db3002db2102db2002db1002db0002da9802da9702da9602da9502da9402da9302da9202da9102da9002da8702da8602da8502da8402da8302da8202da8102da8002da7602da7502da7402da7302da7202da7102da7002da6502da6402da6302da6202da6102da6002da5402da5302da5202da5102da5002da4302da4202da4102da4002da3202da3102da3002da2102da2002da1002da0002d98702d98602d98502d98402d98302d98202d9810
def scoreCode.c187 : Nat := 0x2dc6202dc6102dc6002dc5402dc5302dc5202dc5102dc5002dc4302dc4202dc4102dc4002dc3202dc3102dc3002dc2102dc2002dc1002dc0002dba902dba802dba702dba602dba502dba402dba302dba202dba102dba002db9802db9702db9602db9502db9402db9302db9202db9102db9002db8702db8602db8502db8402db8302db8202db8102db8002db7602db7502db7402db7302db7202db7102db7002db6502db6402db6302db6202db6102db6002db5402db5302db5202db5102db500
def scoreCode.c188 : Nat := 0x2dcba02dcb902dcb802dcb702dcb602dcb502dcb402dcb302dcb202dcb102dcb002dca902dca802dca702dca602dca502dca402dca302dca202dca102dca002dc9802dc9702dc9602dc9502dc9402dc9302dc9202dc9102dc9002dc8702dc8602dc8502dc8402dc8302dc8202dc8102dc8002dc7602dc7502dc7402dc7302dc7202dc7102dc7002dc6502dc6402dc630
def scoreCode.c189 : Nat := 0x0
def scoreCode.c190 : Nat := 0x0
def scoreCode.c191 : Nat := 0x0
def scoreCode.c192 : Nat := 0x343200343100343000342d00342c00342b00342a00342900342800342700342600342500342300342100342000341d00341c00341b00341a00341900341800341700341600341500341300341200341000332d00332c00332b00332a00332900332800332700332600332500332400332100332000331d00331c00331b00331a00331900331800331700331600331500331400331200331000321d00321c00321b00321a00321900321800321700321600321500321400321300321000000000
def scoreCode.c193 : Nat := 0x361800361700361500361400361300361200361000354d00354c00354b00354a00354900354800354700354600354300354200354100354000353d00353c00353b00353a00353900353800353700353600353400353200353100353000352d00352c00352b00352a00352900352800352700352600352400352300352100352000351d00351c00351b00351a00351900351800351700351600351400351300351200351000343d00343c00343b00343a00343900343800343700343600343500
def scoreCode.c194 : Nat := 0x371c00371b00371a00371900371800371600371500371400371300371200371000365d00365c00365b00365a00365900365800365700365400365300365200365100365000364d00364c00364b00364a00364900364800364700364500364300364200364100364000363d00363c00363b00363a00363900363800363700363500363400363200363100363000362d00362c00362b00362a00362900362800362700362500362400362300362100362000361d00361c00361b00361a00361900
def scoreCode.c195 : Nat := 0x381300381200381000376d00376c00376b00376a00376900376800376500376400376300376200376100376000375d00375c00375b00375a00375900375800375600375400375300375200375100375000374d00374c00374b00374a00374900374800374600374500374300374200374100374000373d00373c00373b00373a00373900373800373600373500373400373200373100373000372d00372c00372b00372a00372900372800372600372500372400372300372100372000371d00
def scoreCode.c196 : Nat := 0x386700386500386400386300386200386100386000385d00385c00385b00385a00385900385700385600385400385300385200385100385000384d00384c00384b00384a00384900384700384600384500384300384200384100384000383d00383c00383b00383a00383900383700383600383500383400383200383100383000382d00382c00382b00382a00382900382700382600382500382400382300382100382000381d00381c00381b00381a00381900381700381600381500381400
def scoreCode.c197 : Nat := 0x394c00394b00394a00394800394700394600394500394300394200394100394000393d00393c00393b00393a00393800393700393600393500393400393200393100393000392d00392c00392b00392a00392800392700392600392500392400392300392100392000391d00391c00391b00391a00391800391700391600391500391400391300391200391000387d00387c00387b00387a00387900387600387500387400387300387200387100387000386d00386c00386b00386a00386900
def scoreCode.c198 : Nat := 0x3a23003a21003a20003a1d003a1c003a1b003a19003a18003a17003a16003a15003a14003a13003a12003a1000398d00398c00398b00398a00398700398600398500398400398300398200398100398000397d00397c00397b00397a00397800397600397500397400397300397200397100397000396d00396c00396b00396a00396800396700396500396400396300396200396100396000395d00395c00395b00395a00395800395700395600395400395300395200395100395000394d00
def scoreCode.c199 : Nat := 0x3a76003a75003a74003a73003a72003a71003a70003a6d003a6c003a6b003a69003a68003a67003a65003a64003a63003a62003a61003a60003a5d003a5c003a5b003a59003a58003a57003a56003a54003a53003a52003a51003a50003a4d003a4c003a4b003a49003a48003a47003a46003a45003a43003a42003a41003a40003a3d003a3c003a3b003a39003a38003a37003a36003a35003a34003a32003a31003a30003a2d003a2c003a2b003a29003a28003a27003a26003a25003a2400
def scoreCode.c200 : Nat := 0x3b3c003b3a003b39003b38003b37003b36003b35003b34003b32003b31003b30003b2d003b2c003b2a003b29003b28003b27003b26003b25003b24003b23003b21003b20003b1d003b1c003b1a003b19003b18003b17003b16003b15003b14003b13003b12003b10003a9d003a9c003a9b003a98003a97003a96003a95003a94003a93003a92003a91003a90003a8d003a8c003a8b003a89003a87003a86003a85003a84003a83003a82003a81003a80003a7d003a7c003a7b003a79003a7800
def scoreCode.c201 : Nat := 0x3b92003b91003b90003b8d003b8c003b8a003b89003b87003b86003b85003b84003b83003b82003b81003b80003b7d003b7c003b7a003b79003b78003b76003b75003b74003b73003b72003b71003b70003b6d003b6c003b6a003b69003b68003b67003b65003b64003b63003b62003b61003b60003b5d003b5c003b5a003b59003b58003b57003b56003b54003b53003b52003b51003b50003b4d003b4c003b4a003b49003b48003b47003b46003b45003b43003b42003b41003b40003b3d00
def scoreCode.c202 : Nat := 0x3c47003c46003c45003c43003c42003c41003c40003c3d003c3b003c3a003c39003c38003c37003c36003c35003c34003c32003c31003c30003c2d003c2b003c2a003c29003c28003c27003c26003c25003c24003c23003c21003c20003c1d003c1b003c1a003c19003c18003c17003c16003c15003c14003c13003c12003c10003bad003bac003ba9003ba8003ba7003ba6003ba5003ba4003ba3003ba2003ba1003ba0003b9d003b9c003b9a003b98003b97003b96003b95003b94003b9300
def scoreCode.c203 : Nat := 0x3c9b003c9a003c98003c97003c96003c95003c94003c93003c92003c91003c90003c8d003c8b003c8a003c89003c87003c86003c85003c84003c83003c82003c81003c80003c7d003c7b003c7a003c79003c78003c76003c75003c74003c73003c72003c71003c70003c6d003c6b003c6a003c69003c68003c67003c65003c64003c63003c62003c61003c60003c5d003c5b003c5a003c59003c58003c57003c56003c54003c53003c52003c51003c50003c4d003c4b003c4a003c49003c4800
def scoreCode.c204 : Nat := 0x3d42003d41003d40003d3c003d3b003d3a003d39003d38003d37003d36003d35003d34003d32003d31003d30003d2c003d2b003d2a003d29003d28003d27003d26003d25003d24003d23003d21003d20003d1c003d1b003d1a003d19003d18003d17003d16003d15003d14003d13003d12003d10003cbd003cba003cb9003cb8003cb7003cb6003cb5003cb4003cb3003cb2003cb1003cb0003cad003cab003ca9003ca8003ca7003ca6003ca5003ca4003ca3003ca2003ca1003ca0003c9d00
def scoreCode.c205 : Nat := 0x3d96003d95003d94003d93003d92003d91003d90003d8c003d8b003d8a003d89003d87003d86003d85003d84003d83003d82003d81003d80003d7c003d7b003d7a003d79003d78003d76003d75003d74003d73003d72003d71003d70003d6c003d6b003d6a003d69003d68003d67003d65003d64003d63003d62003d61003d60003d5c003d5b003d5a003d59003d58003d57003d56003d54003d53003d52003d51003d50003d4c003d4b003d4a003d49003d48003d47003d46003d45003d4300
def scoreCode.c206 : Nat := 0x3dcb003dca003dc9003dc8003dc7003dc6003dc5003dc4003dc3003dc2003dc1003dc0003dbc003dba003db9003db8003db7003db6003db5003db4003db3003db2003db1003db0003dac003dab003da9003da8003da7003da6003da5003da4003da3003da2003da1003da0003d9c003d9b003d9a003d98003d9700
def scoreCode.c207 : Nat := 0x0
def scoreCode.c208 : Nat := 0x0
def scoreCode.c209 : Nat := 0x0
def scoreCode.c210 : Nat := 0x0
def scoreCode.c211 : Nat := 0x0
def scoreCode.c212 : Nat := 0x0
def scoreCode.c213 : Nat := 0x0
def scoreCode.c214 : Nat := 0x0
def scoreCode.c215 : Nat := 0x0
def scoreCode.c216 : Nat := 0x0
def scoreCode.c217 : Nat := 0x0
def scoreCode.c218 : Nat := 0x0
def scoreCode.c219 : Nat := 0x0
def scoreCode.c220 : Nat := 0x0
def scoreCode.c221 : Nat := 0x0
def scoreCode.c222 : Nat := 0x0
def scoreCode.c223 : Nat := 0x0
def scoreCode.c224 : Nat := 0x0
def scoreCode.c225 : Nat := 0x0
def scoreCode.c226 : Nat := 0x0
def scoreCode.c227 : Nat := 0x0
def scoreCode.c228 : Nat := 0x0
def scoreCode.c229 : Nat := 0x0
def scoreCode.c230 : Nat := 0x0
def scoreCode.c231 : Nat := 0x0
def scoreCode.c232 : Nat := 0x0
def scoreCode.c233 : Nat := 0x0
def scoreCode.c234 : Nat := 0x0
def scoreCode.c235 : Nat := 0x0
def scoreCode.c236 : Nat := 0x0
def scoreCode.c237 : Nat := 0x0
def scoreCode.c238 : Nat := 0x0
def scoreCode.c239 : Nat := 0x0
def scoreCode.c240 : Nat := 0x0
def scoreCode.c241 : Nat := 0x0
def scoreCode.c242 : Nat := 0x0
def scoreCode.c243 : Nat := 0x0
def scoreCode.c244 : Nat := 0x0
def scoreCode.c245 : Nat := 0x0
def scoreCode.c246 : Nat := 0x0
def scoreCode.c247 : Nat := 0x0
def scoreCode.c248 : Nat := 0x0
def scoreCode.c249 : Nat := 0x0
def scoreCode.c250 : Nat := 0x0
def scoreCode.c251 : Nat := 0x0
def scoreCode.c252 : Nat := 0x0
def scoreCode.c253 : Nat := 0x0
def scoreCode.c254 : Nat := 0x0
def scoreCode.c255 : Nat := 0x0
def scoreCode.c256 : Nat := 0x41c70041c60041c50041c40041c30041c20041c00041ba0041b90041b80041b70041b60041b50041b40041b30041b20041b00041a90041a80041a70041a60041a50041a40041a30041a20041a000419800419700419600419500419400419300419200419000418700418600418500418400418300418200418000417600417500417400417300417200417000416500416400416300416200416000415400415300415200415000414300414200414000413200413000412000410000000000
def scoreCode.c257 : Nat := 0x42b10042b00042a90042a80042a70042a60042a50042a40042a30042a10042a00042980042970042960042950042940042930042910042900042870042860042850042840042830042810042800042760042750042740042730042710042700042650042640042630042610042600042540042530042510042500042430042410042400042310042300042100042000041dc0041db0041da0041d90041d80041d70041d60041d50041d40041d30041d20041d00041cb0041ca0041c90041c800
def scoreCode.c258 : Nat := 0x43940043920043910043900043870043860043850043840043820043810043800043760043750043740043720043710043700043650043640043620043610043600043540043520043510043500043420043410043400043210043200043100043000042dc0042db0042da0042d90042d80042d70042d60042d50042d40042d30042d10042d00042cb0042ca0042c90042c80042c70042c60042c50042c40042c30042c10042c00042ba0042b90042b80042b70042b60042b50042b40042b300
def scoreCode.c259 : Nat := 0x44710044700044650044630044620044610044600044530044520044510044500044320044310044300044210044200044100044000043dc0043db0043da0043d90043d80043d70043d60043d50043d40043d20043d10043d00043cb0043ca0043c90043c80043c70043c60043c50043c40043c20043c10043c00043ba0043b90043b80043b70043b60043b50043b40043b20043b10043b00043a90043a80043a70043a60043a50043a40043a20043a10043a000439800439700439600439500
def scoreCode.c260 : Nat := 0x45200045100045000044dc0044db0044da0044d90044d80044d70044d60044d50044d30044d20044d10044d00044cb0044ca0044c90044c80044c70044c60044c50044c30044c20044c10044c00044ba0044b90044b80044b70044b60044b50044b30044b20044b10044b00044a90044a80044a70044a60044a50044a30044a20044a10044a000449800449700449600449500449300449200449100449000448700448600448500448300448200448100448000447600447500447300447200
def scoreCode.c261 : Nat := 0x45cb0045ca0045c90045c80045c70045c60045c40045c30045c20045c10045c00045ba0045b90045b80045b70045b60045b40045b30045b20045b10045b00045a90045a80045a70045a60045a40045a30045a20045a10045a000459800459700459600459400459300459200459100459000458700458600458400458300458200458100458000457600457400457300457200457100457000456400456300456200456100456000454300454200454100454000453200453100453000452100
def scoreCode.c262 : Nat := 0x46b50046b40046b30046b20046b10046b00046a90046a80046a70046a50046a40046a30046a20046a10046a00046980046970046950046940046930046920046910046900046870046850046840046830046820046810046800046750046740046730046720046710046700046540046530046520046510046500046430046420046410046400046320046310046300046210046200046100046000045dc0045db0045da0045d90045d80045d70045d60045d40045d30045d20045d10045d000
def scoreCode.c263 : Nat := 0x47980047960047950047940047930047920047910047900047860047850047840047830047820047810047800047650047640047630047620047610047600047540047530047520047510047500047430047420047410047400047320047310047300047210047200047100047000046dc0046db0046da0046d90046d80046d70046d50046d40046d30046d20046d10046d00046cb0046ca0046c90046c80046c70046c50046c40046c30046c20046c10046c00046ba0046b90046b80046b700
def scoreCode.c264 : Nat := 0x48650048640048630048620048610048600048540048530048520048510048500048430048420048410048400048320048310048300048210048200048100048000047dc0047db0047da0047d90047d80047d60047d50047d40047d30047d20047d10047d00047cb0047ca0047c90047c80047c60047c50047c40047c30047c20047c10047c00047ba0047b90047b80047b60047b50047b40047b30047b20047b10047b00047a90047a80047a60047a50047a40047a30047a20047a10047a000
def scoreCode.c265 : Nat := 0x49320049310049300049210049200049100049000048dc0048db0048da0048d90048d70048d60048d50048d40048d30048d20048d10048d00048cb0048ca0048c90048c70048c60048c50048c40048c30048c20048c10048c00048ba0048b90048b70048b60048b50048b40048b30048b20048b10048b00048a90048a70048a60048a50048a40048a30048a20048a10048a000489700489600489500489400489300489200489100489000487600487500487400487300487200487100487000
def scoreCode.c266 : Nat := 0x49d30049d20049d10049d00049cb0049ca0049c80049c70049c60049c50049c40049c30049c20049c10049c00049ba0049b80049b70049b60049b50049b40049b30049b20049b10049b00049a80049a70049a60049a50049a40049a30049a20049a10049a000498700498600498500498400498300498200498100498000497600497500497400497300497200497100497000496500496400496300496200496100496000495400495300495200495100495000494300494200494100494000
def scoreCode.c267 : Nat := 0x4ab9004ab8004ab7004ab6004ab5004ab4004ab3004ab2004ab1004ab0004a98004a97004a96004a95004a94004a93004a92004a91004a90004a87004a86004a85004a84004a83004a82004a81004a80004a76004a75004a74004a73004a72004a71004a70004a65004a64004a63004a62004a61004a60004a54004a53004a52004a51004a50004a43004a42004a41004a40004a32004a31004a30004a21004a20004a10004a000049dc0049db0049da0049d80049d70049d60049d50049d400
def scoreCode.c268 : Nat := 0x4b93004b92004b91004b90004b87004b86004b85004b84004b83004b82004b81004b80004b76004b75004b74004b73004b72004b71004b70004b65004b64004b63004b62004b61004b60004b54004b53004b52004b51004b50004b43004b42004b41004b40004b32004b31004b30004b21004b20004b10004b00004adc004adb004ad9004ad8004ad7004ad6004ad5004ad4004ad3004ad2004ad1004ad0004acb004ac9004ac8004ac7004ac6004ac5004ac4004ac3004ac2004ac1004ac000
def scoreCode.c269 : Nat := 0x4c73004c72004c71004c70004c65004c64004c63004c62004c61004c60004c54004c53004c52004c51004c50004c43004c42004c41004c40004c32004c31004c30004c21004c20004c10004c00004bdc004bda004bd9004bd8004bd7004bd6004bd5004bd4004bd3004bd2004bd1004bd0004bca004bc9004bc8004bc7004bc6004bc5004bc4004bc3004bc2004bc1004bc0004ba9004ba8004ba7004ba6004ba5004ba4004ba3004ba2004ba1004ba0004b98004b97004b96004b95004b9400
def scoreCode.c270 : Nat := 0x4d43004d42004d41004d40004d32004d31004d30004d21004d20004d10004d00004cdb004cda004cd9004cd8004cd7004cd6004cd5004cd4004cd3004cd2004cd1004cd0004cba004cb9004cb8004cb7004cb6004cb5004cb4004cb3004cb2004cb1004cb0004ca9004ca8004ca7004ca6004ca5004ca4004ca3004ca2004ca1004ca0004c98004c97004c96004c95004c94004c93004c92004c91004c90004c87004c86004c85004c84004c83004c82004c81004c80004c76004c75004c7400
def scoreCode.c271 : Nat := 0x4dc7004dc6004dc5004dc4004dc3004dc2004dc1004dc0004dba004db9004db8004db7004db6004db5004db4004db3004db2004db1004db0004da9004da8004da7004da6004da5004da4004da3004da2004da1004da0004d98004d97004d96004d95004d94004d93004d92004d91004d90004d87004d86004d85004d84004d83004d82004d81004d80004d76004d75004d74004d73004d72004d71004d70004d65004d64004d63004d62004d61004d60004d54004d53004d52004d51004d5000
def scoreCode.c272 : Nat := 0x4dcb004dca004dc9004dc800
def scoreCode.c273 : Nat := 0x0
def scoreCode.c274 : Nat := 0x0
def scoreCode.c275 : Nat := 0x0
def scoreCode.c276 : Nat := 0x0
def scoreCode.c277 : Nat := 0x0
def scoreCode.c278 : Nat := 0x0
def scoreCode.c279 : Nat := 0x0
def scoreCode.c280 : Nat := 0x0
def scoreCode.c281 : Nat := 0x0
def scoreCode.c282 : Nat := 0x0
def scoreCode.c283 : Nat := 0x0
def scoreCode.c284 : Nat := 0x0
def scoreCode.c285 : Nat := 0x0
def scoreCode.c286 : Nat := 0x0
def scoreCode.c287 : Nat := 0x0
def scoreCode.c288 : Nat := 0x0
def scoreCode.c289 : Nat := 0x0
def scoreCode.c290 : Nat := 0x0
def scoreCode.c291 : Nat := 0x0
def scoreCode.c292 : Nat := 0x0
def scoreCode.c293 : Nat := 0x0
def scoreCode.c294 : Nat := 0x0
def scoreCode.c295 : Nat := 0x0
def scoreCode.c296 : Nat := 0x0
def scoreCode.c297 : Nat := 0x0
def scoreCode.c298 : Nat := 0x0
def scoreCode.c299 : Nat := 0x0
def scoreCode.c300 : Nat := 0x0
def scoreCode.c301 : Nat := 0x0
def scoreCode.c302 : Nat := 0x0
def scoreCode.c303 : Nat := 0x0
def scoreCode.c304 : Nat := 0x0
def scoreCode.c305 : Nat := 0x0
def scoreCode.c306 : Nat := 0x0
def scoreCode.c307 : Nat := 0x0
def scoreCode.c308 : Nat := 0x0
def scoreCode.c309 : Nat := 0x0
def scoreCode.c310 : Nat := 0x0
def scoreCode.c311 : Nat := 0x0
def scoreCode.c312 : Nat := 0x0
def scoreCode.c313 : Nat := 0x0
def scoreCode.c314 : Nat := 0x0
def scoreCode.c315 : Nat := 0x0
def scoreCode.c316 : Nat := 0x0
def scoreCode.c317 : Nat := 0x0
def scoreCode.c318 : Nat := 0x0
def scoreCode.c319 : Nat := 0x0
def scoreCode.c320 : Nat := 0x5d00005c00005b00005a0000590000580000570000560000550000540000000000
def scoreCode.c321 : Nat := 0x0
def scoreCode.c322 : Nat := 0x0
def scoreCode.c323 : Nat := 0x0
def scoreCode.c324 : Nat := 0x0
def scoreCode.c325 : Nat := 0x0
def scoreCode.c326 : Nat := 0x0
def scoreCode.c327 : Nat := 0x0
def scoreCode.c328 : Nat := 0x0
def scoreCode.c329 : Nat := 0x0
def scoreCode.c330 : Nat := 0x0
def scoreCode.c331 : Nat := 0x0
def scoreCode.c332 : Nat := 0x0
def scoreCode.c333 : Nat := 0x0
def scoreCode.c334 : Nat := 0x0
def scoreCode.c335 : Nat := 0x0
def scoreCode.c336 : Nat := 0x0
def scoreCode.c337 : Nat := 0x0
def scoreCode.c338 : Nat := 0x0
def scoreCode.c339 : Nat := 0x0
def scoreCode.c340 : Nat := 0x0
def scoreCode.c341 : Nat := 0x0
def scoreCode.c342 : Nat := 0x0
def scoreCode.c343 : Nat := 0x0
def scoreCode.c344 : Nat := 0x0
def scoreCode.c345 : Nat := 0x0
def scoreCode.c346 : Nat := 0x0
def scoreCode.c347 : Nat := 0x0
def scoreCode.c348 : Nat := 0x0
def scoreCode.c349 : Nat := 0x0
def scoreCode.c350 : Nat := 0x0
def scoreCode.c351 : Nat := 0x0
def scoreCode.c352 : Nat := 0x0
def scoreCode.c353 : Nat := 0x0
def scoreCode.c354 : Nat := 0x0
def scoreCode.c355 : Nat := 0x0
def scoreCode.c356 : Nat := 0x0
def scoreCode.c357 : Nat := 0x0
def scoreCode.c358 : Nat := 0x0
def scoreCode.c359 : Nat := 0x0
def scoreCode.c360 : Nat := 0x0
def scoreCode.c361 : Nat := 0x0
def scoreCode.c362 : Nat := 0x0
def scoreCode.c363 : Nat := 0x0
def scoreCode.c364 : Nat := 0x0
def scoreCode.c365 : Nat := 0x0
def scoreCode.c366 : Nat := 0x0
def scoreCode.c367 : Nat := 0x0
def scoreCode.c368 : Nat := 0x0
def scoreCode.c369 : Nat := 0x0
def scoreCode.c370 : Nat := 0x0
def scoreCode.c371 : Nat := 0x0
def scoreCode.c372 : Nat := 0x0
def scoreCode.c373 : Nat := 0x0
def scoreCode.c374 : Nat := 0x0
def scoreCode.c375 : Nat := 0x0
def scoreCode.c376 : Nat := 0x0
def scoreCode.c377 : Nat := 0x0
def scoreCode.c378 : Nat := 0x0
def scoreCode.c379 : Nat := 0x0
def scoreCode.c380 : Nat := 0x0
def scoreCode.c381 : Nat := 0x0
def scoreCode.c382 : Nat := 0x0
def scoreCode.c383 : Nat := 0x0
def scoreCode.c384 : Nat := 0x665431000000665421000000000000000000665321000000000000000000000000000000000000000000664321000000000000000000000000000000000000000000000000000000000000000000000000000000000000000000000000000000000000000000000000000000000000000000000000000000000000000000000000000000000000000000000000000000000000000000000000000000000000000000000000
def scoreCode.c385 : Nat := 0x684321000000000000000000000000000000000000000000000000000000000000000000000000000000000000676542676541000000676532676531000000676521000000000000000000676432676431000000676421000000000000000000676321000000000000000000000000000000000000000000675432675431000000675421000000000000000000675321000000000000000000000000000000000000000000674321000000000000000000000000000000
def scoreCode.c386 : Nat := 0x687543687542687541000000687532687531000000687521000000000000000000687432687431000000687421000000000000000000687321000000000000000000000000000000000000000000686543686542686541000000686532686531000000686521000000000000000000686432686431000000686421000000000000000000686321000000000000000000000000000000000000000000685432685431000000685421000000000000000000685321000000000000000000000000
def scoreCode.c387 : Nat := 0x696521000000000000000000696432696431000000696421000000000000000000696321000000000000000000000000000000000000000000695432695431000000695421000000000000000000695321000000000000000000000000000000000000000000694321000000000000000000000000000000000000000000000000000000000000000000000000000000000000687653687652687651000000687643687642687641000000687632687631000000687621000000000000000000
def scoreCode.c388 : Nat := 0x698432698431000000698421000000000000000000698321000000000000000000000000000000000000000000697654697653697652697651000000697643697642697641000000697632697631000000697621000000000000000000697543697542697541000000697532697531000000697521000000000000000000697432697431000000697421000000000000000000697321000000000000000000000000000000000000000000696543696542696541000000696532696531000000
def scoreCode.c389 : Nat := 0x6a4321000000000000000000000000000000000000000000000000000000000000000000000000000000000000698764698763698762698761000000698754698753698752698751000000698743698742698741000000698732698731000000698721000000000000000000698654698653698652698651000000698643698642698641000000698632698631000000698621000000000000000000698543698542698541000000698532698531000000698521000000000000000000
def scoreCode.c390 : Nat := 0x6a75410000006a75326a75310000006a75210000000000000000006a74326a74310000006a74210000000000000000006a73210000000000000000000000000000000000000000006a65436a65426a65410000006a65326a65310000006a65210000000000000000006a64326a64310000006a64210000000000000000006a63210000000000000000000000000000000000000000006a54326a54310000006a54210000000000000000006a5321000000000000000000000000000000000000
def scoreCode.c391 : Nat := 0x6a87210000000000000000006a86546a86536a86526a86510000006a86436a86426a86410000006a86326a86310000006a86210000000000000000006a85436a85426a85410000006a85326a85310000006a85210000000000000000006a84326a84310000006a84210000000000000000006a83210000000000000000000000000000000000000000006a76546a76536a76526a76510000006a76436a76426a76410000006a76326a76310000006a76210000000000000000006a75436a7542
def scoreCode.c392 : Nat := 0x6a97210000000000000000006a96546a96536a96526a96510000006a96436a96426a96410000006a96326a96310000006a96210000000000000000006a95436a95426a95410000006a95326a95310000006a95210000000000000000006a94326a94310000006a94210000000000000000006a93210000000000000000000000000000000000000000006a87656a87646a87636a87626a87610000006a87546a87536a87526a87510000006a87436a87426a87410000006a87326a8731000000
def scoreCode.c393 : Nat := 0x6b43210000000000000000000000000000000000000000000000000000000000000000000000000000000000006a98756a98746a98736a98726a98710000006a98656a98646a98636a98626a98610000006a98546a98536a98526a98510000006a98436a98426a98410000006a98326a98310000006a98210000000000000000006a97656a97646a97636a97626a97610000006a97546a97536a97526a97510000006a97436a97426a97410000006a97326a9731000000
def scoreCode.c394 : Nat := 0x6b75436b75426b75410000006b75326b75310000006b75210000000000000000006b74326b74310000006b74210000000000000000006b73210000000000000000000000000000000000000000006b65436b65426b65410000006b65326b65310000006b65210000000000000000006b64326b64310000006b64210000000000000000006b63210000000000000000000000000000000000000000006b54326b54310000006b54210000000000000000006b5321000000000000000000000000
def scoreCode.c395 : Nat := 0x6b87310000006b87210000000000000000006b86546b86536b86526b86510000006b86436b86426b86410000006b86326b86310000006b86210000000000000000006b85436b85426b85410000006b85326b85310000006b85210000000000000000006b84326b84310000006b84210000000000000000006b83210000000000000000000000000000000000000000006b76546b76536b76526b76510000006b76436b76426b76410000006b76326b76310000006b7621000000000000000000
def scoreCode.c396 : Nat := 0x6b97310000006b97210000000000000000006b96546b96536b96526b96510000006b96436b96426b96410000006b96326b96310000006b96210000000000000000006b95436b95426b95410000006b95326b95310000006b95210000000000000000006b94326b94310000006b94210000000000000000006b93210000000000000000000000000000000000000000006b87656b87646b87636b87626b87610000006b87546b87536b87526b87510000006b87436b87426b87410000006b8732
def scoreCode.c397 : Nat := 0x6ba5210000000000000000006ba4326ba4310000006ba4210000000000000000006ba3210000000000000000000000000000000000000000006b98766b98756b98746b98736b98726b98710000006b98656b98646b98636b98626b98610000006b98546b98536b98526b98510000006b98436b98426b98410000006b98326b98310000006b98210000000000000000006b97656b97646b97636b97626b97610000006b97546b97536b97526b97510000006b97436b97426b97410000006b9732
def scoreCode.c398 : Nat := 0x6ba8626ba8610000006ba8546ba8536ba8526ba8510000006ba8436ba8426ba8410000006ba8326ba8310000006ba8210000000000000000006ba7656ba7646ba7636ba7626ba7610000006ba7546ba7536ba7526ba7510000006ba7436ba7426ba7410000006ba7326ba7310000006ba7210000000000000000006ba6546ba6536ba6526ba6510000006ba6436ba6426ba6410000006ba6326ba6310000006ba6210000000000000000006ba5436ba5426ba5410000006ba5326ba531000000
def scoreCode.c399 : Nat := 0x6c43210000000000000000000000000000000000000000000000000000000000000000000000000000000000006ba9866ba9856ba9846ba9836ba9826ba9810000006ba9766ba9756ba9746ba9736ba9726ba9710000006ba9656ba9646ba9636ba9626ba9610000006ba9546ba9536ba9526ba9510000006ba9436ba9426ba9410000006ba9326ba9310000006ba9210000000000000000006ba8766ba8756ba8746ba8736ba8726ba8710000006ba8656ba8646ba863
def scoreCode.c400 : Nat := 0x6c75436c75426c75410000006c75326c75310000006c75210000000000000000006c74326c74310000006c74210000000000000000006c73210000000000000000000000000000000000000000006c65436c65426c65410000006c65326c65310000006c65210000000000000000006c64326c64310000006c64210000000000000000006c63210000000000000000000000000000000000000000006c54326c54310000006c54210000000000000000006c5321000000000000000000000000
def scoreCode.c401 : Nat := 0x6c87310000006c87210000000000000000006c86546c86536c86526c86510000006c86436c86426c86410000006c86326c86310000006c86210000000000000000006c85436c85426c85410000006c85326c85310000006c85210000000000000000006c84326c84310000006c84210000000000000000006c83210000000000000000000000000000000000000000006c76546c76536c76526c76510000006c76436c76426c76410000006c76326c76310000006c7621000000000000000000
def scoreCode.c402 : Nat := 0x6c97310000006c97210000000000000000006c96546c96536c96526c96510000006c96436c96426c96410000006c96326c96310000006c96210000000000000000006c95436c95426c95410000006c95326c95310000006c95210000000000000000006c94326c94310000006c94210000000000000000006c93210000000000000000000000000000000000000000006c87656c87646c87636c87626c87610000006c87546c87536c87526c87510000006c87436c87426c87410000006c8732
def scoreCode.c403 : Nat := 0x6ca5210000000000000000006ca4326ca4310000006ca4210000000000000000006ca3210000000000000000000000000000000000000000006c98766c98756c98746c98736c98726c98710000006c98656c98646c98636c98626c98610000006c98546c98536c98526c98510000006c98436c98426c98410000006c98326c98310000006c98210000000000000000006c97656c97646c97636c97626c97610000006c97546c97536c97526c97510000006c97436c97426c97410000006c9732
def scoreCode.c404 : Nat := 0x6ca8626ca8610000006ca8546ca8536ca8526ca8510000006ca8436ca8426ca8410000006ca8326ca8310000006ca8210000000000000000006ca7656ca7646ca7636ca7626ca7610000006ca7546ca7536ca7526ca7510000006ca7436ca7426ca7410000006ca7326ca7310000006ca7210000000000000000006ca6546ca6536ca6526ca6510000006ca6436ca6426ca6410000006ca6326ca6310000006ca6210000000000000000006ca5436ca5426ca5410000006ca5326ca531000000
def scoreCode.c405 : Nat := 0x6cb4326cb4310000006cb4210000000000000000006cb3210000000000000000000000000000000000000000006ca9876ca9866ca9856ca9846ca9836ca9826ca9810000006ca9766ca9756ca9746ca9736ca9726ca9710000006ca9656ca9646ca9636ca9626ca9610000006ca9546ca9536ca9526ca9510000006ca9436ca9426ca9410000006ca9326ca9310000006ca9210000000000000000006ca8766ca8756ca8746ca8736ca8726ca8710000006ca8656ca8646ca863
def scoreCode.c406 : Nat := 0x6cb8546cb8536cb8526cb8510000006cb8436cb8426cb8410000006cb8326cb8310000006cb8210000000000000000006cb7656cb7646cb7636cb7626cb7610000006cb7546cb7536cb7526cb7510000006cb7436cb7426cb7410000006cb7326cb7310000006cb7210000000000000000006cb6546cb6536cb6526cb6510000006cb6436cb6426cb6410000006cb6326cb6310000006cb6210000000000000000006cb5436cb5426cb5410000006cb5326cb5310000006cb521000000
def scoreCode.c407 : Nat := 0x6cba536cba526cba510000006cba436cba426cba410000006cba326cba310000006cba210000000000000000006cb9876cb9866cb9856cb9846cb9836cb9826cb9810000006cb9766cb9756cb9746cb9736cb9726cb9710000006cb9656cb9646cb9636cb9626cb9610000006cb9546cb9536cb9526cb9510000006cb9436cb9426cb9410000006cb9326cb9310000006cb9210000000000000000006cb8766cb8756cb8746cb8736cb8726cb8710000006cb8656cb8646cb8636cb8626cb861
def scoreCode.c408 : Nat := 0x6d54326d54310000006d54210000000000000000006d53210000000000000000000000000000000000000000000000000000000000000000000000000000000000000000000000000000000000000000000000000000006cba976cba966cba956cba946cba936cba926cba910000006cba876cba866cba856cba846cba836cba826cba810000006cba766cba756cba746cba736cba726cba710000006cba656cba646cba636cba626cba610000006cba54
def scoreCode.c409 : Nat := 0x6d76546d76536d76526d76510000006d76436d76426d76410000006d76326d76310000006d76210000000000000000006d75436d75426d75410000006d75326d75310000006d75210000000000000000006d74326d74310000006d74210000000000000000006d73210000000000000000000000000000000000000000006d65436d65426d65410000006d65326d65310000006d65210000000000000000006d64326d64310000006d64210000000000000000006d6321000000000000
def scoreCode.c410 : Nat := 0x6d87656d87646d87636d87626d87610000006d87546d87536d87526d87510000006d87436d87426d87410000006d87326d87310000006d87210000000000000000006d86546d86536d86526d86510000006d86436d86426d86410000006d86326d86310000006d86210000000000000000006d85436d85426d85410000006d85326d85310000006d85210000000000000000006d84326d84310000006d84210000000000000000006d8321000000000000000000000000000000000000
def scoreCode.c411 : Nat := 0x6d97656d97646d97636d97626d97610000006d97546d97536d97526d97510000006d97436d97426d97410000006d97326d97310000006d97210000000000000000006d96546d96536d96526d96510000006d96436d96426d96410000006d96326d96310000006d96210000000000000000006d95436d95426d95410000006d95326d95310000006d95210000000000000000006d94326d94310000006d94210000000000000000006d9321000000000000000000000000000000000000
def scoreCode.c412 : Nat := 0x6da6426da6410000006da6326da6310000006da6210000000000000000006da5436da5426da5410000006da5326da5310000006da5210000000000000000006da4326da4310000006da4210000000000000000006da3210000000000000000000000000000000000000000006d98766d98756d98746d98736d98726d98710000006d98656d98646d98636d98626d98610000006d98546d98536d98526d98510000006d98436d98426d98410000006d98326d98310000006d9821000000000000
def scoreCode.c413 : Nat := 0x6da9326da9310000006da9210000000000000000006da8766da8756da8746da8736da8726da8710000006da8656da8646da8636da8626da8610000006da8546da8536da8526da8510000006da8436da8426da8410000006da8326da8310000006da8210000000000000000006da7656da7646da7636da7626da7610000006da7546da7536da7526da7510000006da7436da7426da7410000006da7326da7310000006da7210000000000000000006da6546da6536da6526da6510000006da643
def scoreCode.c414 : Nat := 0x6db6326db6310000006db6210000000000000000006db5436db5426db5410000006db5326db5310000006db5210000000000000000006db4326db4310000006db4210000000000000000006db3210000000000000000000000000000000000000000006da9876da9866da9856da9846da9836da9826da9810000006da9766da9756da9746da9736da9726da9710000006da9656da9646da9636da9626da9610000006da9546da9536da9526da9510000006da9436da9426da941000000
def scoreCode.c415 : Nat := 0x6db9210000000000000000006db8766db8756db8746db8736db8726db8710000006db8656db8646db8636db8626db8610000006db8546db8536db8526db8510000006db8436db8426db8410000006db8326db8310000006db8210000000000000000006db7656db7646db7636db7626db7610000006db7546db7536db7526db7510000006db7436db7426db7410000006db7326db7310000006db7210000000000000000006db6546db6536db6526db6510000006db6436db6426db641
def scoreCode.c416 : Nat := 0x6dba826dba810000006dba766dba756dba746dba736dba726dba710000006dba656dba646dba636dba626dba610000006dba546dba536dba526dba510000006dba436dba426dba410000006dba326dba310000006dba210000000000000000006db9876db9866db9856db9846db9836db9826db9810000006db9766db9756db9746db9736db9726db9710000006db9656db9646db9636db9626db9610000006db9546db9536db9526db9510000006db9436db9426db9410000006db9326db931
def scoreCode.c417 : Nat := 0x6dc7326dc7310000006dc7210000000000000000006dc6546dc6536dc6526dc6510000006dc6436dc6426dc6410000006dc6326dc6310000006dc6210000000000000000006dc5436dc5426dc5410000006dc5326dc5310000006dc5210000000000000000006dc4326dc4310000006dc4210000000000000000006dc3210000000000000000000000000000000000000000006dba986dba976dba966dba956dba946dba936dba926dba910000006dba876dba866dba856dba846dba83
def scoreCode.c418 : Nat := 0x6dc9646dc9636dc9626dc9610000006dc9546dc9536dc9526dc9510000006dc9436dc9426dc9410000006dc9326dc9310000006dc9210000000000000000006dc8766dc8756dc8746dc8736dc8726dc8710000006dc8656dc8646dc8636dc8626dc8610000006dc8546dc8536dc8526dc8510000006dc8436dc8426dc8410000006dc8326dc8310000006dc8210000000000000000006dc7656dc7646dc7636dc7626dc7610000006dc7546dc7536dc7526dc7510000006dc7436dc7426dc741
def scoreCode.c419 : Nat := 0x6dca986dca976dca966dca956dca946dca936dca926dca910000006dca876dca866dca856dca846dca836dca826dca810000006dca766dca756dca746dca736dca726dca710000006dca656dca646dca636dca626dca610000006dca546dca536dca526dca510000006dca436dca426dca410000006dca326dca310000006dca210000000000000000006dc9876dc9866dc9856dc9846dc9836dc9826dc9810000006dc9766dc9756dc9746dc9736dc9726dc9710000006dc965
def scoreCode.c420 : Nat := 0x6dcba86dcba76dcba66dcba56dcba46dcba36dcba26dcba10000006dcb986dcb976dcb966dcb956dcb946dcb936dcb926dcb910000006dcb876dcb866dcb856dcb846dcb836dcb826dcb810000006dcb766dcb756dcb746dcb736dcb726dcb710000006dcb656dcb646dcb636dcb626dcb610000006dcb546dcb536dcb526dcb510000006dcb436dcb426dcb410000006dcb326dcb310000006dcb21000000
def scoreCode.c421 : Nat := 0x0
def scoreCode.c422 : Nat := 0x0
def scoreCode.c423 : Nat := 0x0
def scoreCode.c424 : Nat := 0x0
def scoreCode.c425 : Nat := 0x0
def scoreCode.c426 : Nat := 0x0
def scoreCode.c427 : Nat := 0x0
def scoreCode.c428 : Nat := 0x0
def scoreCode.c429 : Nat := 0x0
def scoreCode.c430 : Nat := 0x0
def scoreCode.c431 : Nat := 0x0
def scoreCode.c432 : Nat := 0x0
def scoreCode.c433 : Nat := 0x0
def scoreCode.c434 : Nat := 0x0
def scoreCode.c435 : Nat := 0x0
def scoreCode.c436 : Nat := 0x0
def scoreCode.c437 : Nat := 0x0
def scoreCode.c438 : Nat := 0x0
def scoreCode.c439 : Nat := 0x0
def scoreCode.c440 : Nat := 0x0
def scoreCode.c441 : Nat := 0x0
def scoreCode.c442 : Nat := 0x0
def scoreCode.c443 : Nat := 0x0
def scoreCode.c444 : Nat := 0x0
def scoreCode.c445 : Nat := 0x0
def scoreCode.c446 : Nat := 0x0
def scoreCode.c447 : Nat := 0x0
def scoreCode.c448 : Nat := 0x76300076200076100075d00075c00075b00075a00075900075800075700075600075400075300075200075100074d00074c00074b00074a00074900074800074700074600074500074300074200074100073d00073c00073b00073a00073900073800073700073600073500073400073200073100072d00072c00072b00072a00072900072800072700072600072500072400072300072100071d00071c00071b00071a000719000718000717000716000715000714000713000712000000000
def scoreCode.c449 : Nat := 0x7b70007b60007b50007b40007b30007b20007b10007ad0007ac0007ab0007a90007a80007a70007a60007a50007a40007a30007a20007a100079d00079c00079b00079a00079800079700079600079500079400079300079200079100078d00078c00078b00078a00078900078700078600078500078400078300078200078100077d00077c00077b00077a00077900077800077600077500077400077300077200077100076d00076c00076b00076a000769000768000767000765000764000
def scoreCode.c450 : Nat := 0x7dc0007db0007da0007d90007d80007d70007d60007d50007d40007d30007d20007d10007cd0007cb0007ca0007c90007c80007c70007c60007c50007c40007c30007c20007c10007bd0007bc0007ba0007b90007b8000
def scoreCode.c451 : Nat := 0x0
def scoreCode.c452 : Nat := 0x0
def scoreCode.c453 : Nat := 0x0
def scoreCode.c454 : Nat := 0x0
def scoreCode.c455 : Nat := 0x0
def scoreCode.c456 : Nat := 0x0
def scoreCode.c457 : Nat := 0x0
def scoreCode.c458 : Nat := 0x0
def scoreCode.c459 : Nat := 0x0
def scoreCode.c460 : Nat := 0x0
def scoreCode.c461 : Nat := 0x0
def scoreCode.c462 : Nat := 0x0
def scoreCode.c463 : Nat := 0x0
def scoreCode.c464 : Nat := 0x0
def scoreCode.c465 : Nat := 0x0
def scoreCode.c466 : Nat := 0x0
def scoreCode.c467 : Nat := 0x0
def scoreCode.c468 : Nat := 0x0
def scoreCode.c469 : Nat := 0x0
def scoreCode.c470 : Nat := 0x0
def scoreCode.c471 : Nat := 0x0
def scoreCode.c472 : Nat := 0x0
def scoreCode.c473 : Nat := 0x0
def scoreCode.c474 : Nat := 0x0
def scoreCode.c475 : Nat := 0x0
def scoreCode.c476 : Nat := 0x0
def scoreCode.c477 : Nat := 0x0
def scoreCode.c478 : Nat := 0x0
def scoreCode.c479 : Nat := 0x0
def scoreCode.c480 : Nat := 0x0
def scoreCode.c481 : Nat := 0x0
def scoreCode.c482 : Nat := 0x0
def scoreCode.c483 : Nat := 0x0
def scoreCode.c484 : Nat := 0x0
def scoreCode.c485 : Nat := 0x0
def scoreCode.c486 : Nat := 0x0
def scoreCode.c487 : Nat := 0x0
def scoreCode.c488 : Nat := 0x0
def scoreCode.c489 : Nat := 0x0
def scoreCode.c490 : Nat := 0x0
def scoreCode.c491 : Nat := 0x0
def scoreCode.c492 : Nat := 0x0
def scoreCode.c493 : Nat := 0x0
def scoreCode.c494 : Nat := 0x0
def scoreCode.c495 : Nat := 0x0
def scoreCode.c496 : Nat := 0x0
def scoreCode.c497 : Nat := 0x0
def scoreCode.c498 : Nat := 0x0
def scoreCode.c499 : Nat := 0x0
def scoreCode.c500 : Nat := 0x0
def scoreCode.c501 : Nat := 0x0
def scoreCode.c502 : Nat := 0x0
def scoreCode.c503 : Nat := 0x0
def scoreCode.c504 : Nat := 0x0
def scoreCode.c505 : Nat := 0x0
def scoreCode.c506 : Nat := 0x0
def scoreCode.c507 : Nat := 0x0
def scoreCode.c508 : Nat := 0x0
def scoreCode.c509 : Nat := 0x0
def scoreCode.c510 : Nat := 0x0
def scoreCode.c511 : Nat := 0x0
def scoreCode.c512 : Nat := 0x85b00085a00085900085800085700085600085400085300085200085100085000084d00084c00084b00084a00084900084800084700084600084500084300084200084100084000083d00083c00083b00083a00083900083800083700083600083500083400083200083100083000082d00082c00082b00082a00082900082800082700082600082500082400082300082100082000081d00081c00081b00081a000819000818000817000816000815000814000813000812000810000000000
def scoreCode.c513 : Nat := 0x8a90008a80008a70008a60008a50008a40008a30008a20008a10008a000089d00089c00089b00089a00089800089700089600089500089400089300089200089100089000088d00088c00088b00088a00088900088700088600088500088400088300088200088100088000087d00087c00087b00087a00087900087800087600087500087400087300087200087100087000086d00086c00086b00086a00086900086800086700086500086400086300086200086100086000085d00085c000
def scoreCode.c514 : Nat := 0x8dc0008db0008da0008d90008d80008d70008d60008d50008d40008d30008d20008d10008d00008cd0008cb0008ca0008c90008c80008c70008c60008c50008c40008c30008c20008c10008c00008bd0008bc0008ba0008b90008b80008b70008b60008b50008b40008b30008b20008b10008b00008ad0008ac0008ab000
def scoreCode.c515 : Nat := 0x0
def scoreCode.c516 : Nat := 0x0
def scoreCode.c517 : Nat := 0x0
def scoreCode.c518 : Nat := 0x0
def scoreCode.c519 : Nat := 0x0
def scoreCode.c520 : Nat := 0x0
def scoreCode.c521 : Nat := 0x0
def scoreCode.c522 : Nat := 0x0
def scoreCode.c523 : Nat := 0x0
def scoreCode.c524 : Nat := 0x0
def scoreCode.c525 : Nat := 0x0
def scoreCode.c526 : Nat := 0x0
def scoreCode.c527 : Nat := 0x0
def scoreCode.c528 : Nat := 0x0
def scoreCode.c529 : Nat := 0x0
def scoreCode.c530 : Nat := 0x0
def scoreCode.c531 : Nat := 0x0
def scoreCode.c532 : Nat := 0x0
def scoreCode.c533 : Nat := 0x0
def scoreCode.c534 : Nat := 0x0
def scoreCode.c535 : Nat := 0x0
def scoreCode.c536 : Nat := 0x0
def scoreCode.c537 : Nat := 0x0
def scoreCode.c538 : Nat := 0x0
def scoreCode.c539 : Nat := 0x0
def scoreCode.c540 : Nat := 0x0
def scoreCode.c541 : Nat := 0x0
def scoreCode.c542 : Nat := 0x0
def scoreCode.c543 : Nat := 0x0
def scoreCode.c544 : Nat := 0x0
def scoreCode.c545 : Nat := 0x0
def scoreCode.c546 : Nat := 0x0
def scoreCode.c547 : Nat := 0x0
def scoreCode.c548 : Nat := 0x0
def scoreCode.c549 : Nat := 0x0
def scoreCode.c550 : Nat := 0x0
def scoreCode.c551 : Nat := 0x0
def scoreCode.c552 : Nat := 0x0
def scoreCode.c553 : Nat := 0x0
def scoreCode.c554 : Nat := 0x0
def scoreCode.c555 : Nat := 0x0
def scoreCode.c556 : Nat := 0x0
def scoreCode.c557 : Nat := 0x0
def scoreCode.c558 : Nat := 0x0
def scoreCode.c559 : Nat := 0x0
def scoreCode.c560 : Nat := 0x0
def scoreCode.c561 : Nat := 0x0
def scoreCode.c562 : Nat := 0x0
def scoreCode.c563 : Nat := 0x0
def scoreCode.c564 : Nat := 0x0
def scoreCode.c565 : Nat := 0x0
def scoreCode.c566 : Nat := 0x0
def scoreCode.c567 : Nat := 0x0
def scoreCode.c568 : Nat := 0x0
def scoreCode.c569 : Nat := 0x0
def scoreCode.c570 : Nat := 0x0
def scoreCode.c571 : Nat := 0x0
def scoreCode.c572 : Nat := 0x0
def scoreCode.c573 : Nat := 0x0
def scoreCode.c574 : Nat := 0x0
def scoreCode.c575 : Nat := 0x0
def scoreCode.c576 : Nat := 0x9d00009c00009b00009a0000990000980000970000960000950000940000000000
/-- certificate: entry `s` is the code of the strength of hands with score `s`, or 0 -/
def scoreCode : PackedArray :=
  { len := 36875, bits := 24, logPer := 6, chunks := (.node 288 (.node 144 (.node 72 (.node 36 (.node 18 (.node 9 (.node 4 (.node 2 (.node 1 (.leaf scoreCode.c0) (.leaf scoreCode.c1)) (.node 3 (.leaf scoreCode.c2) (.leaf scoreCode.c3))) (.node 6 (.node 5 (.leaf scoreCode.c4) (.leaf scoreCode.c5)) (.node 7 (.leaf scoreCode.c6) (.node 8 (.leaf scoreCode.c7) (.leaf scoreCode.c8))))) (.node 13 (.node 11 (.node 10 (.leaf scoreCode.c9) (.leaf scoreCode.c10)) (.node 12 (.leaf scoreCode.c11) (.leaf scoreCode.c12))) (.node 15 (.node 14 (.leaf scoreCode.c13) (.leaf scoreCode.c14)) (.node 16 (.leaf scoreCode.c15) (.node 17 (.leaf scoreCode.c16) (.leaf scoreCode.c17)))))) (.node 27 (.node 22 (.node 20 (.node 19 (.leaf scoreCode.c18) (.leaf scoreCode.c19)) (.node 21 (.leaf scoreCode.c20) (.leaf scoreCode.c21))) (.node 24 (.node 23 (.leaf scoreCode.c22) (.leaf scoreCode.c23)) (.node 25 (.leaf scoreCode.c24) (.node 26 (.leaf scoreCode.c25) (.leaf scoreCode.c26))))) (.node 31 (.node 29 (.node 28 (.leaf scoreCode.c27) (.leaf scoreCode.c28)) (.node 30 (.leaf scoreCode.c29) (.leaf scoreCode.c30))) (.node 33 (.node 32 (.leaf scoreCode.c31) (.leaf scoreCode.c32)) (.node 34 (.leaf scoreCode.c33) (.node 35 (.leaf scoreCode.c34) (.leaf scoreCode.c35))))))) (.node 54 (.node 45 (.node 40 (.node 38 (.node 37 (.leaf scoreCode.c36) (.leaf scoreCode.c37)) (.node 39 (.leaf scoreCode.c38) (.leaf scoreCode.c39))) (.node 42 (.node 41 (.leaf scoreCode.c40) (.leaf scoreCode.c41)) (.node 43 (.leaf scoreCode.c42) (.node 44 (.leaf scoreCode.c43) (.leaf scoreCode.c44))))) (.node 49 (.node 47 (.node 46 (.leaf scoreCode.c45) (.leaf scoreCode.c46)) (.node 48 (.leaf scoreCode.c47) (.leaf scoreCode.c48))) (.node 51 (.node 50 (.leaf scoreCode.c49) (.leaf scoreCode.c50)) (.node 52 (.leaf scoreCode.c51) (.node 53 (.leaf scoreCode.c52) (.leaf scoreCode.c53)))))) (.node 63 (.node 58 (.node 56 (.node 55 (.leaf scoreCode.c54) (.leaf scoreCode.c55)) (.node 57 (.leaf scoreCode.c56) (.leaf scoreCode.c57))) (.node 60 (.node 59 (.leaf scoreCode.c58) (.leaf scoreCode.c59)) (.node 61 (.leaf scoreCode.c60) (.node 62 (.leaf scoreCode.c61) (.leaf scoreCode.c62))))) (.node 67 (.node 65 (.node 64 (.leaf scoreCode.c63) (.leaf scoreCode.c64)) (.node 66 (.leaf scoreCode.c65) (.leaf scoreCode.c66))) (.node 69 (.node 68 (.leaf scoreCode.c67) (.leaf scoreCode.c68)) (.node 70 (.leaf scoreCode.c69) (.node 71 (.leaf scoreCode.c70) (.leaf scoreCode.c71)))))))) (.node 108 (.node 90 (.node 81 (.node 76 (.node 74 (.node 73 (.leaf scoreCode.c72) (.leaf scoreCode.c73)) (.node 75 (.leaf scoreCode.c74) (.leaf scoreCode.c75))) (.node 78 (.node 77 (.leaf scoreCode.c76) (.leaf scoreCode.c77)) (.node 79 (.leaf scoreCode.c78) (.node 80 (.leaf scoreCode.c79) (.leaf scoreCode.c80))))) (.node 85 (.node 83 (.node 82 (.leaf scoreCode.c81) (.leaf scoreCode.c82)) (.node 84 (.leaf scoreCode.c83) (.leaf scoreCode.c84))) (.node 87 (.node 86 (.leaf scoreCode.c85) (.leaf scoreCode.c86)) (.node 88 (.leaf scoreCode.c87) (.node 89 (.leaf scoreCode.c88) (.leaf scoreCode.c89)))))) (.node 99 (.node 94 (.node 92 (.node 91 (.leaf scoreCode.c90) (.leaf scoreCode.c91)) (.node 93 (.leaf scoreCode.c92) (.leaf scoreCode.c93))) (.node 96 (.node 95 (.leaf scoreCode.c94) (.leaf scoreCode.c95)) (.node 97 (.leaf scoreCode.c96) (.node 98 (.leaf scoreCode.c97) (.leaf scoreCode.c98))))) (.node 103 (.node 101 (.node 100 (.leaf scoreCode.c99) (.leaf scoreCode.c100)) (.node 102 (.leaf scoreCode.c101) (.leaf scoreCode.c102))) (.node 105 (.node 104 (.leaf scoreCode.c103) (.leaf scoreCode.c104)) (.node 106 (.leaf scoreCode.c105) (.node 107 (.leaf scoreCode.c106) (.leaf scoreCode.c107))))))) (.node 126 (.node 117 (.node 112 (.node 110 (.node 109 (.leaf scoreCode.c108) (.leaf scoreCode.c109)) (.node 111 (.leaf scoreCode.c110) (.leaf scoreCode.c111))) (.node 114 (.node 113 (.leaf scoreCode.c112) (.leaf scoreCode.c113)) (.node 115 (.leaf scoreCode.c114) (.node 116 (.leaf scoreCode.c115) (.leaf scoreCode.c116))))) (.node 121 (.node 119 (.node 118 (.leaf scoreCode.c117) (.leaf scoreCode.c118)) (.node 120 (.leaf scoreCode.c119) (.leaf scoreCode.c120))) (.node 123 (.node 122 (.leaf scoreCode.c121) (.leaf scoreCode.c122)) (.node 124 (.leaf scoreCode.c123) (.node 125 (.leaf scoreCode.c124) (.leaf scoreCode.c125)))))) (.node 135 (.node 130 (.node 128 (.node 127 (.leaf scoreCode.c126) (.leaf scoreCode.c127)) (.node 129 (.leaf scoreCode.c128) (.leaf scoreCode.c129))) (.node 132 (.node 131 (.leaf scoreCode.c130) (.leaf scoreCode.c131)) (.node 133 (.leaf scoreCode.c132) (.node 134 (.leaf scoreCode.c133) (.leaf scoreCode.c134))))) (.node 139 (.node 137 (.node 136 (.leaf scoreCode.c135) (.leaf scoreCode.c136)) (.node 138 (.leaf scoreCode.c137) (.leaf scoreCode.c138))) (.node 141 (.node 140 (.leaf scoreCode.c139) (.leaf scoreCode.c140)) (.node 142 (.leaf scoreCode.c141) (.node 143 (.leaf scoreCode.c142) (.leaf scoreCode.c143))))))))) (.node 216 (.node 180 (.node 162 (.node 153 (.node 148 (.node 146 (.node 145 (.leaf scoreCode.c144) (.leaf scoreCode.c145)) (.node 147 (.leaf scoreCode.c146) (.leaf scoreCode.c147))) (.node 150 (.node 149 (.leaf scoreCode.c148) (.leaf scoreCode.c149)) (.node 151 (.leaf scoreCode.c150) (.node 152 (.leaf scoreCode.c151) (.leaf scoreCode.c152))))) (.node 157 (.node 155 (.node 154 (.leaf scoreCode.c153) (.leaf scoreCode.c154)) (.node 156 (.leaf scoreCode.c155) (.leaf scoreCode.c156))) (.node 159 (.node 158 (.leaf scoreCode.c157) (.leaf scoreCode.c158)) (.node 160 (.leaf scoreCode.c159) (.node 161 (.leaf scoreCode.c160) (.leaf scoreCode.c161)))))) (.node 171 (.node 166 (.node 164 (.node 163 (.leaf scoreCode.c162) (.leaf scoreCode.c163)) (.node 165 (.leaf scoreCode.c164) (.leaf scoreCode.c165))) (.node 168 (.node 167 (.leaf scoreCode.c166) (.leaf scoreCode.c167)) (.node 169 (.leaf scoreCode.c168) (.node 170 (.leaf scoreCode.c169) (.leaf scoreCode.c170))))) (.node 175 (.node 173 (.node 172 (.leaf scoreCode.c171) (.leaf scoreCode.c172)) (.node 174 (.leaf scoreCode.c173) (.leaf scoreCode.c174))) (.node 177 (.node 176 (.leaf scoreCode.c175) (.leaf scoreCode.c176)) (.node 178 (.leaf scoreCode.c177) (.node 179 (.leaf scoreCode.c178) (.leaf scoreCode.c179))))))) (.node 198 (.node 189 (.node 184 (.node 182 (.node 181 (.leaf scoreCode.c180) (.leaf scoreCode.c181)) (.node 183 (.leaf scoreCode.c182) (.leaf scoreCode.c183))) (.node 186 (.node 185 (.leaf scoreCode.c184) (.leaf scoreCode.c185)) (.node 187 (.leaf scoreCode.c186) (.node 188 (.leaf scoreCode.c187) (.leaf scoreCode.c188))))) (.node 193 (.node 191 (.node 190 (.leaf scoreCode.c189) (.leaf scoreCode.c190)) (.node 192 (.leaf scoreCode.c191) (.leaf scoreCode.c192))) (.node 195 (.node 194 (.leaf scoreCode.c193) (.leaf scoreCode.c194)) (.node 196 (.leaf scoreCode.c195) (.node 197 (.leaf scoreCode.c196) (.leaf scoreCode.c197)))))) (.node 207 (.node 202 (.node 200 (.node 199 (.leaf scoreCode.c198) (.leaf scoreCode.c199)) (.node 201 (.leaf scoreCode.c200) (.leaf scoreCode.c201))) (.node 204 (.node 203 (.leaf scoreCode.c202) (.leaf scoreCode.c203)) (.node 205 (.leaf scoreCode.c204) (.node 206 (.leaf scoreCode.c205) (.leaf scoreCode.c206))))) (.node 211 (.node 209 (.node 208 (.leaf scoreCode.c207) (.leaf scoreCode.c208)) (.node 210 (.leaf scoreCode.c209) (.leaf scoreCode.c210))) (.node 213 (.node 212 (.leaf scoreCode.c211) (.leaf scoreCode.c212)) (.node 214 (.leaf scoreCode.c213) (.node 215 (.leaf scoreCode.c214) (.leaf scoreCode.c215)))))))) (.node 252 (.node 234 (.node 225 (.node 220 (.node 218 (.node 217 (.leaf scoreCode.c216) (.leaf scoreCode.c217)) (.node 219 (.leaf scoreCode.c218) (.leaf scoreCode.c219))) (.node 222 (.node 221 (.leaf scoreCode.c220) (.leaf scoreCode.c221)) (.node 223 (.leaf scoreCode.c222) (.node 224 (.leaf scoreCode.c223) (.leaf scoreCode.c224))))) (.node 229 (.node 227 (.node 226 (.leaf scoreCode.c225) (.leaf scoreCode.c226)) (.node 228 (.leaf scoreCode.c227) (.leaf scoreCode.c228))) (.node 231 (.node 230 (.leaf scoreCode.c229) (.leaf scoreCode.c230)) (.node 232 (.leaf scoreCode.c231) (.node 233 (.leaf scoreCode.c232) (.leaf scoreCode.c233)))))) (.node 243 (.node 238 (.node 236 (.node 235 (.leaf scoreCode.c234) (.leaf scoreCode.c235)) (.node 237 (.leaf scoreCode.c236) (.leaf scoreCode.c237))) (.node 240 (.node 239 (.leaf scoreCode.c238) (.leaf scoreCode.c239)) (.node 241 (.leaf scoreCode.c240) (.node 242 (.leaf scoreCode.c241) (.leaf scoreCode.c242))))) (.node 247 (.node 245 (.node 244 (.leaf scoreCode.c243) (.leaf scoreCode.c244)) (.node 246 (.leaf scoreCode.c245) (.leaf scoreCode.c246))) (.node 249 (.node 248 (.leaf scoreCode.c247) (.leaf scoreCode.c248)) (.node 250 (.leaf scoreCode.c249) (.node 251 (.leaf scoreCode.c250) (.leaf scoreCode.c251))))))) (.node 270 (.node 261 (.node 256 (.node 254 (.node 253 (.leaf scoreCode.c252) (.leaf scoreCode.c253)) (.node 255 (.leaf scoreCode.c254) (.leaf scoreCode.c255))) (.node 258 (.node 257 (.leaf scoreCode.c256) (.leaf scoreCode.c257)) (.node 259 (.leaf scoreCode.c258) (.node 260 (.leaf scoreCode.c259) (.leaf scoreCode.c260))))) (.node 265 (.node 263 (.node 262 (.leaf scoreCode.c261) (.leaf scoreCode.c262)) (.node 264 (.leaf scoreCode.c263) (.leaf scoreCode.c264))) (.node 267 (.node 266 (.leaf scoreCode.c265) (.leaf scoreCode.c266)) (.node 268 (.leaf scoreCode.c267) (.node 269 (.leaf scoreCode.c268) (.leaf scoreCode.c269)))))) (.node 279 (.node 274 (.node 272 (.node 271 (.leaf scoreCode.c270) (.leaf scoreCode.c271)) (.node 273 (.leaf scoreCode.c272) (.leaf scoreCode.c273))) (.node 276 (.node 275 (.leaf scoreCode.c274) (.leaf scoreCode.c275)) (.node 277 (.leaf scoreCode.c276) (.node 278 (.leaf scoreCode.c277) (.leaf scoreCode.c278))))) (.node 283 (.node 281 (.node 280 (.leaf scoreCode.c279) (.leaf scoreCode.c280)) (.node 282 (.leaf scoreCode.c281) (.leaf scoreCode.c282))) (.node 285 (.node 284 (.leaf scoreCode.c283) (.leaf scoreCode.c284)) (.node 286 (.leaf scoreCode.c285) (.node 287 (.leaf scoreCode.c286) (.leaf scoreCode.c287)))))))))) (.node 432 (.node 360 (.node 324 (.node 306 (.node 297 (.node 292 (.node 290 (.node 289 (.leaf scoreCode.c288) (.leaf scoreCode.c289)) (.node 291 (.leaf scoreCode.c290) (.leaf scoreCode.c291))) (.node 294 (.node 293 (.leaf scoreCode.c292) (.leaf scoreCode.c293)) (.node 295 (.leaf scoreCode.c294) (.node 296 (.leaf scoreCode.c295) (.leaf scoreCode.c296))))) (.node 301 (.node 299 (.node 298 (.leaf scoreCode.c297) (.leaf scoreCode.c298)) (.node 300 (.leaf scoreCode.c299) (.leaf scoreCode.c300))) (.node 303 (.node 302 (.leaf scoreCode.c301) (.leaf scoreCode.c302)) (.node 304 (.leaf scoreCode.c303) (.node 305 (.leaf scoreCode.c304) (.leaf scoreCode.c305)))))) (.node 315 (.node 310 (.node 308 (.node 307 (.leaf scoreCode.c306) (.leaf scoreCode.c307)) (.node 309 (.leaf scoreCode.c308) (.leaf scoreCode.c309))) (.node 312 (.node 311 (.leaf scoreCode.c310) (.leaf scoreCode.c311)) (.node 313 (.leaf scoreCode.c312) (.node 314 (.leaf scoreCode.c313) (.leaf scoreCode.c314))))) (.node 319 (.node 317 (.node 316 (.leaf scoreCode.c315) (.leaf scoreCode.c316)) (.node 318 (.leaf scoreCode.c317) (.leaf scoreCode.c318))) (.node 321 (.node 320 (.leaf scoreCode.c319) (.leaf scoreCode.c320)) (.node 322 (.leaf scoreCode.c321) (.node 323 (.leaf scoreCode.c322) (.leaf scoreCode.c323))))))) (.node 342 (.node 333 (.node 328 (.node 326 (.node 325 (.leaf scoreCode.c324) (.leaf scoreCode.c325)) (.node 327 (.leaf scoreCode.c326) (.leaf scoreCode.c327))) (.node 330 (.node 329 (.leaf scoreCode.c328) (.leaf scoreCode.c329)) (.node 331 (.leaf scoreCode.c330) (.node 332 (.leaf scoreCode.c331) (.leaf scoreCode.c332))))) (.node 337 (.node 335 (.node 334 (.leaf scoreCode.c333) (.leaf scoreCode.c334)) (.node 336 (.leaf scoreCode.c335) (.leaf scoreCode.c336))) (.node 339 (.node 338 (.leaf scoreCode.c337) (.leaf scoreCode.c338)) (.node 340 (.leaf scoreCode.c339) (.node 341 (.leaf scoreCode.c340) (.leaf scoreCode.c341)))))) (.node 351 (.node 346 (.node 344 (.node 343 (.leaf scoreCode.c342) (.leaf scoreCode.c343)) (.node 345 (.leaf scoreCode.c344) (.leaf scoreCode.c345))) (.node 348 (.node 347 (.leaf scoreCode.c346) (.leaf scoreCode.c347)) (.node 349 (.leaf scoreCode.c348) (.node 350 (.leaf scoreCode.c349) (.leaf scoreCode.c350))))) (.node 355 (.node 353 (.node 352 (.leaf scoreCode.c351) (.leaf scoreCode.c352)) (.node 354 (.leaf scoreCode.c353) (.leaf scoreCode.c354))) (.node 357 (.node 356 (.leaf scoreCode.c355) (.leaf scoreCode.c356)) (.node 358 (.leaf scoreCode.c357) (.node 359 (.leaf scoreCode.c358) (.leaf scoreCode.c359)))))))) (.node 396 (.node 378 (.node 369 (.node 364 (.node 362 (.node 361 (.leaf scoreCode.c360) (.leaf scoreCode.c361)) (.node 363 (.leaf scoreCode.c362) (.leaf scoreCode.c363))) (.node 366 (.node 365 (.leaf scoreCode.c364) (.leaf scoreCode.c365)) (.node 367 (.leaf scoreCode.c366) (.node 368 (.leaf scoreCode.c367) (.leaf scoreCode.c368))))) (.node 373 (.node 371 (.node 370 (.leaf scoreCode.c369) (.leaf scoreCode.c370)) (.node 372 (.leaf scoreCode.c371) (.leaf scoreCode.c372))) (.node 375 (.node 374 (.leaf scoreCode.c373) (.leaf scoreCode.c374)) (.node 376 (.leaf scoreCode.c375) (.node 377 (.leaf scoreCode.c376) (.leaf scoreCode.c377)))))) (.node 387 (.node 382 (.node 380 (.node 379 (.leaf scoreCode.c378) (.leaf scoreCode.c379)) (.node 381 (.leaf scoreCode.c380) (.leaf scoreCode.c381))) (.node 384 (.node 383 (.leaf scoreCode.c382) (.leaf scoreCode.c383)) (.node 385 (.leaf scoreCode.c384) (.node 386 (.leaf scoreCode.c385) (.leaf scoreCode.c386))))) (.node 391 (.node 389 (.node 388 (.leaf scoreCode.c387) (.leaf scoreCode.c388)) (.node 390 (.leaf scoreCode.c389) (.leaf scoreCode.c390))) (.node 393 (.node 392 (.leaf scoreCode.c391) (.leaf scoreCode.c392)) (.node 394 (.leaf scoreCode.c393) (.node 395 (.leaf scoreCode.c394) (.leaf scoreCode.c395))))))) (.node 414 (.node 405 (.node 400 (.node 398 (.node 397 (.leaf scoreCode.c396) (.leaf scoreCode.c397)) (.node 399 (.leaf scoreCode.c398) (.leaf scoreCode.c399))) (.node 402 (.node 401 (.leaf scoreCode.c400) (.leaf scoreCode.c401)) (.node 403 (.leaf scoreCode.c402) (.node 404 (.leaf scoreCode.c403) (.leaf scoreCode.c404))))) (.node 409 (.node 407 (.node 406 (.leaf scoreCode.c405) (.leaf scoreCode.c406)) (.node 408 (.leaf scoreCode.c407) (.leaf scoreCode.c408))) (.node 411 (.node 410 (.leaf scoreCode.c409) (.leaf scoreCode.c410)) (.node 412 (.leaf scoreCode.c411) (.node 413 (.leaf scoreCode.c412) (.leaf scoreCode.c413)))))) (.node 423 (.node 418 (.node 416 (.node 415 (.leaf scoreCode.c414) (.leaf scoreCode.c415)) (.node 417 (.leaf scoreCode.c416) (.leaf scoreCode.c417))) (.node 420 (.node 419 (.leaf scoreCode.c418) (.leaf scoreCode.c419)) (.node 421 (.leaf scoreCode.c420) (.node 422 (.leaf scoreCode.c421) (.leaf scoreCode.c422))))) (.node 427 (.node 425 (.node 424 (.leaf scoreCode.c423) (.leaf scoreCode.c424)) (.node 426 (.leaf scoreCode.c425) (.leaf scoreCode.c426))) (.node 429 (.node 428 (.leaf scoreCode.c427) (.leaf scoreCode.c428)) (.node 430 (.leaf scoreCode.c429) (.node 431 (.leaf scoreCode.c430) (.leaf scoreCode.c431))))))))) (.node 504 (.node 468 (.node 450 (.node 441 (.node 436 (.node 434 (.node 433 (.leaf scoreCode.c432) (.leaf scoreCode.c433)) (.node 435 (.leaf scoreCode.c434) (.leaf scoreCode.c435))) (.node 438 (.node 437 (.leaf scoreCode.c436) (.leaf scoreCode.c437)) (.node 439 (.leaf scoreCode.c438) (.node 440 (.leaf scoreCode.c439) (.leaf scoreCode.c440))))) (.node 445 (.node 443 (.node 442 (.leaf scoreCode.c441) (.leaf scoreCode.c442)) (.node 444 (.leaf scoreCode.c443) (.leaf scoreCode.c444))) (.node 447 (.node 446 (.leaf scoreCode.c445) (.leaf scoreCode.c446)) (.node 448 (.leaf scoreCode.c447) (.node 449 (.leaf scoreCode.c448) (.leaf scoreCode.c449)))))) (.node 459 (.node 454 (.node 452 (.node 451 (.leaf scoreCode.c450) (.leaf scoreCode.c451)) (.node 453 (.leaf scoreCode.c452) (.leaf scoreCode.c453))) (.node 456 (.node 455 (.leaf scoreCode.c454) (.leaf scoreCode.c455)) (.node 457 (.leaf scoreCode.c456) (.node 458 (.leaf scoreCode.c457) (.leaf scoreCode.c458))))) (.node 463 (.node 461 (.node 460 (.leaf scoreCode.c459) (.leaf scoreCode.c460)) (.node 462 (.leaf scoreCode.c461) (.leaf scoreCode.c462))) (.node 465 (.node 464 (.leaf scoreCode.c463) (.leaf scoreCode.c464)) (.node 466 (.leaf scoreCode.c465) (.node 467 (.leaf scoreCode.c466) (.leaf scoreCode.c467))))))) (.node 486 (.node 477 (.node 472 (.node 470 (.node 469 (.leaf scoreCode.c468) (.leaf scoreCode.c469)) (.node 471 (.leaf scoreCode.c470) (.leaf scoreCode.c471))) (.node 474 (.node 473 (.leaf scoreCode.c472) (.leaf scoreCode.c473)) (.node 475 (.leaf scoreCode.c474) (.node 476 (.leaf scoreCode.c475) (.leaf scoreCode.c476))))) (.node 481 (.node 479 (.node 478 (.leaf scoreCode.c477) (.leaf scoreCode.c478)) (.node 480 (.leaf scoreCode.c479) (.leaf scoreCode.c480))) (.node 483 (.node 482 (.leaf scoreCode.c481) (.leaf scoreCode.c482)) (.node 484 (.leaf scoreCode.c483) (.node 485 (.leaf scoreCode.c484) (.leaf scoreCode.c485)))))) (.node 495 (.node 490 (.node 488 (.node 487 (.leaf scoreCode.c486) (.leaf scoreCode.c487)) (.node 489 (.leaf scoreCode.c488) (.leaf scoreCode.c489))) (.node 492 (.node 491 (.leaf scoreCode.c490) (.leaf scoreCode.c491)) (.node 493 (.leaf scoreCode.c492) (.node 494 (.leaf scoreCode.c493) (.leaf scoreCode.c494))))) (.node 499 (.node 497 (.node 496 (.leaf scoreCode.c495) (.leaf scoreCode.c496)) (.node 498 (.leaf scoreCode.c497) (.leaf scoreCode.c498))) (.node 501 (.node 500 (.leaf scoreCode.c499) (.leaf scoreCode.c500)) (.node 502 (.leaf scoreCode.c501) (.node 503 (.leaf scoreCode.c502) (.leaf scoreCode.c503)))))))) (.node 540 (.node 522 (.node 513 (.node 508 (.node 506 (.node 505 (.leaf scoreCode.c504) (.leaf scoreCode.c505)) (.node 507 (.leaf scoreCode.c506) (.leaf scoreCode.c507))) (.node 510 (.node 509 (.leaf scoreCode.c508) (.leaf scoreCode.c509)) (.node 511 (.leaf scoreCode.c510) (.node 512 (.leaf scoreCode.c511) (.leaf scoreCode.c512))))) (.node 517 (.node 515 (.node 514 (.leaf scoreCode.c513) (.leaf scoreCode.c514)) (.node 516 (.leaf scoreCode.c515) (.leaf scoreCode.c516))) (.node 519 (.node 518 (.leaf scoreCode.c517) (.leaf scoreCode.c518)) (.node 520 (.leaf scoreCode.c519) (.node 521 (.leaf scoreCode.c520) (.leaf scoreCode.c521)))))) (.node 531 (.node 526 (.node 524 (.node 523 (.leaf scoreCode.c522) (.leaf scoreCode.c523)) (.node 525 (.leaf scoreCode.c524) (.leaf scoreCode.c525))) (.node 528 (.node 527 (.leaf scoreCode.c526) (.leaf scoreCode.c527)) (.node 529 (.leaf scoreCode.c528) (.node 530 (.leaf scoreCode.c529) (.leaf scoreCode.c530))))) (.node 535 (.node 533 (.node 532 (.leaf scoreCode.c531) (.leaf scoreCode.c532)) (.node 534 (.leaf scoreCode.c533) (.leaf scoreCode.c534))) (.node 537 (.node 536 (.leaf scoreCode.c535) (.leaf scoreCode.c536)) (.node 538 (.leaf scoreCode.c537) (.node 539 (.leaf scoreCode.c538) (.leaf scoreCode.c539))))))) (.node 558 (.node 549 (.node 544 (.node 542 (.node 541 (.leaf scoreCode.c540) (.leaf scoreCode.c541)) (.node 543 (.leaf scoreCode.c542) (.leaf scoreCode.c543))) (.node 546 (.node 545 (.leaf scoreCode.c544) (.leaf scoreCode.c545)) (.node 547 (.leaf scoreCode.c546) (.node 548 (.leaf scoreCode.c547) (.leaf scoreCode.c548))))) (.node 553 (.node 551 (.node 550 (.leaf scoreCode.c549) (.leaf scoreCode.c550)) (.node 552 (.leaf scoreCode.c551) (.leaf scoreCode.c552))) (.node 555 (.node 554 (.leaf scoreCode.c553) (.leaf scoreCode.c554)) (.node 556 (.leaf scoreCode.c555) (.node 557 (.leaf scoreCode.c556) (.leaf scoreCode.c557)))))) (.node 567 (.node 562 (.node 560 (.node 559 (.leaf scoreCode.c558) (.leaf scoreCode.c559)) (.node 561 (.leaf scoreCode.c560) (.leaf scoreCode.c561))) (.node 564 (.node 563 (.leaf scoreCode.c562) (.leaf scoreCode.c563)) (.node 565 (.leaf scoreCode.c564) (.node 566 (.leaf scoreCode.c565) (.leaf scoreCode.c566))))) (.node 572 (.node 569 (.node 568 (.leaf scoreCode.c567) (.leaf scoreCode.c568)) (.node 570 (.leaf scoreCode.c569) (.node 571 (.leaf scoreCode.c570) (.leaf scoreCode.c571)))) (.node 574 (.node 573 (.leaf scoreCode.c572) (.leaf scoreCode.c573)) (.node 575 (.leaf scoreCode.c574) (.node 576 (.leaf scoreCode.c575) (.leaf scoreCode.c576))))))))))) }

end Pokers
