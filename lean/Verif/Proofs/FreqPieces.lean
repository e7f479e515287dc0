import Verif.Proofs.Frequencies
/-! Generated by tools/gen_freq.py. Sums over all rank multisets and over all flushes of one suit. -/
namespace Pokers.Kernel

set_option maxRecDepth 100000

theorem suit5 : sumSuit leafSuit suitKeys 5 0 0 0 = 4973232364097866421553822489484067317093352843391780267840829782294302872705905828298752 := by decide +kernel

theorem suit6 : sumSuit leafSuit suitKeys 6 0 0 0 = 35309949785094851593032139628750112001843476563121561539449553613902698994033206436560896 := by decide +kernel

theorem suit7 : sumSuit leafSuit suitKeys 7 0 0 0 = 107919142300923701347717947857269497803143619188014303029968974943553041662971330225504256 := by decide +kernel

theorem poly5 : sumPoly (Nat.shiftLeft 1 512) leafPlain rankKeys 5 0 = digits512
    [12617255040226499427455612042066941685696024165192554755648889282363392,
     54190697813532999619137218685601674759056013204575492661557825835492741803409408,
     18063565958873091606756571937013857233626400101380565999489820257582620262531072,
     1315351474473699439449611826917260814134957169442816,
     219225245599635437730552725065715517183087932866560,
     14615016373309029182036848327162830202043998666752,
     0,
     0] := by decide +kernel

theorem poly6 : sumPoly (Nat.shiftLeft 1 512) leafPlain rankKeys 6 0 = digits512
    [418472292167512230986224516347175986317452711941019486632475275766530048,
     948337212670504366311662284456078744079366048356825024714015840429861130370809856,
     650288374979961106811503818724533781397833740283396295861985139711301433937625088,
     99349612981986712000898386196794444954129391709029965623613784983204053819326464,
     16858421389531587872720155921167340814451073917911040,
     2087024338108529367194861941472199534927752114208768,
     103766616250494107192461623122856094402636431753216,
     0] := by decide +kernel

theorem poly7 : sumPoly (Nat.shiftLeft 1 512) leafPlain rankKeys 7 0 = digits512
    [6523120855797100203347359039011765594079850323539494062713651120215949312,
     10747821753633972993525648433090705345079099100679426910310917205694684070877855744,
     11380046568549421988356208660652050337615197279535490390402548536574525170364973056,
     3576586068461840075572273851494801568746457275321387102181642281331020301846183936,
     331165377300571400548785422582028703771731623445594426132027298033811288605327360,
     91359928857710181067306811572072238240270974149722112,
     8527862053825818527718500999445719511850107487125504,
     317145855300805933250199608699433415271775517802496] := by decide +kernel

end Pokers.Kernel
