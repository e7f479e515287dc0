import Verif.Proofs.TableBounds
/-! Kernel computation over every flush mask and over the whole score certificate. -/
namespace Pokers.Kernel

theorem flush5 : forBits leafFlush5 bitsRev 0 [] = true := by decide +kernel

theorem flushBig : forBits leafFlushBig bitsRev 0 [] = true := by decide +kernel

theorem scanAll : scan 36875 0 0 = true := by decide +kernel

end Pokers.Kernel
