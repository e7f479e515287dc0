import Verif.Props.Evaluator
import Verif.Props.HandEq
import Verif.Props.Index
import Verif.Props.FastDivide
import Verif.Props.Range
import Verif.Props.Reading
import Verif.Props.Deals
import Verif.Props.Exact
import Verif.Props.Hands
import Verif.Props.Totals
import Verif.Props.Threads
import Verif.Props.Symmetry
import Verif.Props.Draws
import Verif.Props.MonteCarlo
import Verif.Props.Stopping
import Verif.Props.Overflow
import Verif.Props.Rates
import Verif.Props.OverflowMc
import Verif.Props.McMean
import Verif.Props.Shares
import Verif.Props.RepoTests
import Verif.Props.Rounding
import Verif.Props.DrawTable
import Verif.Props.SuitSymmetry
import Verif.Props.Combining
import Verif.Props.Docs
import Verif.Props.Checks
import Verif.Props.Frequencies
import Verif.Props.FloatStop
import Verif.Spec.Game
import Verif.Props.EndToEnd
import Verif.Props.NinePlayers
import Verif.Props.ScoreNumbers
import Verif.Props.Callback
import Verif.Props.Release
import Verif.Props.ReleaseText
import Verif.Props.Exactly
import Verif.Props.ReleaseMc
import Verif.Spec.Rounds
import Verif.Proofs.Cycle
import Verif.Proofs.GoRound
import Verif.Props.Cycle
import Verif.Spec.Sample
import Verif.Proofs.Sampling
import Verif.Proofs.McChoice
import Verif.Props.Accuracy
import Verif.Props.Likely
import Verif.Model.Poison
import Verif.Proofs.Poison
import Verif.Proofs.PoisonRun
import Verif.Proofs.Builds
import Verif.Proofs.BuildEnds
import Verif.Proofs.CancelEnds
import Verif.Proofs.KnownHands
import Verif.Props.Poison
import Verif.Model.LowerCase
import Verif.Proofs.Foreign
import Verif.Spec.Letters
import Verif.Props.LetterCase
import Verif.Model.Whole
import Verif.Props.Whole
import Verif.Props.Masks
import Verif.Model.DebugFloat
import Verif.Props.DebugFloat
import Verif.Props.Unchecked
import Verif.Props.RawRanges
import Verif.Props.ExactWeighted
import Verif.Props.ApproxWeighted
import Verif.Props.Confined
import Verif.Props.SampleSpace
import Verif.Props.Chance
import Verif.Props.ChanceStop
import Verif.Props.ChanceTail
import Verif.Props.Work
import Verif.Props.Laws
import Verif.Props.Certain
import Verif.Props.TextLaws
import Verif.Props.Mix
import Verif.Props.Token
import Verif.Props.Reuse
import Verif.Props.ReuseRelease
import Verif.Props.TokenRelease
import Verif.Props.PoisonPos
