import Verif.Model.Res
import Verif.Model.Types
import Verif.Model.Dfs
import Verif.Model.Linear
import Verif.Model.SplMath
import Verif.Model.DfsSpl
import Verif.Model.Fees
import Verif.Model.ConstantPrice
import Verif.Model.ConstantProduct
import Verif.Model.Stable
import Verif.Model.Curve
import Verif.Model.State
import Verif.Model.Ledger
import Verif.Model.Processor
import Verif.Model.Exec
import Verif.Spec.Fixed
import Verif.Spec.Linear
import Verif.Props.FixedPoint
import Verif.Props.Linear
import Verif.Spec.Pools
import Verif.Props.Curves
import Verif.Props.State
import Verif.Spec.Ledger
import Verif.Spec.Exec
import Verif.Props.Sample
import Verif.Props.Processor
import Verif.Model.Chain
import Verif.Spec.Chain
import Verif.Props.Chain
import Verif.Spec.Position
import Verif.Props.Accuracy
import Verif.Spec.Exchange
import Verif.Spec.Stable
import Verif.Props.Exchange
import Verif.Spec.Live
import Verif.Props.Live
import Verif.Spec.Shares
import Verif.Props.Shares
import Verif.Spec.Admission
import Verif.Props.Admission
import Verif.Props.Host
import Verif.Spec.Guard
import Verif.Props.Guard
import Verif.Props.Singles
import Verif.Props.Unbacked
import Verif.Props.Wire
import Verif.Props.Client
import Verif.Props.Exit
import Verif.Props.Value
import Verif.Props.Outside
import Verif.Props.Local
import Verif.Props.Limit
import Verif.Props.Claim
import Verif.Props.Spot
import Verif.Props.Supply
import Verif.Props.Path
import Verif.Props.Abort
import Verif.Props.Consent
import Verif.Props.Report
import Verif.Props.Detour
import Verif.Props.Leave
import Verif.Props.Serve
import Verif.Props.Amount
import Verif.Props.Gift
import Verif.Props.Plain
import Verif.Props.Setup
import Verif.Props.Freeze
import Verif.Props.Room
import Verif.Props.Idle
import Verif.Props.Front
import Verif.Props.Steady
import Verif.Props.Compare
import Verif.Props.Rounds
import Verif.Props.Block
import Verif.Props.SwapCurve
import Verif.Props.Reference
import Verif.Props.Issue
import Verif.Props.Steep
import Verif.Props.Every
import Verif.Props.Enter
import Verif.Props.Backed
import Verif.Props.Emptied
import Verif.Props.Level
import Verif.Props.Return
import Verif.Props.Header
import Verif.Props.Parts
import Verif.Props.FrontMany
import Verif.Props.HandOver
import Verif.Lemmas.Settle
import Verif.Props.Settle
import Verif.Props.Own
import Verif.Props.Join
import Verif.Props.Prepare
import Verif.Model.SplRoot
import Verif.Lemmas.SplRoot
import Verif.Spec.Basket
import Verif.Props.Root
import Verif.Props.Basket
import Verif.Spec.Draw
import Verif.Props.Draw
import Verif.Spec.Cut
import Verif.Props.Cut
import Verif.Props.Twice
import Verif.Vectors
import Verif.VectorsRun
import Verif.VectorsProc
import Verif.Audit
