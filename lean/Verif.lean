import Verif.Model.World
import Verif.Lemmas.Walk
import Verif.Lemmas.Config
import Verif.Lemmas.Swap
import Verif.Lemmas.Ops
import Verif.Lemmas.History
import Verif.Props.Examples
import Verif.Lemmas.Inverse
import Verif.Props.Fee
import Verif.Props.Config
import Verif.Spec.World
import Verif.Lemmas.Charge
import Verif.Lemmas.Cases
import Verif.Props.Swap
import Verif.Props.Claims
import Verif.Spec.Life
import Verif.Spec.Auth
import Verif.Spec.Lp
import Verif.Lemmas.Migration
import Verif.Lemmas.Invariant
import Verif.Lemmas.Solvency
import Verif.Lemmas.Booked
import Verif.Lemmas.Payable
import Verif.Lemmas.Once
import Verif.Lemmas.Lp
import Verif.Lemmas.Mono
import Verif.Props.Owed
import Verif.Props.Shares
import Verif.Props.Life
import Verif.Props.Auth
import Verif.Props.Lp
import Verif.Props.Extract
import Verif.Spec.Vol
import Verif.Lemmas.Vol
import Verif.Props.Vol
import Verif.Spec.Tx
import Verif.Lemmas.Total
import Verif.Lemmas.Safe
import Verif.Lemmas.SafeSwap
import Verif.Lemmas.SafeAll
import Verif.Lemmas.SafeConfig
import Verif.Props.Safe
import Verif.Spec.Migrate
import Verif.Lemmas.Deposit
import Verif.Lemmas.Live
import Verif.Props.Migrate
import Verif.Lemmas.Compare
import Verif.Lemmas.CompareDown
import Verif.Lemmas.CompareOut
import Verif.Props.Compare
import Verif.Props.Split
import Verif.Props.Tx
import Verif.Props.Partial
import Verif.Model.Cpi
import Verif.Props.Cpi
import Verif.Lemmas.Go
import Verif.Props.Go
import Verif.Model.Damm
import Verif.Spec.Damm
import Verif.Lemmas.Damm
import Verif.Props.NewPool
import Verif.Lemmas.Locked
import Verif.Props.Locked
import Verif.Model.Quote
import Verif.Props.Quote
import Verif.Props.Rate
import Verif.Lemmas.Fair
import Verif.Props.Fair
import Verif.Model.Chain
import Verif.Spec.Chain
import Verif.Lemmas.Chain
import Verif.Lemmas.ChainOps
import Verif.Lemmas.ChainExec
import Verif.Lemmas.ChainMoves
import Verif.Lemmas.ChainFixed
import Verif.Props.ChainEx
import Verif.Props.Chain
import Verif.Props.Fade
import Verif.Props.Keep
import Verif.Lemmas.ChainGo
import Verif.Props.ChainGo
import Verif.Model.Event
import Verif.Spec.Event
import Verif.Lemmas.Event
import Verif.Props.Event
import Verif.Props.Cut
import Verif.Props.Route
import Verif.Lemmas.Modes
import Verif.Props.Modes
import Verif.Model.Board
import Verif.Spec.Board
import Verif.Props.Board
import Verif.Spec.Audit
import Verif.Lemmas.Audit
import Verif.Props.Fixture
import Verif.Props.Audit
import Verif.Model.Layout
import Verif.Spec.Layout
import Verif.Lemmas.Layout
import Verif.Props.Layout
import Verif.Props.Vectors
import Verif.Lemmas.Serve
import Verif.Props.Serve
import Verif.Model.Wire
import Verif.Spec.Release
import Verif.Lemmas.Wire
import Verif.Lemmas.Release
import Verif.Props.Release
import Verif.Props.Steady
import Verif.Props.Commute
import Verif.Props.Trip
import Verif.Props.Pieces
import Verif.Spec.Terms
import Verif.Props.Terms
import Verif.Spec.Referral
import Verif.Props.Referral
import Verif.Spec.Opening
import Verif.Props.Opening
import Verif.Lemmas.Average
import Verif.Spec.Average
import Verif.Props.Average
import Verif.Lemmas.Lifetime
import Verif.Spec.Stranded
import Verif.Props.Stranded
import Verif.Lemmas.Patience
import Verif.Props.Patience
import Verif.Lemmas.Better
import Verif.Props.Better
import Verif.Spec.Programs
import Verif.Props.Programs
import Verif.Spec.Accept
import Verif.Lemmas.Accept
import Verif.Lemmas.AcceptCurve
import Verif.Lemmas.AcceptPool
import Verif.Props.Accept
import Verif.Spec.Launch
import Verif.Props.Launch
import Verif.Props.Refuse
import Verif.Spec.Story
import Verif.Props.Story
import Verif.Props.Direct
import Verif.Props.Income
import Verif.Props.Sold
import Verif.Props.Path
import Verif.Props.Alike
import Verif.Props.Elsewhere
import Verif.Props.TurnBack
import Verif.Props.Bulk
import Verif.Props.ChainLog
import Verif.Model.Records
import Verif.Props.Records
import Verif.Model.ConfigEvent
import Verif.Props.ConfigLog
import Verif.Model.BoardEvent
import Verif.Props.BoardLog
import Verif.Props.Eligible
import Verif.Props.Operators
import Verif.Props.Custody
