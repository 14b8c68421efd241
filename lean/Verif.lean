import Verif.Props.Scenario
import Verif.Props.Tokens
import Verif.Props.Control
import Verif.Props.Settings
import Verif.Props.Config
import Verif.Props.Conversion
import Verif.Props.Network
import Verif.Props.Formula
import Verif.Props.Curve
import Verif.Props.Events
import Verif.Props.Views
import Verif.Props.Deploy
import Verif.Props.Coin
import Verif.Props.Packaging
import Verif.Props.Pool
import Verif.Props.Generator
import Verif.Props.Guide
import Verif.Props.Windup
import Verif.Props.Liveness
import Verif.Props.Wealth
import Verif.Props.Strategy
import Verif.Props.Exit
import Verif.Props.Storage
import Verif.Props.Api
import Verif.Props.Proxy
import Verif.Props.Messages
import Verif.Props.Price
import Verif.Props.Layout
import Verif.Props.Depth
import Verif.Props.Local
import Verif.Props.Source
import Verif.Props.Declared
import Verif.Props.Legs
import Verif.Spec.Slippage
import Verif.Props.Slippage
import Verif.Proofs.Stuck
import Verif.Props.Stuck
import Verif.Spec.Switch
import Verif.Proofs.Switch
import Verif.Props.Switch
import Verif.Spec.Trip
import Verif.Proofs.Trip
import Verif.Props.Trip
import Verif.Proofs.TripPath
import Verif.Spec.Value
import Verif.Props.Value
