import Verif.Model.Chains
import Verif.Tests
import Verif.Spec.Lyra2
import Verif.Spec.CubeHash
import Verif.Spec.Bmw
import Verif.Spec.Published
import Verif.Proofs.Lyra2Total
import Verif.Proofs.Lyra2Orders
import Verif.Proofs.OddPass
import Verif.Props.Lyra2
import Verif.Props.Rows
import Verif.Props.Wrap
import Verif.Props.Sponge
import Verif.Props.CubeHash
import Verif.Props.Bmw
import Verif.Props.Chains
import Verif.Props.Published
import Verif.Props.Reference
import Verif.Props.RowsMod
import Verif.Props.Backwards
import Verif.Props.Schedule
import Verif.Props.Entropy
import Verif.Props.Collisions
import Verif.Props.ModCounts
import Verif.Props.Target
import Verif.Props.Access
import Verif.Props.ChainAccess
import Verif.Props.Outcome
import Verif.Props.WrapOutcome
import Verif.Props.Counts
import Verif.Source.Parsed
import Verif.Source.Semantics
import Verif.SourceTests
import Verif.Props.Source
import Verif.Props.Reasons
import Verif.Props.Source32
import Verif.Props.SourceLog
import Verif.Props.SourceLog32
import Verif.Props.Notes
import Verif.Props.ConstantTime
import Verif.Props.ConstantTime32
import Verif.Props.Calls
import Verif.Props.Grammar
import Verif.Props.Interface
import Verif.Props.Typing
import Verif.Props.Sound
