import Verif.Props.Utilities
import Verif.Props.Integrate
import Verif.Props.Dubins
import Verif.Props.ReedsShepp
import Verif.Props.GetPath
import Verif.Props.Ekf
import Verif.Props.Clothoid
import Verif.Props.Turn
import Verif.Props.CcDubins
import Verif.Props.Concurrent
import Verif.Props.CcDubinsPm
import Verif.Props.CcDubinsAll
import Verif.Props.EkfFrame
import Verif.Props.HcReedsShepp
import Verif.Props.HcReedsSheppAll
import Verif.Props.CcReedsShepp
import Verif.Props.Motion
import Verif.Props.Calls
import Verif.Props.CcOptimal
import Verif.Props.CcRsOptimal
import Verif.Props.Symmetry
import Verif.Props.Representation
import Verif.Props.Limits
import Verif.Props.Double
import Verif.Props.Replan
import Verif.Props.Dispatch
import Verif.Props.Memory
import Verif.Props.Compare
import Verif.Props.Optimal
import Verif.Props.Admissible
import Verif.Props.Domains
import Verif.Props.PmOptimal
import Verif.Props.HcRsOptimal
import Verif.Props.Entry
import Verif.Props.Node
import Verif.Props.HcCompare
import Verif.Props.Counter
import Verif.Props.LimitsTolerance
import Verif.Props.Cost
import Verif.Props.Ellipse
import Verif.Props.Cusps
import Verif.Lemmas.Units
import Verif.Props.Units
import Verif.Lemmas.Behind
import Verif.Props.Behind
import Verif.Props.BehindCc
import Verif.Props.Detour
import Verif.Props.TurnCost
import Verif.Lemmas.Sideways
import Verif.Props.Sideways
import Verif.Lemmas.Covers
import Verif.Props.Covers
import Verif.Props.Footprint
import Verif.Props.OneSense
import Verif.Lemmas.Aligned
import Verif.Props.Aligned
import Verif.Lemmas.StraightGoal
import Verif.Props.StraightGoal
import Verif.Props.SelfDistance
import Verif.Lemmas.HcNonneg
import Verif.Lemmas.CcNonneg
import Verif.Props.Nonneg
