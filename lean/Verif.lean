import Verif.Model.Py
import Verif.Model.BC
import Verif.Spec.BC
import Verif.Lemmas.BC
import Verif.Props.BC
import Verif.Model.Pile
import Verif.Spec.Pile
import Verif.Lemmas.Pile
import Verif.Props.Pile
import Verif.Model.Soil
import Verif.Model.SoilPlot
import Verif.Spec.Soil
import Verif.Props.Soil
import Verif.Model.Mesh
import Verif.Spec.Mesh
import Verif.Lemmas.Mesh
import Verif.Props.Mesh
import Verif.Model.Model
import Verif.Lemmas.Model
import Verif.Props.Model
import Verif.Model.Kernel
import Verif.Spec.Kernel
import Verif.Lemmas.Kernel
import Verif.Props.Element
import Verif.Props.Solve
import Verif.Props.Beam
import Verif.Model.Spring
import Verif.Spec.Spring
import Verif.Lemmas.Spring
import Verif.Props.Spring
import Verif.Model.Result
import Verif.Props.Result
import Verif.Model.Winkler
import Verif.Props.Winkler
import Verif.Model.Conic
import Verif.Spec.Conic
import Verif.Lemmas.Conic
import Verif.Props.Conic
import Verif.Props.Pisa
import Verif.Lemmas.Tanh
import Verif.Model.Lateral
import Verif.Spec.Sand
import Verif.Lemmas.Sand
import Verif.Props.Sand
import Verif.Spec.Clay
import Verif.Lemmas.Clay
import Verif.Props.Clay
import Verif.Spec.Rock
import Verif.Props.Rock
import Verif.Model.Param
import Verif.Model.Axial
import Verif.Spec.Axial
import Verif.Lemmas.Axial
import Verif.Props.Axial
import Verif.Props.Kraft
import Verif.Props.Friction
import Verif.Props.AxialModel
import Verif.Model.Hooks
import Verif.Model.SoilModel
import Verif.Props.SoilStiffness
import Verif.Props.Hooks
import Verif.Spec.Pisa
import Verif.Props.PisaShape
import Verif.Props.Custom
import Verif.Props.Layer
import Verif.Model.Extract
import Verif.Props.Extract
import Verif.Model.Weight
import Verif.Model.Assemble
import Verif.Model.Assign
import Verif.Model.Handles
import Verif.Spec.Weight
import Verif.Props.Weight
import Verif.Props.Assemble
import Verif.Props.Assign
import Verif.Spec.March
import Verif.Props.Refine
import Verif.Props.MeshIndep
import Verif.Model.Analysis
import Verif.Props.Analysis
import Verif.Model.Capacity
import Verif.Props.Capacity
import Verif.Props.Creation
import Verif.Props.Defined
import Verif.Spec.Sound
import Verif.Props.Unloaded
import Verif.Props.Mirror
import Verif.Props.LinearRange
import Verif.Props.LinearMoment
import Verif.Props.ForceUnit
import Verif.Props.FreeBody
import Verif.Props.Cantilever
import Verif.Props.Compliance
import Verif.Props.SoilTables
import Verif.Props.Stronger
import Verif.Props.StrongerPisa
import Verif.Props.SoilSupport
import Verif.Props.SoilPush
import Verif.Props.Control
import Verif.Props.Balance
import Verif.Props.BalanceSupports
import Verif.Model.SoilAnalysis
import Verif.Props.SoilAnalysis
import Verif.Props.NoModels
import Verif.Props.Order
import Verif.Spec.Datum
import Verif.Props.Datum
import Verif.Props.Decouple
import Verif.Props.DecoupleIter
import Verif.Props.DecoupleTables
import Verif.Props.DatumAnalysis
import Verif.Spec.Rotational
import Verif.Props.Rotational
import Verif.Props.Reported
import Verif.Props.Check
import Verif.Props.CheckMessages
import Verif.Model.Reduce
import Verif.Props.Reduce
import Verif.Props.Extent
import Verif.Props.KraftApi
import Verif.Props.PDelta
import Verif.Model.Create
import Verif.Props.Held
import Verif.Props.HeldSoil
import Verif.Props.HeldTimoshenko
import Verif.Props.HeldModel
import Verif.Props.Create
import Verif.Props.Ultimate
import Verif.Model.Session
import Verif.Props.Session
import Verif.Props.SessionLook
import Verif.Model.Describe
import Verif.Model.Plot
import Verif.Props.Describe
import Verif.Props.Plot
import Verif.Props.ResultPlot
import Verif.Props.Material
import Verif.Cases.Axial
import Verif.Cases.Curves
import Verif.Cases.Element
import Verif.Cases.Pisa
import Verif.Cases.Winkler
import Verif.Model.Warnings
import Verif.Spec.Usual
import Verif.Props.Warnings
import Verif.Model.Tables
import Verif.Props.Tables
import Verif.Props.Lumped
import Verif.Props.RotationalFull
import Verif.Props.DescribeAxial
import Verif.Props.SoilPlot
import Verif.Props.Reproducible
import Verif.Props.MirrorModel
import Verif.Props.Split
import Verif.Props.SplitPile
import Verif.Props.Water
import Verif.Props.WaterRise
import Verif.Props.BelowTip
import Verif.Props.SameBelow
import Verif.Props.SameBelowIter
import Verif.Props.Stub
import Verif.Props.StubSoil
import Verif.Props.Switch
import Verif.Props.RigidMotion
import Verif.Props.Longer
import Verif.Props.Auxetic
import Verif.Props.Cyclic
import Verif.Props.Release
import Verif.Props.Parameters
import Verif.Props.DescribeLateral
import Verif.Props.RockOrder
import Verif.Props.KraftOrder
import Verif.Props.Stressed
import Verif.Props.StrongerCapacity
import Verif.Props.Levels
import Verif.Props.Similar
import Verif.Props.Handles
import Verif.Props.Pull
import Verif.Model.PileTables
import Verif.Props.PileTables
import Verif.Props.PureLoads
import Verif.Props.Uplift
import Verif.Model.Accept
import Verif.Props.Accept
import Verif.Props.Shown
import Verif.Props.ConicExceptions
import Verif.Props.Superpose
import Verif.Props.HeldLater
import Verif.Props.Towards
import Verif.Props.Against
import Verif.Props.ControlSoil
import Verif.Props.ReleaseSoil
import Verif.Props.StifferSoil
import Verif.Props.StrongerRotation
import Verif.Props.UltimateTables
import Verif.Props.PullCapacity
import Verif.Props.PushCapacity
import Verif.Props.Multiplied
import Verif.Props.NoRotation
