import Verif.Lemmas.Arrays
import Verif.Lemmas.Chebyshev
import Verif.Lemmas.Circle
import Verif.Lemmas.Dct
import Verif.Lemmas.Dekker
import Verif.Lemmas.Erf
import Verif.Lemmas.Fill
import Verif.Lemmas.Floats
import Verif.Lemmas.Friction
import Verif.Lemmas.FrictionDefined
import Verif.Lemmas.FrictionDefined2
import Verif.Lemmas.InterpTable
import Verif.Lemmas.LU
import Verif.Lemmas.LUSolve
import Verif.Lemmas.ListIdx
import Verif.Lemmas.ListSum
import Verif.Lemmas.Poly
import Verif.Lemmas.PolyCalc
import Verif.Lemmas.PolyUtils
import Verif.Lemmas.Roots
import Verif.Lemmas.Tactic
import Verif.Lemmas.TwoPhase
import Verif.Lemmas.TwoPhaseSeparated
import Verif.Model.Accel
import Verif.Model.Arrays
import Verif.Model.Atmosphere
import Verif.Model.Bracketing
import Verif.Model.ChebExp
import Verif.Model.ChebPoly
import Verif.Model.Chebfun
import Verif.Model.Chebyshev
import Verif.Model.Climate
import Verif.Model.Compressible
import Verif.Model.Constants
import Verif.Model.ControlValve
import Verif.Model.Core
import Verif.Model.Direct
import Verif.Model.DoubleDouble
import Verif.Model.Drag
import Verif.Model.ErrorMetrics
import Verif.Model.Exchangers
import Verif.Model.Filters
import Verif.Model.FiniteDiff
import Verif.Model.Fits
import Verif.Model.Fittings
import Verif.Model.Fittings2
import Verif.Model.FlowMeter
import Verif.Model.Friction
import Verif.Model.Geometry
import Verif.Model.Geometry2
import Verif.Model.Guards
import Verif.Model.HeadAreas
import Verif.Model.Irradiance
import Verif.Model.JetPump
import Verif.Model.LeastSquares
import Verif.Model.Mixing
import Verif.Model.NelderMead
import Verif.Model.Newton
import Verif.Model.NoiseTables
import Verif.Model.NumHelpers
import Verif.Model.OpenFlow
import Verif.Model.PackedBed
import Verif.Model.PackedTower
import Verif.Model.Piping
import Verif.Model.PipingTables
import Verif.Model.Plates
import Verif.Model.PolyEval
import Verif.Model.PolyUtils
import Verif.Model.Polylog
import Verif.Model.Psd
import Verif.Model.PsdInterp
import Verif.Model.Pump
import Verif.Model.Quad
import Verif.Model.Roots
import Verif.Model.Roughness
import Verif.Model.SafetyValve
import Verif.Model.Saltation
import Verif.Model.Separator
import Verif.Model.Sequences
import Verif.Model.Shapes
import Verif.Model.SieveTables
import Verif.Model.Sizes
import Verif.Model.SolverInterface
import Verif.Model.Spa
import Verif.Model.SpaTables
import Verif.Model.Special
import Verif.Model.Splines
import Verif.Model.Systems
import Verif.Model.TankClass
import Verif.Model.Translate
import Verif.Model.TwoPhase
import Verif.Model.TwoPhaseRegime
import Verif.Model.Units
import Verif.Model.ValveNoise
import Verif.Model.Voidage
import Verif.Props.Accel
import Verif.Props.Atmosphere
import Verif.Props.BeggsBrill
import Verif.Props.Bracketing
import Verif.Props.ChebExp
import Verif.Props.ChebPoly
import Verif.Props.Chebfun
import Verif.Props.ChebfunCalculus
import Verif.Props.ChebfunTransform
import Verif.Props.Chebyshev
import Verif.Props.Climate
import Verif.Props.ClimateRecords
import Verif.Props.Coil
import Verif.Props.Colebrook
import Verif.Props.Combinations
import Verif.Props.Compressible
import Verif.Props.Constants
import Verif.Props.ControlValve
import Verif.Props.Core
import Verif.Props.CrownArea
import Verif.Props.Direct
import Verif.Props.DoubleDouble
import Verif.Props.DoubleDoubleExp
import Verif.Props.DoubleDoubleFun
import Verif.Props.DoubleDoublePow
import Verif.Props.Drag
import Verif.Props.DragSphere
import Verif.Props.ErrorMetrics
import Verif.Props.Exchangers
import Verif.Props.Filters
import Verif.Props.FiniteDiff
import Verif.Props.Fits
import Verif.Props.Fittings2
import Verif.Props.FittingsCones
import Verif.Props.FittingsDispatch
import Verif.Props.FittingsK
import Verif.Props.FittingsValves
import Verif.Props.FlareNoise
import Verif.Props.FlowMeter
import Verif.Props.FlowMeterDispatch
import Verif.Props.Friction
import Verif.Props.GasLevel
import Verif.Props.GasNoise
import Verif.Props.Gravity
import Verif.Props.Guards
import Verif.Props.HeadAreas
import Verif.Props.HeadVolume
import Verif.Props.HorizSphere
import Verif.Props.HorizTori
import Verif.Props.HorizVolume
import Verif.Props.HorizVolume2
import Verif.Props.Interp
import Verif.Props.Interp2d
import Verif.Props.Irradiance
import Verif.Props.Isothermal
import Verif.Props.JetPump
import Verif.Props.LU
import Verif.Props.LeastSquares
import Verif.Props.LiquidNoise
import Verif.Props.MatrixAlgebra
import Verif.Props.Mixing
import Verif.Props.NelderMead
import Verif.Props.Newton
import Verif.Props.NumHelpers
import Verif.Props.NumRules
import Verif.Props.OpenFlow
import Verif.Props.PackedBed
import Verif.Props.PackedTower
import Verif.Props.Pipelines
import Verif.Props.Piping
import Verif.Props.Plates
import Verif.Props.PolyEval
import Verif.Props.PolyUtils
import Verif.Props.Polylog
import Verif.Props.PressureDrop
import Verif.Props.PressureIntegral
import Verif.Props.Psd
import Verif.Props.PsdBasis
import Verif.Props.PsdClasses
import Verif.Props.PsdDiscrete
import Verif.Props.PsdFit
import Verif.Props.PsdInterp
import Verif.Props.PsdMean
import Verif.Props.PsdQueries
import Verif.Props.PsdSpacing
import Verif.Props.Pump
import Verif.Props.Quad
import Verif.Props.Quartic
import Verif.Props.Remainder
import Verif.Props.Roots
import Verif.Props.Roughness
import Verif.Props.SafetyValve
import Verif.Props.Saltation
import Verif.Props.Segment
import Verif.Props.Separator
import Verif.Props.Sequences
import Verif.Props.Shapes
import Verif.Props.Sizes
import Verif.Props.SolarAngles
import Verif.Props.SolarPosition
import Verif.Props.SolverInterface
import Verif.Props.Sorting
import Verif.Props.Spa
import Verif.Props.Special
import Verif.Props.Splines
import Verif.Props.Stichlmair
import Verif.Props.Surface
import Verif.Props.Systems
import Verif.Props.TankClass
import Verif.Props.TankVolume
import Verif.Props.Tee
import Verif.Props.ToriVolume
import Verif.Props.Translate
import Verif.Props.Tridiagonal
import Verif.Props.TwoPhaseDispatch
import Verif.Props.TwoPhaseMap
import Verif.Props.TwoPhaseMultiplier
import Verif.Props.TwoPhaseSeparated
import Verif.Props.TwoPhaseTerms
import Verif.Props.Units
import Verif.Props.VacuumLeak
import Verif.Props.Voidage
import Verif.Props.VoidageDispatch
import Verif.Props.VoidageMix
import Verif.Props.WetGas
import Verif.Py
import Verif.Spec.Chebyshev
import Verif.Spec.Compressible
import Verif.Spec.Core
import Verif.Spec.Fittings
import Verif.Spec.Friction
import Verif.Spec.Lambert
import Verif.Spec.Matrix
import Verif.Spec.Poly
import Verif.Spec.Tridiagonal
import Verif.Spec.TwoPhase
