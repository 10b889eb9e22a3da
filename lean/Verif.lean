import Verif.Model.ThermoScalar
import Verif.Model.Memo
import Verif.Model.Batch
import Verif.Model.BatchFile
import Verif.Model.OutputCSV
import Verif.Model.UnitsTable
import Verif.Model.Units
import Verif.Model.LogK
import Verif.Model.TSOps
import Verif.Model.Density
import Verif.Model.Equation
import Verif.Model.Substance
import Verif.Model.HKF
import Verif.Model.WaterState
import Verif.Model.WaterElectro
import Verif.Lemmas.Units
import Verif.Lemmas.TSVal
import Verif.Lemmas.TSOps
import Verif.Lemmas.Grad
import Verif.Lemmas.CentralDiff
import Verif.Props.ThermoScalar
import Verif.Props.Memo
import Verif.Props.Batch
import Verif.Props.Units
import Verif.Props.LogK
import Verif.Props.Density
import Verif.Props.Equation
import Verif.Props.SubstanceP
import Verif.Props.EmpCp
import Verif.Props.Solids
import Verif.Props.Landau
import Verif.Props.HKF
import Verif.Props.Born
import Verif.Props.GFunction
import Verif.Props.GShok
import Verif.Props.HKFEntry
import Verif.Props.WaterState
import Verif.Props.WaterIdeal
import Verif.Props.WaterDensity
import Verif.Props.WaterTriple
import Verif.Props.WaterElectro
import Verif.Props.WaterFD
import Verif.Model.Engine
import Verif.Lemmas.Engine
import Verif.Lemmas.EngineRel
import Verif.Lemmas.EngineEx
import Verif.Props.Engine
import Verif.Props.EngineDepth
import Verif.Props.EngineHist
import Verif.Lemmas.EngineObl
import Verif.Props.EngineDispatch
import Verif.Props.EngineReac
import Verif.Model.Json
import Verif.Model.Database
import Verif.Lemmas.Json
import Verif.Props.Database
import Verif.Props.DatabaseElem
import Verif.Props.ParseJson
import Verif.Props.ParseFaithful
import Verif.Model.Bounds
import Verif.Props.Bounds
import Verif.Model.Copies
import Verif.Props.Copies
import Verif.Lemmas.Jet
import Verif.Lemmas.Solve
import Verif.Model.WagnerPruss
import Verif.Lemmas.WagnerPruss
import Verif.Lemmas.WagnerPrussLow
import Verif.Props.WagnerPruss
import Verif.Model.HGK
import Verif.Lemmas.HGK
import Verif.Lemmas.HGKState
import Verif.Lemmas.HGKLow
import Verif.Props.HGK
import Verif.Lemmas.Carries
import Verif.Model.Solutes
import Verif.Props.Solutes
import Verif.Props.Carried
import Verif.Props.CarriedS
import Verif.Props.CarriedA
import Verif.Model.Gas
import Verif.Lemmas.Gas
import Verif.Lemmas.GasEos
import Verif.Lemmas.GasDeriv
import Verif.Lemmas.GasT
import Verif.Props.Gas
import Verif.Props.GasT
import Verif.Props.GasEntry
import Verif.Model.BirchMurnaghan
import Verif.Lemmas.BirchMurnaghan
import Verif.Props.BirchMurnaghan
import Verif.Props.BirchEntry
import Verif.Props.Unread
import Verif.Model.Params
import Verif.Model.EngineReal
import Verif.Props.VantHoff
import Verif.Props.Minerals
import Verif.Model.EngineJson
import Verif.Props.FromJson
import Verif.Model.Cork
import Verif.Lemmas.CorkGas
import Verif.Lemmas.CorkMrk
import Verif.Lemmas.CorkT
import Verif.Props.CorkGas
import Verif.Props.Cork
import Verif.Props.CorkT
import Verif.Props.CorkEntry
import Verif.Model.Stp
import Verif.Lemmas.Stp
import Verif.Lemmas.StpState
import Verif.Lemmas.StpNewton
import Verif.Lemmas.StpRange
import Verif.Lemmas.StpExample
import Verif.Props.Stp
import Verif.Props.StpEntry
import Verif.Props.NamedModels
import Verif.Model.Gems
import Verif.Lemmas.Gems
import Verif.Lemmas.GemsRes
import Verif.Lemmas.GemsTotal
import Verif.Lemmas.Interval
import Verif.Lemmas.GemsIv
import Verif.Lemmas.GemsState
import Verif.Props.Gems
import Verif.Props.GemsBorn
import Verif.Model.GemsFlow
import Verif.Lemmas.GemsFlowIv
import Verif.Lemmas.GemsFlowAt
import Verif.Lemmas.SolveNear
import Verif.Props.GemsFlow
import Verif.Props.GemsTransport
import Verif.Model.WaterSat
import Verif.Lemmas.PolyCover
import Verif.Props.WaterSat
import Verif.Lemmas.WagnerPrussIv
import Verif.Lemmas.WagnerPrussVal
import Verif.Props.Aqueous
import Verif.Props.AqueousWater
import Verif.Lemmas.WagnerPrussSearch
import Verif.Props.WaterCarry
import Verif.Props.WaterSearch
import Verif.Model.GemsCrit
import Verif.Lemmas.GemsCrit
import Verif.Props.GemsCrit
import Verif.Props.BatchFile
import Verif.Props.OutputCSV
import Verif.Props.Templates
import Verif.Props.Scopes
import Verif.Props.UnitValues
import Verif.Props.Doubles
import Verif.Props.Format
import Verif.Model.Saturation
import Verif.Props.Saturation
import Verif.Props.Reference
import Verif.Props.Transition
import Verif.Props.Locality
import Verif.Props.ByEquation
import Verif.Props.GContinuous
import Verif.Model.ZhangDuan
import Verif.Props.ZhangDuan
import Verif.Props.WaterRange
import Verif.Model.SatGems
import Verif.Props.ByReference
import Verif.Model.Python
import Verif.Props.Python
import Verif.Props.Cycles
import Verif.Model.Records
import Verif.Props.Records
import Verif.Props.GasIdeal
import Verif.Props.GasCritical
import Verif.Props.GasReference
import Verif.Props.GasContinuity
import Verif.Props.Stability
import Verif.Props.GasLiquid
import Verif.Props.BirchStrong
import Verif.Props.Uncertainty
import Verif.Props.CorkStable
import Verif.Props.Errors
import Verif.Props.GasResidual
import Verif.Model.Setters
import Verif.Props.Setters
import Verif.Props.CarriedGas
import Verif.Props.CarriedLandau
import Verif.Props.CarriedFluids
import Verif.Props.GasLimit
import Verif.Props.FluidReference
import Verif.Props.GasRefAny
import Verif.Props.CarriedGasS
import Verif.Props.ByEquationU
import Verif.Props.FluidLimit
import Verif.Props.GasRefNaN
import Verif.Props.CarriedGasK
import Verif.Props.CyclesGas
import Verif.Props.TransitionRef
import Verif.Props.PythonNumbers
