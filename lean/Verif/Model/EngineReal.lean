import Verif.Model.Engine
import Verif.Model.Solutes
import Verif.Model.Gas
import Verif.Model.Cork
import Verif.Model.Stp
import Verif.Model.BirchMurnaghan
import Verif.Model.WaterState

/-!
The numeric models of substances and reactions the engine (Model/Engine.lean) calls, as modelled in the other files.  The calls are those of
/repo/ThermoFun/ThermoModelsSubstance.cpp and ThermoModelsReaction.cpp.  The models of water, its ideal gas and its dielectric constant remain a
parameter, and so does what the gas model CGF does after reading its coefficients.
-/

namespace ThermoFun.Engine

/-- The data read by the HKF models, ThermoModelsSubstance.cpp:185-197, 223-235; a substance that reaches them is not H+ (ThermoEngine.cpp:239). -/
noncomputable def Subst.hkfSub (x : Subst) : HKFSub := ⟨x.charge, x.symbol = "H+", x.params.hkf, x.ref⟩

/-- The data read by the Cp integration, EmpiricalCpIntegration.cpp:13-16, 28; `substance.thermoProperties()` are default-constructed, as no reader
sets them. -/
noncomputable def Subst.cpData (x : Subst) : CpData := ⟨x.params.cpCoeffs, x.params.intervals, x.params.transitions, x.refT, x.ref, TPS.default⟩

/-- A model that reads `isothermal_compresibility` and `isobaric_expansivity` (SolidMurnaghanHP98.cpp:15-16, SolidHPLandau.cpp), which
are uninitialised if the record does not state them. -/
noncomputable def withSolid (x : Subst) (f : ℝ → ℝ → Res TPS) : Res TPS :=
  match x.params.compressibility, x.params.expansivity with
  | some k, some a => f k a
  | _, _ => .ub

/-- A result that can be NaN; NaN has no counterpart in the model of the engine and is shown as undefined behaviour.  Modelling device. -/
def orNaN (r : Res (Option TPS)) : Res TPS := do
  match ← r with
  | some t => .ok t
  | none => .ub

/-- The code of a logK(T) function, ThermoEngine.cpp:695-702 and LogK_function_of_T.cpp. -/
def logKFun : Engine.CorrT → ThermoFun.CorrT
  | .EK0 => .EK0 | .EK1 => .EK1 | .EK2 => .EK2 | .EK3 => .EK3 | .LGK => .LGK | .LGX => .LGX | _ => .other

/-- The models of substances (ThermoModelsSubstance.cpp:60-798) and reactions (ThermoModelsReaction.cpp:22-202); `base` holds the others. -/
noncomputable def real (base : Models PSolv ESolv) : Models PSolv ESolv :=
  { base with
    cpt := fun x T _ => empCpIntegration x.cpData T
    hkf := fun x T P ps es => hkfGemsEntry T P x.hkfSub ps es
    hkfr := fun x T P ps es => hkfReaktoroEntry T P x.hkfSub ps es
    hp98 := fun x T P psr ps => hp98Entry T P x.refT x.ref x.params.holland psr.toSolv ps.toSolv
    an91 := fun x T P psr ps => .ok (anderson91Entry T P x.refT x.ref psr.toSolv ps.toSolv)
    chp := fun x T P tps => withSolid x fun k a => landau (TS.temperature T) (pbar P) x.refT x.params.landau k a tps
    cst := fun x T _ => .ok (entropyCpEntry T x.refT TPS.default x.ref)
    aki := fun x T P tps wtp wig wp wtpr wigr wpr => akinfievDiamondEntry T P x.params.akinfiev tps wtp wig wp.toSolv wtpr wigr wpr.toSolv
    ceh := fun x T P tps => withSolid x fun k a => .ok (murnaghan (TS.temperature T) (pbar P) x.refT x.refP x.ref k a tps)
    vbe := fun x T P tps => berman88 (TS.temperature T) (pbar P) x.refT x.refP x.ref x.params.volume tps
    vbm := fun x T P tps => BM.bmEntry T P x.refT x.refP x.ref x.params.birch tps
    prsv := fun x T P tps fl => orNaN (Gas.gasEntry .PRSV T P x.params.intervals x.params.critical x.refP tps fl)
    srk := fun x T P tps fl => orNaN (Gas.gasEntry .SRK T P x.params.intervals x.params.critical x.refP tps fl)
    pr78 := fun x T P tps fl => orNaN (Gas.gasEntry .PR78 T P x.params.intervals x.params.critical x.refP tps fl)
    cork := fun x T P tps fl => orNaN (Cork.corkEntry T P x.formula x.params.intervals x.params.critical x.refP tps fl)
    emp := fun x T P tps fl => orNaN (Stp.cgfProps (fun _ => do .ok (some (← base.emp x T P tps fl))) x.params.intervals x.params.critical)
    stp := fun x T P tps fl => orNaN (Stp.stpEntry T P x.formula x.params.intervals x.params.critical x.refP tps fl)
    off := fun x T P tps fl => .ok (idealGasLawVol T P (decide (x.cls = .GASFLUID)) x.refP tps fl)
    con := fun x T P tps => .ok (conMolVol T P x.ref x.refP tps)
    logk := fun x T P m => logKfTEntry T P x.ref x.params.logK x.params.cp x.refT (logKFun m)
    dmd := fun x T P ps => densityEntry .DolejsManning10 T P ⟨x.params.dm, x.params.fm, x.params.rb⟩ ps.toSolv
    dkr := fun x T P ps => densityEntry .FrantzMarshall T P ⟨x.params.dm, x.params.fm, x.params.rb⟩ ps.toSolv
    mrb := fun x T P ps => densityEntry .RyzhenkoBryzgalin T P ⟨x.params.dm, x.params.fm, x.params.rb⟩ ps.toSolv
    volft := fun _ _ _ => .ok TPR.default }

end ThermoFun.Engine
