import Verif.Model.Units
import Verif.Model.WaterElectro

/-!
Model of the calls of the Zhang and Duan (2005) model of water: `checkModelValidity` and `WaterZhangDuan2005` of
/repo/ThermoFun/ThermoModelsSolvent.cpp and the search of the volume in /repo/ThermoFun/Substances/Solvent/WaterZhangDuan2005.cpp.
Values only, in real numbers.
-/

namespace ThermoFun

/-- The loop of `waterMolarVolume`, WaterZhangDuan2005.cpp:51-71, with the rounds left; the error of lines 73-78 when none is left.  In the
program a volume or a slope of zero makes all later values infinite or NaN, which pass no comparison, so that the loop ends with the same
error. -/
noncomputable def zdNewton (TK Pbar : ℝ) : ℕ → ℝ → Res ℝ
  | 0, _ => .throw
  | n + 1, v =>
    let w := v - zdF TK Pbar v / zdDF TK Pbar v
    if v = 0 ∨ zdDF TK Pbar v = 0 then .throw
    else if |w - v| < 1.0e-08 then .ok w
    else zdNewton TK Pbar n w

/-- `waterMolarVolume`, WaterZhangDuan2005.cpp:34-80: the reduced volume. -/
noncomputable def waterMolarVolume (TK Pbar V0 : ℝ) : Res ℝ := zdNewton TK Pbar 100 V0

/-- `checkModelValidity`, ThermoModelsSolvent.cpp:17-47: the lower limit of the temperature is not named and 0 stands for it. -/
noncomputable def checkModelValidity (T P Tmax _Tmin Pmax Pmin : ℝ) : Res Unit :=
  if T < 0 ∨ T > Tmax then .throw
  else if P > Pmax then .throw
  else if P < Pmin then .throw
  else .ok ()

/-- `WaterZhangDuan2005::thermoPropertiesSubstance`, ThermoModelsSolvent.cpp:231-244, with `thermoPropertiesWaterZhangDuan2005`,
WaterZhangDuan2005.cpp:112-131: the molar volume (J/bar) at T in K and P in Pa.  No other property is set; the Gibbs energy `Gres` is
calculated and dropped. -/
noncomputable def zdVolume (T P : ℝ) : Res ℝ :=
  (checkModelValidity T P 2273.15 273.15 3e10 1e8).bind fun _ =>
    (waterMolarVolume T (P / 1e05) 0.3).bind fun v => .ok (v * 55.9480373 / 10)

/-- The density (kg/m³) of `WaterZhangDuan2005::propertiesSolvent`, ThermoModelsSolvent.cpp:217-230, with
`propertiesWaterZhangDuan2005`, WaterZhangDuan2005.cpp:146-157; if one of the volumes for the differences (160-191) is not found, there is an
error, which is left out here. -/
noncomputable def zdDensity (T P : ℝ) : Res ℝ :=
  (checkModelValidity T P 2273.15 273.15 3e10 1e8).bind fun _ =>
    (waterMolarVolume T (P / 1e05) 0.3).bind fun v => .ok (18.015268 / (v * 55.9480373 / 10) * 100)

end ThermoFun
