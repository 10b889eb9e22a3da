import Verif.Model.HKF

/-!
Model of the state of water derived from a Helmholtz function: /repo/ThermoFun/Substances/Solvent/Reaktoro/WaterThermoStateUtils.cpp,
the molar properties and solvent properties of WaterHGKreaktoro.cpp and WaterWP95reaktoro.cpp in /repo/ThermoFun/Substances/Solvent, the
density iteration of Reaktoro/WaterUtils.cpp and the ideal gas of WaterIdealGasWolley.cpp.

Only the values of the ThermoScalars are modelled here (real numbers), except in `waterDensity`, whose carried derivatives matter.
-/

namespace ThermoFun

/-- `WaterHelmholtzState`, Reaktoro/WaterHelmholtzState.hpp:25-56: the specific Helmholtz energy and its partial derivatives. -/
structure Helm where
  f : ℝ
  fT : ℝ
  fD : ℝ
  fTT : ℝ
  fTD : ℝ
  fDD : ℝ
  fTTT : ℝ
  fTTD : ℝ
  fTDD : ℝ
  fDDD : ℝ

/-- `WaterThermoState`, Reaktoro/WaterThermoState.hpp:25-89. -/
structure WState where
  temperature : ℝ
  volume : ℝ
  entropy : ℝ
  helmholtz : ℝ
  internalEnergy : ℝ
  enthalpy : ℝ
  gibbs : ℝ
  cv : ℝ
  cp : ℝ
  density : ℝ
  densityT : ℝ
  densityP : ℝ
  densityTT : ℝ
  densityTP : ℝ
  densityPP : ℝ
  pressure : ℝ
  pressureT : ℝ
  pressureD : ℝ
  pressureTT : ℝ
  pressureTD : ℝ
  pressureDD : ℝ

/-- `waterThermoState`, Reaktoro/WaterThermoStateUtils.cpp:48-96. -/
noncomputable def waterThermoState (T P D : ℝ) (wh : Helm) : WState :=
  let pressureD := 2 * D * wh.fD + D * D * wh.fDD
  let pressureT := D * D * wh.fTD
  let pressureDD := 2 * wh.fD + 4 * D * wh.fDD + D * D * wh.fDDD
  let pressureTD := 2 * D * wh.fTD + D * D * wh.fTDD
  let pressureTT := D * D * wh.fTTD
  let densityT := -pressureT / pressureD
  let densityP := 1 / pressureD
  let densityTT := -densityT * densityP * (densityT * pressureDD + 2 * pressureTD + pressureTT / densityT)
  let densityTP := -densityP * densityP * (densityT * pressureDD + pressureTD)
  let densityPP := -densityP * densityP * densityP * pressureDD
  let volume := 1 / D
  let entropy := -wh.fT
  let helmholtz := wh.f
  let internalEnergy := helmholtz + T * entropy
  let enthalpy := internalEnergy + P / D
  let gibbs := enthalpy - T * entropy
  let cv := -T * wh.fTT
  let cp := cv + T / (D * D) * pressureT * pressureT / pressureD
  ⟨T, volume, entropy, helmholtz, internalEnergy, enthalpy, gibbs, cv, cp, D, densityT, densityP, densityTT, densityTP, densityPP, P,
    pressureT, pressureD, pressureTT, pressureTD, pressureDD⟩

/-- `WaterTripleProperties`, GlobalVariables.h:49-55. -/
structure Triple where
  Str : ℝ
  Gtr : ℝ
  Htr : ℝ
  Utr : ℝ
  Atr : ℝ

/-- `waterTripleData`, GlobalVariables.h:58-81; `at` throws for other keys (`none`). -/
noncomputable def waterTripleData (key : String) : Option Triple :=
  if key = "HKF_HGK_1974" then
    some ⟨15.1320 * 4.184, -56290.0 * 4.184, -68767.0 * 4.184, -67887.0 * 4.184, -55415.0 * 4.184⟩
  else if key = "NEA_HGK" then
    some ⟨15.1386 * 4.184, -56279.9 * 4.184, -68766.44 * 4.184, -67921.9 * 4.184, -55434.49 * 4.184⟩
  else if key = "NEA_IAPWS" then
    some ⟨15.1374 * 4.184, -56279.9 * 4.184, -68766.76 * 4.184, -67922.22 * 4.184, -55434.49 * 4.184⟩
  else none

/-- The values of `ThermoPropertiesSubstance`, ThermoProperties.h:19-44, for water. -/
structure Molar where
  S : ℝ
  H : ℝ
  U : ℝ
  G : ℝ
  A : ℝ
  V : ℝ
  Cp : ℝ
  Cv : ℝ

/-- `waterMolarMass`, Reaktoro/WaterConstants.hpp:23. -/
noncomputable def waterMolarMass : ℝ := 0.018015268

/-- The body shared by `thermoPropertiesWaterHGKreaktoro`, WaterHGKreaktoro.cpp:10-52 (`Ttr` = 273.15), and
`thermoPropertiesWaterWP95reaktoro`, WaterWP95reaktoro.cpp:9-55 (`Ttr` = 273.16). -/
noncomputable def molarWater (Ttr T : ℝ) (wt : WState) (wtr : Triple) : Molar :=
  let Sw := waterMolarMass * wt.entropy
  let Hw := waterMolarMass * wt.enthalpy
  let Uw := waterMolarMass * wt.internalEnergy
  { S := Sw + wtr.Str
    H := Hw + wtr.Htr
    U := Uw + wtr.Utr
    G := Hw - T * (Sw + wtr.Str) + Ttr * wtr.Str + wtr.Gtr
    A := Uw - T * (Sw + wtr.Str) + Ttr * wtr.Str + wtr.Atr
    V := wt.volume * waterMolarMass * 100000
    Cp := wt.cp * waterMolarMass
    Cv := wt.cv * waterMolarMass }

/-- `thermoPropertiesWaterHGKreaktoro`, WaterHGKreaktoro.cpp:10-52. -/
noncomputable def molarHGK (T : ℝ) (wt : WState) (wtr : Triple) : Molar := molarWater 273.15 T wt wtr

/-- `thermoPropertiesWaterWP95reaktoro`, WaterWP95reaktoro.cpp:9-55. -/
noncomputable def molarWP95 (T : ℝ) (wt : WState) (wtr : Triple) : Molar := molarWater 273.16 T wt wtr

/-- `propertiesWaterHGKreaktoro`, WaterHGKreaktoro.cpp:54-82, and `propertiesWaterWP95reaktoro`, WaterWP95reaktoro.cpp:57-85, which are the
same text; the fields the solute models read. -/
noncomputable def solventProps (wt : WState) : PSolv :=
  let alpha := -wt.densityT / wt.density
  { density := .ofVal wt.density, densityT := .ofVal wt.densityT, densityP := .ofVal wt.densityP, densityTT := .ofVal wt.densityTT,
    densityTP := .ofVal wt.densityTP, densityPP := .ofVal wt.densityPP, Alpha := .ofVal alpha,
    Beta := .ofVal (wt.densityP / wt.density), dAldT := .ofVal (-wt.densityTT / wt.density + alpha * alpha) }

/-! ### The ideal gas -/

/-- The coefficients `c`, WaterIdealGasWolley.cpp:12-17. -/
noncomputable def wolleyC : List ℝ :=
  [ 0.19730271018e2,    0.209662681977e2,  -0.483429455355e0,
    0.605743189245e1,   0.2256023885e2,    -0.987532442e1,
    -0.43135538513e1,    0.458155781e0,     -0.47754901883e-1,
    0.41238460633e-2,  -0.27929052852e-3,   0.14481695261e-4,
    -0.56473658748e-6,   0.16200446e-7,     -0.3303822796e-9,
    0.451916067368e-11, -0.370734122708e-13, 0.137546068238e-15 ]

/-- The loop of WaterIdealGasWolley.cpp:29-35 over `i` = 2..17 as a fold over the rest of the coefficients; (Gig, Hig, Cpig). -/
noncomputable def wolleyLoop (tt : ℝ) : List ℝ → ℕ → ℝ × ℝ × ℝ → ℝ × ℝ × ℝ
  | [], _, a => a
  | c :: cs, i, (g, h, cp) =>
    let emult := tt ^ ((i : ℝ) - 5)
    wolleyLoop tt cs (i + 1) (g - c * emult, h + c * ((i : ℝ) - 5) * emult, cp + c * ((i : ℝ) - 5) * ((i : ℝ) - 4) * emult)

/-- `waterIdealGas`, WaterIdealGasWolley.cpp:7-51; the volume is not set.  `R_CONSTANT` is 8.31451 (GlobalVariables.h:29). -/
noncomputable def waterIdealGas (t : ℝ) : Molar :=
  let c0 := wolleyC.getD 0 0
  let c1 := wolleyC.getD 1 0
  let dH0k : ℝ := 0 + (-182161.88)
  let tt := t / 1.0e2
  let g0 := -(c0 / tt + c1) * Real.log tt
  let h0 := c1 + c0 * (1 - Real.log tt) / tt
  let cp0 := c1 - c0 / tt
  let (g, h, cp) := wolleyLoop tt (wolleyC.drop 2) 2 (g0, h0, cp0)
  let a := g - 1
  let u := h - 1
  let cv := cp - 1
  let s := u - a
  let R : ℝ := 8.31451
  { H := h * R * t + dH0k, S := s * R, G := g * R * t + dH0k, Cp := cp * R, Cv := cv * R, A := a * R * t + dH0k, U := u * R * t + dH0k,
    V := 0 }

/-! ### The density iteration -/

/-- What the iteration reads from the Helmholtz state: `helmholtzD` and `helmholtzDD`. -/
structure HelmD where
  fD : TS
  fDD : TS

/-- `waterCriticalPressure`, Reaktoro/WaterConstants.hpp:29. -/
noncomputable def waterCriticalPressure : ℝ := 22.064e+06

open Classical in
/-- The Newton loop of `waterDensity`, Reaktoro/WaterUtils.cpp:60-73, with `n` iterations left; `model` gives the Helmholtz state at the
fixed temperature.  The residual is tested after the update, and the updated density is returned. -/
noncomputable def waterDensityLoop (P : TS) (model : TS → HelmD) : ℕ → TS → Res TS
  | 0, _ => .throw
  | n + 1, D =>
    let h := model D
    let f := (D * D * h.fD - P) / waterCriticalPressure
    let df := ((2 : ℝ) * D * h.fD + D * D * h.fDD) / waterCriticalPressure
    let D' := if D.val > f.val / df.val then D - f / df else P / (D * h.fD)
    if |f.val| < 1.0e-08 then .ok D' else waterDensityLoop P model n D'

/-- `waterDensity`, Reaktoro/WaterUtils.cpp:31-84, from the initial guess on (lines 34-58 choose it from the saturation curves). -/
noncomputable def waterDensity (P : TS) (model : TS → HelmD) (guess : TS) : Res TS := waterDensityLoop P model 100 guess

/-- `waterPressure`, Reaktoro/WaterUtils.cpp:95-100. -/
noncomputable def waterPressure (D : TS) (model : TS → HelmD) : TS := D * D * (model D).fD.val

/-- `waterPressureHGK`, Reaktoro/WaterUtils.cpp:102-105; `hgk` and `wp` are the two Helmholtz models. -/
noncomputable def waterPressureHGK (hgk _wp : TS → HelmD) (D : TS) : TS := waterPressure D hgk

/-- `waterPressureWagnerPruss`, Reaktoro/WaterUtils.cpp:107-110: passes the HGK model. -/
noncomputable def waterPressureWagnerPruss (hgk _wp : TS → HelmD) (D : TS) : TS := waterPressure D hgk

end ThermoFun
