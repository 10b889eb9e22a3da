import Verif.Model.WagnerPruss

/-!
Model of the saturation curves of water and of the start of the density search: /repo/ThermoFun/Substances/Solvent/Reaktoro/WaterUtils.cpp.
-/

namespace ThermoFun

namespace WP

/-- `waterCriticalTemperature`, Reaktoro/WaterConstants.hpp:26. -/
noncomputable def critT : ℝ := 647.096

/-- `waterCriticalDensity`, Reaktoro/WaterConstants.hpp:32. -/
noncomputable def critD : ℝ := 322.0

/-- `waterSaturatedPressureWagnerPruss`, Reaktoro/WaterUtils.cpp:112-132. -/
noncomputable def satPressure (T : TS) : TS :=
  let a1 : ℝ := -7.85951783
  let a2 : ℝ := 1.84408259
  let a3 : ℝ := -11.7866497
  let a4 : ℝ := 22.6807411
  let a5 : ℝ := -15.9618719
  let a6 : ℝ := 1.80122502
  let Tcr : ℝ := critT
  let Pcr : ℝ := waterCriticalPressure
  let t : TS := (1 : ℝ) - T / Tcr
  let t15 := TS.powR t 1.5
  let t30 := t15 * t15
  let t35 := t15 * t * t
  let t40 := t30 * t
  let t75 := t35 * t40
  Pcr * TS.exp (Tcr / T * (a1 * t + a2 * t15 + a3 * t30 + a4 * t35 + a5 * t40 + a6 * t75))

/-- `waterSaturatedLiquidDensityWagnerPruss`, Reaktoro/WaterUtils.cpp:134-155. -/
noncomputable def satLiquid (T : TS) : TS :=
  let b1 : ℝ := 1.99274064
  let b2 : ℝ := 1.09965342
  let b3 : ℝ := -0.510839303
  let b4 : ℝ := -1.75493479
  let b5 : ℝ := -45.5170352
  let b6 : ℝ := -6.74694450e+05
  let Tcr : ℝ := critT
  let Dcr : ℝ := critD
  let t : TS := (1 : ℝ) - T / Tcr
  let t13 := TS.powR t (1 / 3)
  let t23 := t13 * t13
  let t53 := t13 * t23 * t23
  let t163 := t13 * t53 * t53 * t53
  let t433 := t163 * t163 * t53 * t * t
  let t1103 := t433 * t433 * t163 * t53 * t
  Dcr * ((1 : ℝ) + b1 * t13 + b2 * t23 + b3 * t53 + b4 * t163 + b5 * t433 + b6 * t1103)

/-- `waterSaturatedVapourDensityWagnerPruss`, Reaktoro/WaterUtils.cpp:157-179. -/
noncomputable def satVapour (T : TS) : TS :=
  let c1 : ℝ := -2.03150240
  let c2 : ℝ := -2.68302940
  let c3 : ℝ := -5.38626492
  let c4 : ℝ := -17.2991605
  let c5 : ℝ := -44.7586581
  let c6 : ℝ := -63.9201063
  let Tcr : ℝ := critT
  let Dcr : ℝ := critD
  let t : TS := (1 : ℝ) - T / Tcr
  let t16 := TS.powR t (1 / 6)
  let t26 := t16 * t16
  let t46 := t26 * t26
  let t86 := t46 * t46
  let t186 := t86 * t86 * t26
  let t376 := t186 * t186 * t16
  let t716 := t376 * t186 * t86 * t86
  Dcr * TS.exp (Tcr / T * (c1 * t26 + c2 * t46 + c3 * t86 + c4 * t186 + c5 * t376 + c6 * t716))

open Classical in
/-- The state of water, Reaktoro/WaterUtils.cpp:37-46 and 51-52: 0 liquid, 1 vapour, 2 supercritical; `requested` is `solvent_state`. -/
noncomputable def phase (T P : TS) (requested : ℤ) : ℤ :=
  let state : ℤ := if T.val ≤ critT then (if P.val < (satPressure T).val then 1 else 0) else 2
  if requested ≥ 0 ∧ T.val ≤ critT then requested else state

/-- The density the search starts from, Reaktoro/WaterUtils.cpp:49-59. -/
noncomputable def startDensity (T P : TS) (requested : ℤ) : TS :=
  let state := phase T P requested
  if state = 0 then satLiquid T
  else if state = 1 then satVapour T
  else if state = 2 then TS.assign TS.default (critD * 0.99)
  else TS.default

/-- The two derivatives of the Helmholtz energy the density search reads, WaterHelmholtzStateWagnerPruss.cpp:145-382, as ThermoScalars at a
density that carries derivatives itself.  Simplification: the carried derivatives are formed from the values of the higher derivatives by the
chain rule rather than by following the ThermoScalar operators through the function (`helmholtz` is the value model; C01 is the statement
about the operators). -/
noncomputable def searchModel (T : ℝ) (D : TS) : HelmD :=
  let h := helmholtz T D.val
  ⟨⟨h.fD, h.fTD + h.fDD * D.ddt, h.fDD * D.ddp, 0, .calculated⟩, ⟨h.fDD, h.fTDD + h.fDDD * D.ddt, h.fDDD * D.ddp, 0, .calculated⟩⟩

/-- `waterDensityWagnerPruss`, Reaktoro/WaterUtils.cpp:89-92 with the body 31-83. -/
noncomputable def density (T P : ℝ) (requested : ℤ) : Res TS :=
  waterDensity (TS.pressure P) (searchModel T) (startDensity (TS.temperature T) (TS.pressure P) requested)

end WP

end ThermoFun
