import Verif.Model.WaterState
import Mathlib.Algebra.BigOperators.Group.Finset.Basic

/-!
Model of the dielectric models of water: Reaktoro/WaterElectroStateJohnsonNorton.cpp, WaterElectroSverjensky2014.cpp and
WaterElectroFernandez1997.cpp, and of the finite differences of WaterZhangDuan2005.cpp, all in /repo/ThermoFun/Substances/Solvent.
Values only.
-/

namespace ThermoFun

open scoped BigOperators

/-- `WaterElectroState`, Reaktoro/WaterElectroState.hpp:25-61. -/
structure WElectro where
  epsilon : ℝ
  epsilonT : ℝ
  epsilonP : ℝ
  epsilonTT : ℝ
  epsilonTP : ℝ
  epsilonPP : ℝ
  bornZ : ℝ
  bornY : ℝ
  bornQ : ℝ
  bornN : ℝ
  bornU : ℝ
  bornX : ℝ

/-- The coefficients `a`, Reaktoro/WaterElectroStateJohnsonNorton.cpp:40-53. -/
noncomputable def jnA : ℕ → ℝ
  | 1 => 0.1470333593e+02
  | 2 => 0.2128462733e+03
  | 3 => -0.1154445173e+03
  | 4 => 0.1955210915e+02
  | 5 => -0.8330347980e+02
  | 6 => 0.3213240048e+02
  | 7 => -0.6694098645e+01
  | 8 => -0.3786202045e+02
  | 9 => 0.6887359646e+02
  | 10 => -0.2729401652e+02
  | _ => 0

/-- `k0` to `k4`, Reaktoro/WaterElectroStateJohnsonNorton.cpp:55-59. -/
noncomputable def jnK : ℕ → ℝ → ℝ
  | 0, _ => 1
  | 1, t => jnA 1 / t
  | 2, t => jnA 2 / t + jnA 3 + jnA 4 * t
  | 3, t => jnA 5 / t + jnA 6 * t + jnA 7 * t * t
  | _, t => jnA 8 / t / t + jnA 9 / t + jnA 10

/-- `k0_t` to `k4_t`, Reaktoro/WaterElectroStateJohnsonNorton.cpp:61-65. -/
noncomputable def jnKt : ℕ → ℝ → ℝ
  | 0, _ => 0
  | 1, t => -jnA 1 / (t * t)
  | 2, t => -jnA 2 / (t * t) + jnA 4
  | 3, t => -jnA 5 / (t * t) + jnA 6 + 2 * jnA 7 * t
  | _, t => -2 * jnA 8 / (t * t * t) - jnA 9 / (t * t)

/-- `k0_tt` to `k4_tt`, Reaktoro/WaterElectroStateJohnsonNorton.cpp:67-71. -/
noncomputable def jnKtt : ℕ → ℝ → ℝ
  | 0, _ => 0
  | 1, t => 2 * jnA 1 / (t * t * t)
  | 2, t => 2 * jnA 2 / (t * t * t)
  | 3, t => 2 * jnA 5 / (t * t * t) + 2 * jnA 7
  | _, t => 6 * jnA 8 / (t * t * t * t) + 2 * jnA 9 / (t * t * t)

/-- The Born functions from the dielectric constant and its derivatives, Reaktoro/WaterElectroStateJohnsonNorton.cpp:117-124. -/
noncomputable def bornFunctions (e eT eP eTT eTP ePP : ℝ) : WElectro :=
  let e2 := e * e
  let Z := -1.0 / e
  let Y := eT / e2
  let Q := eP / e2
  let U := eTP / e2 - 2.0 * Y * Q * e
  let N := ePP / e2 - 2.0 * Q * Q * e
  let X := eTT / e2 - 2.0 * Y * Y * e
  ⟨e, eT, eP, eTT, eTP, ePP, Z, Y, Q, N, U, X⟩

/-- `waterElectroStateJohnsonNorton`, Reaktoro/WaterElectroStateJohnsonNorton.cpp:79-127; the loop over i = 0..4 adding to zeros is written as
a sum. -/
noncomputable def johnsonNorton (T : ℝ) (wt : WState) : WElectro :=
  let alpha := -wt.densityT / wt.density
  let beta := wt.densityP / wt.density
  let alphaT := -wt.densityTT / wt.density + alpha * alpha
  let betaT := wt.densityTP / wt.density + alpha * beta
  let betaP := wt.densityPP / wt.density - beta * beta
  let Tr : ℝ := 298.15
  let Dr : ℝ := 1000
  let t := T / Tr
  let r := wt.density / Dr
  let k := fun i => jnK i t
  let kt := fun i => jnKt i t / Tr
  let ktt := fun i => jnKtt i t / Tr / Tr
  bornFunctions
    (∑ i ∈ Finset.range 5, k i * r ^ i)
    (∑ i ∈ Finset.range 5, r ^ i * (kt i - i * alpha * k i))
    (∑ i ∈ Finset.range 5, r ^ i * k i * i * beta)
    (∑ i ∈ Finset.range 5, r ^ i * (ktt i - i * (alpha * kt i + k i * alphaT) - i * alpha * (kt i - i * alpha * k i)))
    (∑ i ∈ Finset.range 5, r ^ i * k i * i * beta * (kt i / k i - i * alpha + betaT / beta))
    (∑ i ∈ Finset.range 5, r ^ i * k i * i * beta * (i * beta + betaP / beta))

/-- `electroPropertiesWaterJNreaktoro`, WaterJN91reaktoro.cpp:7-26; the Born functions the solute models read. -/
noncomputable def electroProps (w : WElectro) : ESolv := ⟨.ofVal w.bornZ, .ofVal w.bornY, .ofVal w.bornQ, .ofVal w.bornX⟩

/-- The finite differences shared by `electroPropertiesWaterSverjensky2014`, WaterElectroSverjensky2014.cpp:30-85, and
`electroPropertiesWaterFernandez1997`, WaterElectroFernandez1997.cpp:45-102.  `eps T P` is the dielectric constant at T in °C and P in bar
(the density in it comes from the engine); TC in °C, Pbar in bar.  The mixed derivative and the Born functions N and U are not set. -/
noncomputable def electroFD (eps : ℝ → ℝ → ℝ) (TC Pbar : ℝ) : WElectro :=
  let e := eps TC Pbar
  let e2 := e * e
  let Tp := TC + TC * 0.001
  let Tm := TC - TC * 0.001
  let ep := eps Tp Pbar
  let em := eps Tm Pbar
  let eT := (ep - em) / (Tp - Tm)
  let eTT := (ep + em - 2 * e) / ((Tp - Tm) * 0.5) ^ 2
  let Pp := Pbar + Pbar * 0.001
  let Pm := Pbar - Pbar * 0.001
  let ep' := eps TC Pp
  let em' := eps TC Pm
  let eP := (ep' - em') / (Pp - Pm)
  let ePP := (ep' + em' - 2 * e) / ((Pp - Pm) * 0.5) ^ 2
  let Y := eT / e2
  ⟨e, eT, eP, eTT, 0, ePP, -1.0 / e, Y, eP / e2 * 1e-05, 0, 0, eTT / e2 - 2.0 * Y * Y * e⟩

/-- `epsilonS`, WaterElectroSverjensky2014.cpp:25-28; T in °C, RHO in g/cm³. -/
noncomputable def epsilonS (T RHO : ℝ) : ℝ :=
  Real.exp (-8.016651e-05 * T + -6.871618e-02 * T ^ (0.5 : ℝ) + 4.747973)
    * RHO ^ (-1.576377e-03 * T + 6.810288e-02 * T ^ (0.5 : ℝ) + 7.548755e-01)

/-- `electroPropertiesWaterSverjensky2014`, WaterElectroSverjensky2014.cpp:30-85; `rho` is the density (kg/m³) the engine gives at T in K and
P in Pa. -/
noncomputable def electroSverjensky (rho : ℝ → ℝ → ℝ) (TC Pbar : ℝ) : WElectro :=
  electroFD (fun t p => epsilonS t (rho (t + 273.15) (p * 1e05) / 1000)) TC Pbar

/-- The exponents `I`, `J` and coefficients `n` of the correlation factor, WaterElectroFernandez1997.cpp:9-13, as triples; n[11] is in
`fernandezG`. -/
noncomputable def fernandezTab : List (ℝ × ℝ × ℝ) :=
  [(1, 0.25, 0.978224486826), (1, 1, -0.957771379375), (1, 2.5, 0.237511794148), (2, 1.5, 0.714692244396), (3, 1.5, -0.298217036956),
   (3, 2.5, -0.108863472196), (4, 2, 0.949327488264e-1), (5, 2, -0.980469816509e-2), (6, 5, 0.165167634970e-4), (7, 0.5, 0.937359795772e-4),
   (10, 10, -0.12317921872e-9)]

/-- The correlation factor `g`, WaterElectroFernandez1997.cpp:31-35. -/
noncomputable def fernandezG (T rho : ℝ) : ℝ :=
  fernandezTab.foldl (fun g (i, j, n) => g + n * (rho / 322) ^ i * (647.096 / T) ^ j)
    (1 + 0.196096504426e-2 * (rho / 322) / (647.096 / 228 / (647.096 / T) - 1) ^ (1.2 : ℝ))

/-- `epsilonF`, WaterElectroFernandez1997.cpp:20-42; T in K, rho in kg/m³. -/
noncomputable def epsilonF (T rho : ℝ) : ℝ :=
  let k : ℝ := 1.380658e-23
  let Na : ℝ := 6.0221367e23
  let alfa : ℝ := 1.636e-40
  let epsilon0 : ℝ := 8.854187817e-12
  let mu : ℝ := 6.138e-30
  let M : ℝ := 0.018015268
  let g := fernandezG T rho
  let A := Na * mu ^ 2 * rho * g / M / epsilon0 / k / T
  let B := Na * alfa * rho / 3 / M / epsilon0
  (1 + A + 5 * B + (9 + 2 * A + 18 * B + A ^ 2 + 10 * A * B + 9 * B ^ 2) ^ (0.5 : ℝ)) / 4 / (1 - B)

/-- `electroPropertiesWaterFernandez1997`, WaterElectroFernandez1997.cpp:45-102; `rho` is the density (kg/m³) the engine gives at T in K and
P in Pa.  The temperature difference is taken between Kelvin temperatures, which is the same. -/
noncomputable def electroFernandez (rho : ℝ → ℝ → ℝ) (TC Pbar : ℝ) : WElectro :=
  electroFD (fun t p => epsilonF (t + 273.15) (rho (t + 273.15) (p * 1e05))) TC Pbar

/-- The finite differences of `propertiesWaterZhangDuan2005`, WaterZhangDuan2005.cpp:146-205; `vol T P` is the molar volume in J/bar at T in K
and P in bar (`waterMolarVolume` times the critical volume over ten; its starting point is left out).  The density derivatives with respect
to P are converted to 1/Pa by the factors of lines 195-202. -/
noncomputable def zhangDuan (vol : ℝ → ℝ → ℝ) (T P : ℝ) : WState :=
  let dens := fun V : ℝ => 18.015268 / V * 100
  let D := dens (vol T P)
  let Tp := T + T * 0.001
  let Tm := T - T * 0.001
  let Dp := dens (vol Tp P)
  let Dm := dens (vol Tm P)
  let DdT := (Dp - Dm) / (Tp - Tm)
  let Dd2T := (Dp + Dm - 2 * D) / ((Tp - Tm) * 0.5) ^ 2
  let Pp := P + P * 0.001
  let Pm := P - P * 0.001
  let Dp' := dens (vol T Pp)
  let Dm' := dens (vol T Pm)
  let DdP := (Dp' - Dm') / (Pp - Pm)
  let Dd2P := (Dp' + Dm' - 2 * D) / ((Pp - Pm) * 0.5) ^ 2
  { temperature := 0, volume := 0, entropy := 0, helmholtz := 0, internalEnergy := 0, enthalpy := 0, gibbs := 0, cv := 0, cp := 0,
    density := D, densityT := DdT, densityP := DdP * 1e-05, densityTT := Dd2T, densityTP := 0, densityPP := Dd2P * 1e-05,
    pressure := 0, pressureT := 0, pressureD := 0, pressureTT := 0, pressureTD := 0, pressureDD := 0 }

/-- The compressibility factor inside the residual of `waterMolarVolume`, WaterZhangDuan2005.cpp:40-55, as a function of the reduced
temperature and volume; exponents are integers in the source. -/
noncomputable def zdZ (tr v : ℝ) : ℝ :=
  let B := 3.49824207e-01 + -2.91046273e+00 / tr ^ 2 + 2.00914688e+00 / tr ^ 3
  let C := 1.12819964e-01 + 7.48997714e-01 / tr ^ 2 + -8.73207040e-01 / tr ^ 3
  let D := 1.70609505e-02 + -1.46355822e-02 / tr ^ 2 + 5.79768283e-02 / tr ^ 3
  let E := -8.41246372e-04 + 4.95186474e-03 / tr ^ 2 + -9.16248538e-03 / tr ^ 3
  let F := -1.00358152e-01 / tr
  let G := -1.82674744e-03 * tr
  1 + B / v + C / v ^ 2 + D / v ^ 4 + E / v ^ 5 + (F / v ^ 2 + G / v ^ 4) * Real.exp (-1.05999998e-02 / v ^ 2)

/-- The residual `f`, WaterZhangDuan2005.cpp:53-55. -/
noncomputable def zdF (TK Pbar v : ℝ) : ℝ := zdZ (TK / 647.25) v * 83.14467 * TK / Pbar - v * 55.9480373

/-- Its derivative `df` as coded, WaterZhangDuan2005.cpp:56-58. -/
noncomputable def zdDF (TK Pbar v : ℝ) : ℝ :=
  let tr := TK / 647.25
  let gamma : ℝ := 1.05999998e-02
  let B := 3.49824207e-01 + -2.91046273e+00 / tr ^ 2 + 2.00914688e+00 / tr ^ 3
  let C := 1.12819964e-01 + 7.48997714e-01 / tr ^ 2 + -8.73207040e-01 / tr ^ 3
  let D := 1.70609505e-02 + -1.46355822e-02 / tr ^ 2 + 5.79768283e-02 / tr ^ 3
  let E := -8.41246372e-04 + 4.95186474e-03 / tr ^ 2 + -9.16248538e-03 / tr ^ 3
  let F := -1.00358152e-01 / tr
  let G := -1.82674744e-03 * tr
  (-B / v ^ 2 - 2 * C / v ^ 3 - 4 * D / v ^ 5 - 5 * E / v ^ 6 -
    (2 * Real.exp (-gamma / v ^ 2) * (-F * gamma * v ^ 2 + F * v ^ 4 - gamma * G + 2 * G * v ^ 2)) / v ^ 7) * 83.14467 * TK / Pbar
    - 55.9480373

/-- `waterFugacityCoeff`, WaterZhangDuan2005.cpp:82-109: ln of the fugacity coefficient. -/
noncomputable def zdLnPhi (T P v V : ℝ) : ℝ :=
  let tr := T / 647.25
  let gamma : ℝ := 1.05999998e-02
  let B := 3.49824207e-01 + -2.91046273e+00 / tr ^ 2 + 2.00914688e+00 / tr ^ 3
  let C := 1.12819964e-01 + 7.48997714e-01 / tr ^ 2 + -8.73207040e-01 / tr ^ 3
  let D := 1.70609505e-02 + -1.46355822e-02 / tr ^ 2 + 5.79768283e-02 / tr ^ 3
  let E := -8.41246372e-04 + 4.95186474e-03 / tr ^ 2 + -9.16248538e-03 / tr ^ 3
  let F := -1.00358152e-01 / tr
  let G := -1.82674744e-03 * tr
  let expf := Real.exp (-gamma / v ^ 2)
  let Z := P * V / (83.14467 * T)
  let H := F / (2 * gamma) + G / (2 * gamma ^ 2) - expf * F / (2 * gamma) - expf * G / (2 * gamma ^ 2) - expf * G / (v ^ 2 * (2 * gamma))
  Z - 1 - Real.log Z + B / v + C / (2 * v ^ 2) + D / (4 * v ^ 4) + E / (5 * v ^ 5) + H

end ThermoFun
