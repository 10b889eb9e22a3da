import Verif.Model.Gas
import Mathlib.Analysis.SpecialFunctions.Trigonometric.Arctan

/-!
Model of the compensated Redlich-Kwong (CORK) equation of state: the class TCORKcalc of /repo/ThermoFun/Substances/Gases/s_solmod2_.cpp as far as
it is used for a pure fluid, /repo/ThermoFun/Substances/Gases/GasCORK.cpp and its entry point in /repo/ThermoFun/ThermoModelsSubstance.cpp.

Pressures `pp`, `Pkb` are in kbar, volumes in kJ/kbar (J/bar).  `R_CONST` (s_solmod_.cpp:176) is the number `Rgas`.  `pow` with the exponents
2., 3. and 5. is a natural power, with the exponent 0.5 a square root.  A result that is NaN or infinite is `none`.  The array `Rho` (density and its
derivatives), which only the functions for mixtures read, is left out, and so is `checkCalcMethodBounds`.
-/

namespace ThermoFun.Cork

open Gas (AB Fug)

/-- `RR`, the gas constant in kJ/(K mol), s_solmod2_.cpp:4078. -/
noncomputable def RR : ℝ := 0.00831451

open Classical in
/-- `TCORKcalc::Cardano`, s_solmod2_.cpp:4840-4877.  `cp/fabs(cp)` is NaN if `cp` is 0; so is `cp2/cq3` if both are 0.  If only `cp` is 0, `atan` is
called with infinity; the sign of a zero is taken to be positive. -/
noncomputable def cardano (cb cc cd : ℝ) : Option (ℝ × ℝ × ℝ) :=
  let cp := (2 * cb ^ 3 - 9 * cb * cc + 27 * cd) / 54
  let cq := (cb ^ 2 - 3 * cc) / 9
  let cp2 := cp ^ 2
  let cq3 := cq ^ 3
  if cp2 - cq3 > 0 then
    if cp = 0 then none
    else
      let cr := -cp / |cp| * (|cp| + Real.sqrt (cp2 - cq3)) ^ (1 / 3 : ℝ)
      let v := if cr ≠ 0 then cr + cq / cr - cb / 3 else -cb / 3
      some (v, v, v)
  else if cq3 = 0 then none
  else
    let co' := if cp = 0 then Real.pi / 2 else Real.arctan (Real.sqrt (1 - cp2 / cq3) / (cp / Real.sqrt cq3))
    let co := if co' < 0 then co' + 3.1415927 else co'
    some ((-2) * Real.sqrt cq * Real.cos (co / 3) - cb / 3,
      (-2) * Real.sqrt cq * Real.cos ((co + 2 * 3.1415927) / 3) - cb / 3,
      (-2) * Real.sqrt cq * Real.cos ((co - 2 * 3.1415927) / 3) - cb / 3)

open Classical in
/-- The root taken for the vapour, s_solmod2_.cpp:4790-4802. -/
noncomputable def vaporRoot (v1 v2 v3 : ℝ) : ℝ :=
  let m := if v1 > 0 then v1 else if v2 > 0 then v2 else v3
  let m := if v2 > m then v2 else m
  if v3 > m then v3 else m

open Classical in
/-- The root taken for the liquid, s_solmod2_.cpp:4804-4816; the last condition tests `v2` again. -/
noncomputable def liquidRoot (v1 v2 v3 : ℝ) : ℝ :=
  let m := if v1 > 0 then v1 else if v2 > 0 then v2 else v3
  let m := if v2 < m ∧ v2 > 0 then v2 else m
  if v3 < m ∧ v2 > 0 then v3 else m

/-- The coefficients of the virial part and the pressure it starts at: `c`, `d`, `e`, `p0` in `VolumeFugacity`, s_solmod2_.cpp:4780-4781. -/
structure Vir where
  c : ℝ
  d : ℝ
  e : ℝ
  p0 : ℝ

open Classical in
/-- The virial part of the volume, s_solmod2_.cpp:4820-4829. -/
noncomputable def virV (w : Vir) (pp : ℝ) : ℝ :=
  if pp > w.p0 then w.c * Real.sqrt (pp - w.p0) + w.d * (pp - w.p0) + w.e * Real.sqrt (Real.sqrt (pp - w.p0)) else 0

open Classical in
/-- The virial part of ln φ, s_solmod2_.cpp:4820-4829. -/
noncomputable def virLn (w : Vir) (Tk pp : ℝ) : ℝ :=
  if pp > w.p0 then
    (2 / 3 * w.c * (pp - w.p0) * Real.sqrt (pp - w.p0) + w.d / 2 * (pp - w.p0) ^ 2
      + 4 / 5 * w.e * (pp - w.p0) * Real.sqrt (Real.sqrt (pp - w.p0))) / (RR * Tk)
  else 0

/-- ln φ of the Redlich-Kwong part, s_solmod2_.cpp:4819. -/
noncomputable def mrkLn (Tk pp a b vmrk : ℝ) : ℝ :=
  pp * vmrk / (RR * Tk) - 1 - Real.log ((vmrk - b) * pp / (RR * Tk)) - a / (b * RR * Tk * Real.sqrt Tk) * Real.log (1 + b / vmrk)

open Classical in
/-- `TCORKcalc::VolumeFugacity`, s_solmod2_.cpp:4780-4835: the volume and the fugacity coefficient; `vap` for `phState == 1`.  A logarithm of a number
that is not positive makes the fugacity coefficient NaN or infinite. -/
noncomputable def volumeFugacity (vap : Bool) (Tk pp a b : ℝ) (w : Vir) : Option (ℝ × ℝ) :=
  let cb := (-1) * RR * Tk / pp
  let cc := (-1) * (b * RR * Tk + b ^ 2 * pp - a / Real.sqrt Tk) / pp
  let cd := (-1) * a * b / (Real.sqrt Tk * pp)
  match cardano cb cc cd with
  | none => none
  | some (v1, v2, v3) =>
    let vmrk := if vap then vaporRoot v1 v2 v3 else liquidRoot v1 v2 v3
    if (vmrk - b) * pp / (RR * Tk) ≤ 0 ∨ vmrk = 0 ∨ 1 + b / vmrk ≤ 0 then none
    else some (vmrk + virV w pp, Real.exp (mrkLn Tk pp a b vmrk + virLn w Tk pp))

open Classical in
/-- The properties computed from volume and fugacity coefficient: the last part of `FugacityH2O` and `FugacityCO2`, s_solmod2_.cpp:4537-4572 and
4620-4655 (the same text).  The enthalpy is NaN if the logarithm is. -/
noncomputable def mrkProps (Tk Pkb : ℝ) (p : AB) (vf : ℝ × ℝ) : Fug :=
  let vc := vf.1
  let rho := 1 / vc
  let dpt := RR / (1 / rho - p.b) - p.da * rho / ((1 / rho + p.b) * Real.sqrt Tk) + 0.5 * p.a * rho / ((1 / rho + p.b) * Tk ^ (1.5 : ℝ))
  let z := Pkb * vc / (RR * Tk)
  let grs := Rgas * Tk * Real.log vf.2
  let hrs := ((z - 1) - 1 / (p.b * RR * Tk) * (Real.sqrt Tk * p.da - 3 / 2 * p.a / Real.sqrt Tk) * Real.log (vc / (vc + p.b))) * Rgas * Tk
  let srs := (hrs - grs) / Tk
  let cvrs := (-1) / (p.b * RR) * (-p.da / Real.sqrt Tk + Real.sqrt Tk * p.d2a + 3 * p.a / (4 * Tk ^ (1.5 : ℝ))) * Real.log (vc / (vc + p.b)) * Rgas
  let dpv := (-RR * Tk / (vc - p.b) ^ 2 + p.a / (vc ^ 2 * (vc + p.b) * Real.sqrt Tk) + p.a / (vc * (vc + p.b) ^ 2 * Real.sqrt Tk)) * 1000
  let dvt := (-1) * (1 / dpv) * (dpt * 1000)
  { phi := vf.2, g := grs, h := if vc / (vc + p.b) ≤ 0 then none else some hrs, s := if vc / (vc + p.b) ≤ 0 then none else some srs,
    v := vc, cp := cvrs + Tk * (dpt * 1000) * dvt - Rgas }

/-- A cubic polynomial in a temperature difference `x` and the derivatives the code computes from it for `x = 673 - T`,
s_solmod2_.cpp:4474-4476 and the repetitions below. -/
noncomputable def below (k1 k2 k3 x : ℝ) : AB :=
  { a := 1113.4 + k1 * x + k2 * x ^ 2 + k3 * x ^ 3, b := 1.465, da := -k1 - 2 * k2 * x - 3 * k3 * x ^ 2, d2a := 2 * k2 + 6 * k3 * x }

/-- The parameters of H2O above 695 K, s_solmod2_.cpp:4460-4462: `a` is computed from T - 673, its derivatives from 673 - T. -/
noncomputable def waterSuper (Tk : ℝ) : AB :=
  { below (-0.22291) (-3.8022e-4) 1.7791e-7 (673 - Tk) with
    a := 1113.4 + (-0.22291) * (Tk - 673) + (-3.8022e-4) * (Tk - 673) ^ 2 + 1.7791e-7 * (Tk - 673) ^ 3 }

open Classical in
/-- The parameters of H2O vapour up to 695 K, s_solmod2_.cpp:4472-4483 and 4490-4501. -/
noncomputable def waterGas (Tk : ℝ) : AB :=
  if Tk < 673 then below 5.8487 (-2.1370e-2) 6.8133e-5 (673 - Tk) else below (-0.22291) (-3.8022e-4) 1.7791e-7 (673 - Tk)

open Classical in
/-- The parameters of H2O liquid up to 695 K, s_solmod2_.cpp:4505-4516 and 4520-4531. -/
noncomputable def waterLiquid (Tk : ℝ) : AB :=
  if Tk < 673 then below (-0.88517) 4.53e-3 (-1.3183e-5) (673 - Tk) else below (-0.22291) (-3.8022e-4) 1.7791e-7 (673 - Tk)

/-- The coefficients of the virial part of H2O, s_solmod2_.cpp:4444-4454. -/
noncomputable def waterVir : Vir := { c := -8.909e-2, d := 1.9853e-3, e := 8.0331e-2, p0 := 2 }

/-- The saturation pressure of H2O in kbar, s_solmod2_.cpp:4468. -/
noncomputable def waterPsat (Tk : ℝ) : ℝ := (-13.627e-3) + 7.29395e-7 * Tk ^ 2 - 2.34622e-9 * Tk ^ 3 + 4.83607e-15 * Tk ^ 5

open Classical in
/-- `TCORKcalc::FugacityH2O`, s_solmod2_.cpp:4425-4587. -/
noncomputable def fugacityH2O (Tk Pkb : ℝ) : Option Fug :=
  if Tk > 695 then (volumeFugacity true Tk Pkb (waterSuper Tk).a 1.465 waterVir).map (mrkProps Tk Pkb (waterSuper Tk))
  else if Pkb < waterPsat Tk then (volumeFugacity true Tk Pkb (waterGas Tk).a 1.465 waterVir).map (mrkProps Tk Pkb (waterGas Tk))
  else do
    let g1 ← volumeFugacity true Tk (waterPsat Tk) (waterGas Tk).a 1.465 waterVir
    let g2 ← volumeFugacity false Tk (waterPsat Tk) (waterLiquid Tk).a 1.465 waterVir
    let g3 ← volumeFugacity false Tk Pkb (waterLiquid Tk).a 1.465 waterVir
    some (mrkProps Tk Pkb (waterLiquid Tk) (g3.1, g1.2 / g2.2 * g3.2))

/-- The parameters of CO2, s_solmod2_.cpp:4599-4610. -/
noncomputable def co2AB (Tk : ℝ) : AB :=
  { a := 659.8 + 0.21078 * Tk + (-6.3976e-4) * Tk ^ 2, b := 3.057, da := 0.21078 + 2 * (-6.3976e-4) * Tk, d2a := 2 * (-6.3976e-4) }

/-- The coefficients of the virial part of CO2, s_solmod2_.cpp:4603-4614. -/
noncomputable def co2Vir (Tk : ℝ) : Vir :=
  { c := -1.78198e-1 + 2.45317e-5 * Tk, d := 5.40776e-3 + (-1.59046e-6) * Tk, e := 0, p0 := 5 }

/-- `TCORKcalc::FugacityCO2`, s_solmod2_.cpp:4592-4670. -/
noncomputable def fugacityCO2 (Tk Pkb : ℝ) : Option Fug :=
  (volumeFugacity true Tk Pkb (co2AB Tk).a 3.057 (co2Vir Tk)).map (mrkProps Tk Pkb (co2AB Tk))

/-- `TCORKcalc::FugacityCorresponding`, s_solmod2_.cpp:4675-4775; critical temperature in K and pressure in bar. -/
noncomputable def fugacityCorresponding (Tk Pkb tcr pcBar : ℝ) : Fug :=
  let pcr := pcBar / 1000
  let a := 5.45963e-5 * tcr ^ 2 * Real.sqrt tcr / pcr + (-8.6392e-6) * tcr * Real.sqrt tcr / pcr * Tk
  let b := 9.18301e-4 * tcr / pcr
  let c := (-3.30558e-5) * tcr / (pcr * Real.sqrt pcr) + 2.30524e-6 / (pcr * Real.sqrt pcr) * Tk
  let d := 6.93054e-7 * tcr / pcr ^ 2 + (-8.38293e-8) / pcr ^ 2 * Tk
  let da := (-8.6392e-6) * tcr ^ (1.5 : ℝ) / pcr
  let dc := 2.30524e-6 / pcr ^ (1.5 : ℝ)
  let dd := (-8.38293e-8) / pcr ^ 2
  let x := RR * Tk + b * Pkb
  let y := RR * Tk + 2 * b * Pkb
  let vc := RR * Tk / Pkb + b - a * RR * Real.sqrt Tk / (x * y) + c * Real.sqrt Pkb + d * Pkb
  let rtlnf := RR * Tk * Real.log (1000 * Pkb) + b * Pkb + a / (b * Real.sqrt Tk) * (Real.log x - Real.log y)
    + 2 / 3 * c * Pkb * Real.sqrt Pkb + d / 2 * Pkb ^ 2
  let fc := Real.exp (rtlnf / (RR * Tk)) / (1000 * Pkb)
  let grs := Rgas * Tk * Real.log fc
  let hrs := (Real.sqrt Tk * da * Real.log y / b - Real.sqrt Tk * da * Real.log x / b
    - 3 * a * Real.log y / (2 * Real.sqrt Tk * b) + 3 * a * Real.log x / (2 * Real.sqrt Tk * b)
    - Real.sqrt Tk * a * RR / (b * x) + Real.sqrt Tk * a * RR / (b * y)
    - 2 * Tk * dc * Pkb ^ (1.5 : ℝ) / 3 - Tk * dd * Pkb ^ 2 / 2 + b * Pkb
    + 2 * c * Pkb ^ (1.5 : ℝ) / 3 + d * Pkb ^ 2 / 2) * 1000
  let srs := (hrs - grs) / Tk
  let cprs := (-(2 * Real.sqrt Tk * da * RR) / (b * x) + Real.sqrt Tk * a * RR ^ 2 / (b * x ^ 2)
    + 2 * Real.sqrt Tk * da * RR / (b * y) - a * RR / (Real.sqrt Tk * b * y)
    - da * Real.log y / (Real.sqrt Tk * b) + da * Real.log x / (Real.sqrt Tk * b)
    + 3 * a * Real.log y / (4 * Tk ^ (1.5 : ℝ) * b) - 3 * a * Real.log x / (4 * Tk ^ (1.5 : ℝ) * b)
    - Real.sqrt Tk * a * RR ^ 2 / (b * y ^ 2) + a * RR / (Real.sqrt Tk * b * x)) * 1000
  { phi := fc, g := grs, h := some hrs, s := some srs, v := vc, cp := cprs }

/-- The kind of fluid: `EosCode` 'V', 'C' or 'G', s_solmod_.h:62-64. -/
inductive Kind
  | H2O | CO2 | gas
  deriving DecidableEq

/-- The kind of a formula, GasCORK.cpp:13-18. -/
def Kind.of (formula : String) : Kind := if formula = "H2O" then .H2O else if formula = "CO2" then .CO2 else .gas

/-- `TCORKcalc::FugacityPT`, s_solmod2_.cpp:4380-4420, with the pressure in bar. -/
noncomputable def fugacityPT (m : Kind) (Tk Pbar : ℝ) (k : Nat → ℝ) : Option Fug :=
  match m with
  | .H2O => fugacityH2O Tk (Pbar / 1000)
  | .CO2 => fugacityCO2 Tk (Pbar / 1000)
  | .gas => some (fugacityCorresponding Tk (Pbar / 1000) (k 0) (k 1))

open Classical in
/-- `TCORKcalc::CORKCalcFugPure`, s_solmod2_.cpp:5006-5032. -/
noncomputable def calcFugPure (m : Kind) (Tmin Tk Pbar : ℝ) (k : Nat → ℝ) : Option Fug :=
  if Tk ≥ Tmin ∧ Tk < 1e4 ∧ Pbar ≥ 1e-5 ∧ Pbar < 1e5 then fugacityPT m Tk Pbar k
  else some { phi := 1, g := 0, h := some 0, s := some 0, v := 8.31451 * Tk / Pbar, cp := 0 }

open Classical in
/-- `thermoPropertiesGasCORK`, GasCORK.cpp:10-41; the increments are those of the other gas models (`Gas.increment`). -/
noncomputable def corkProps (TK Pbar' : TS) (formula : String) (intervals : List (List ℝ)) (crit : List ℝ) (tps : TPS) : Res (Option TPS) :=
  let Pbar := if Pbar'.val = 0 then TS.addAssignD Pbar' 1e-5 else Pbar'
  match intervals with
  | (TClow :: _) :: _ =>
    if crit.length < 7 then .ub
    else
      .ok (match calcFugPure (.of formula) TClow TK.val Pbar.val (fun i => crit.getD i 0) with
        | none => none
        | some f => match f.h, f.s with
          | some h, some s => some (Gas.increment TK Pbar f h s tps)
          | _, _ => none)
  | _ => .ub

/-- `GasCORK::thermoProperties`, ThermoModelsSubstance.cpp:531-540. -/
noncomputable def corkEntry (T P : ℝ) (formula : String) (intervals : List (List ℝ)) (crit : List ℝ) (Pr : ℝ) (tps : TPS) (applyP : Bool) :
    Res (Option TPS) := do
  let r ← corkProps (TS.temperature T) (pbar P) formula intervals crit tps
  .ok (if applyP then r.map fun t => applyPressure t (TS.temperature T) (pbar P) Pr else r)

end ThermoFun.Cork
