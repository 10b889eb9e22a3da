import Verif.Model.Gas
import Verif.Model.WaterState

/-!
Model of the equation of state of Sterner and Pitzer (STP): the class TSTPcalc of /repo/ThermoFun/Substances/Gases/s_solmod2_.cpp as far as it is
used for a pure fluid, /repo/ThermoFun/Substances/Gases/GasSTP.cpp and its entry point in /repo/ThermoFun/ThermoModelsSubstance.cpp.  Of the model of
Churakov and Gottschalk (CGF), /repo/ThermoFun/Substances/Gases/GasCGF.cpp, only the access to its coefficients.

Pressures are in MPa, densities in mol/cm³.  `R_CONST` (s_solmod_.cpp:176) is the number `Rgas`.  `pow` with integer exponents is a natural power or
the inverse of one.  A result that is NaN or infinite is `none`.  The array `Rho` (density and its derivatives), which only the functions for
mixtures read, is left out, and so is `checkCalcMethodBounds`.  `FugacityCorresponding` is left out: ThermoFun constructs the class for H2O and CO2
only, or with an uninitialised code.
-/

namespace ThermoFun.Stp

open Gas (Fug)

/-- A row of the table of coefficients, s_solmod2_.cpp:5220-5241. -/
structure Row where
  k0 : ℝ
  k1 : ℝ
  k2 : ℝ
  k3 : ℝ
  k4 : ℝ
  k5 : ℝ

/-- The coefficients of H2O, `cfh_`, s_solmod2_.cpp:5220-5229. -/
noncomputable def cfh : Nat → Row
  | 0 => ⟨0, 0, 0.24657688e6, 0.51359951e2, 0, 0⟩
  | 1 => ⟨0, 0, 0.58638965, -0.28646939e-2, 0.31375577e-4, 0⟩
  | 2 => ⟨0, 0, -0.62783840e1, 0.14791599e-1, 0.35779579e-3, 0.15432925e-7⟩
  | 3 => ⟨0, 0, 0, -0.42719875, -0.16325155e-4, 0⟩
  | 4 => ⟨0, 0, 0.56654978e4, -0.16580167e2, 0.76560762e-1, 0⟩
  | 5 => ⟨0, 0, 0, 0.10917883, 0, 0⟩
  | 6 => ⟨0.38878656e13, -0.13494878e9, 0.30916564e6, 0.75591105e1, 0, 0⟩
  | 7 => ⟨0, 0, -0.65537898e5, 0.18810675e3, 0, 0⟩
  | 8 => ⟨-0.14182435e14, 0.18165390e9, -0.19769068e6, -0.23530318e2, 0, 0⟩
  | _ => ⟨0, 0, 0.92093375e5, 0.12246777e3, 0, 0⟩

/-- The coefficients of CO2, `cfc_`, s_solmod2_.cpp:5232-5241. -/
noncomputable def cfc : Nat → Row
  | 0 => ⟨0, 0, 0.18261340e7, 0.79224365e2, 0, 0⟩
  | 1 => ⟨0, 0, 0, 0.66560660e-4, 0.57152798e-5, 0.30222363e-9⟩
  | 2 => ⟨0, 0, 0, 0.59957845e-2, 0.71669631e-4, 0.62416103e-8⟩
  | 3 => ⟨0, 0, -0.13270279e1, -0.15210731, 0.53654244e-3, -0.71115142e-7⟩
  | 4 => ⟨0, 0, 0.12456776, 0.49045367e1, 0.98220560e-2, 0.55962121e-5⟩
  | 5 => ⟨0, 0, 0, 0.75522299, 0, 0⟩
  | 6 => ⟨-0.39344644e12, 0.90918237e8, 0.42776716e6, -0.22347856e2, 0, 0⟩
  | 7 => ⟨0, 0, 0.40282608e3, 0.11971627e3, 0, 0⟩
  | 8 => ⟨0, 0.22995650e8, -0.78971817e5, -0.63376456e2, 0, 0⟩
  | _ => ⟨0, 0, 0.95029765e5, 0.18038071e2, 0, 0⟩

/-- `c[k]`, s_solmod2_.cpp:5922-5923 and 5954-5955. -/
noncomputable def Row.c (r : Row) (T : ℝ) : ℝ := r.k0 / T ^ 4 + r.k1 / T ^ 2 + r.k2 / T + r.k3 + r.k4 * T + r.k5 * T ^ 2

/-- `dc[k]`, s_solmod2_.cpp:5956-5957. -/
noncomputable def Row.dc (r : Row) (T : ℝ) : ℝ := -4 * r.k0 / T ^ 5 - 2 * r.k1 / T ^ 3 - r.k2 / T ^ 2 + r.k4 + 2 * r.k5 * T

/-- `d2c[k]`, s_solmod2_.cpp:5958-5959. -/
noncomputable def Row.d2c (r : Row) (T : ℝ) : ℝ := 20 * r.k0 / T ^ 6 + 6 * r.k1 / T ^ 4 + 2 * r.k2 / T ^ 3 + 2 * r.k5

/-- `c[1]+c[2]*rho+c[3]*pow(rho,2.)+...`, s_solmod2_.cpp:5927 and throughout; also with `dc` and `d2c`. -/
noncomputable def poly (c : Nat → ℝ) (y : ℝ) : ℝ := c 1 + c 2 * y + c 3 * y ^ 2 + c 4 * y ^ 3 + c 5 * y ^ 4

/-- `c[2]+2.*c[3]*rho+3.*c[4]*pow(rho,2.)+...`, s_solmod2_.cpp:5926 and throughout; also with `dc` and `d2c`. -/
noncomputable def polyD (c : Nat → ℝ) (y : ℝ) : ℝ := c 2 + 2 * c 3 * y + 3 * c 4 * y ^ 2 + 4 * c 5 * y ^ 3

/-- `2.*c[3]+6.*c[4]*rho+12.*c[5]*pow(rho,2.)`, s_solmod2_.cpp:5931 and throughout; also with `dc`. -/
noncomputable def polyDD (c : Nat → ℝ) (y : ℝ) : ℝ := 2 * c 3 + 6 * c 4 * y + 12 * c 5 * y ^ 2

/-- `pred` of `Pressure` for given coefficients, s_solmod2_.cpp:5926-5928. -/
noncomputable def pred (c : Nat → ℝ) (y : ℝ) : ℝ :=
  y + c 0 * y ^ 2 - y ^ 2 * (polyD c y / poly c y ^ 2) + c 6 * y ^ 2 * Real.exp (-c 7 * y) + c 8 * y ^ 2 * Real.exp (-c 9 * y)

/-- `dpred` of `Pressure`, s_solmod2_.cpp:5929-5936. -/
noncomputable def dpred (c : Nat → ℝ) (y : ℝ) : ℝ :=
  1 + 2 * c 0 * y - 2 * y * polyD c y / poly c y ^ 2 - y ^ 2 * polyDD c y / poly c y ^ 2 + 2 * y ^ 2 * polyD c y ^ 2 / poly c y ^ 3
    + 2 * c 6 * y * Real.exp (-c 7 * y) - c 6 * y ^ 2 * c 7 * Real.exp (-c 7 * y)
    + 2 * c 8 * y * Real.exp (-c 9 * y) - c 8 * y ^ 2 * c 9 * Real.exp (-c 9 * y)

/-- `p` of `TSTPcalc::Pressure`, s_solmod2_.cpp:5914-5942. -/
noncomputable def pressure (cf : Nat → Row) (T y : ℝ) : ℝ := pred (fun k => (cf k).c T) y * (Rgas * T)

/-- `dpdrho` of `TSTPcalc::Pressure`, s_solmod2_.cpp:5914-5942. -/
noncomputable def slope (cf : Nat → Row) (T y : ℝ) : ℝ := dpred (fun k => (cf k).c T) y * (Rgas * T)

/-- `TSTPcalc::Helmholtz`, s_solmod2_.cpp:5947-6035, with the coefficients and their derivatives `c`, `dc`, `d2c` as arguments: `Phi` and its
derivatives in the fields f, fT (`dPhiT`), fD (`dPhiD`) and so on.  There is no third derivative with respect to temperature in the code; the field
is set to 0. -/
noncomputable def helm (c dc d2c : Nat → ℝ) (y : ℝ) : Helm where
  f := c 0 * y + (1 / poly c y - 1 / c 1) - c 6 / c 7 * (Real.exp (-c 7 * y) - 1) - c 8 / c 9 * (Real.exp (-c 9 * y) - 1)
  fD := c 0 - 1 / poly c y ^ 2 * polyD c y + c 6 * Real.exp (-c 7 * y) + c 8 * Real.exp (-c 9 * y)
  fDD := 2 / poly c y ^ 3 * polyD c y ^ 2 - 1 / poly c y ^ 2 * polyDD c y - c 6 * c 7 * Real.exp (-c 7 * y) - c 8 * c 9 * Real.exp (-c 9 * y)
  fT := dc 0 * y - 1 / poly c y ^ 2 * poly dc y + 1 / c 1 ^ 2 * dc 1
    - dc 6 / c 7 * (Real.exp (-c 7 * y) - 1) + c 6 / c 7 ^ 2 * (Real.exp (-c 7 * y) - 1) * dc 7
    + c 6 / c 7 * dc 7 * y * Real.exp (-c 7 * y) - dc 8 / c 9 * (Real.exp (-c 9 * y) - 1)
    + c 8 / c 9 ^ 2 * (Real.exp (-c 9 * y) - 1) * dc 9 + c 8 / c 9 * dc 9 * y * Real.exp (-c 9 * y)
  fTT := -2 / c 1 ^ 3 * dc 1 ^ 2 + 2 / poly c y ^ 3 * poly dc y ^ 2
    - d2c 8 / c 9 * (Real.exp (-c 9 * y) - 1) - d2c 6 / c 7 * (Real.exp (-c 7 * y) - 1)
    + 2 * dc 6 / c 7 ^ 2 * (Real.exp (-c 7 * y) - 1) * dc 7 + d2c 0 * y - 1 / poly c y ^ 2 * poly d2c y
    - 2 * c 8 / c 9 ^ 2 * dc 9 ^ 2 * y * Real.exp (-c 9 * y) + c 8 / c 9 ^ 2 * (Real.exp (-c 9 * y) - 1) * d2c 9
    - 2 * c 8 / c 9 ^ 3 * (Real.exp (-c 9 * y) - 1) * dc 9 ^ 2 + 2 * dc 8 / c 9 * dc 9 * y * Real.exp (-c 9 * y)
    + 2 * dc 8 / c 9 ^ 2 * (Real.exp (-c 9 * y) - 1) * dc 9 - c 6 / c 7 * dc 7 ^ 2 * y ^ 2 * Real.exp (-c 7 * y)
    + c 6 / c 7 * d2c 7 * y * Real.exp (-c 7 * y) - 2 * c 6 / c 7 ^ 2 * dc 7 ^ 2 * y * Real.exp (-c 7 * y)
    + c 6 / c 7 ^ 2 * (Real.exp (-c 7 * y) - 1) * d2c 7 - 2 * c 6 / c 7 ^ 3 * (Real.exp (-c 7 * y) - 1) * dc 7 ^ 2
    + 2 * dc 6 / c 7 * dc 7 * y * Real.exp (-c 7 * y) + 1 / c 1 ^ 2 * d2c 1
    - c 8 / c 9 * dc 9 ^ 2 * y ^ 2 * Real.exp (-c 9 * y) + c 8 / c 9 * d2c 9 * y * Real.exp (-c 9 * y)
  fTD := dc 0 + 2 / poly c y ^ 3 * poly dc y * polyD c y - 1 / poly c y ^ 2 * polyD dc y
    + dc 6 * Real.exp (-c 7 * y) - c 6 * dc 7 * y * Real.exp (-c 7 * y)
    + dc 8 * Real.exp (-c 9 * y) - c 8 * dc 9 * y * Real.exp (-c 9 * y)
  fDDD := -6 / poly c y ^ 4 * polyD c y ^ 3 + 6 / poly c y ^ 3 * polyD c y * polyDD c y - 1 / poly c y ^ 2 * (6 * c 4 + 24 * c 5 * y)
    + c 6 * c 7 ^ 2 * Real.exp (-c 7 * y) + c 8 * c 9 ^ 2 * Real.exp (-c 9 * y)
  fTDD := -6 / poly c y ^ 4 * poly dc y * polyD c y ^ 2 + 4 / poly c y ^ 3 * polyD dc y * polyD c y
    + 2 / poly c y ^ 3 * poly dc y * polyDD c y - 1 / poly c y ^ 2 * polyDD dc y
    - dc 6 * c 7 * Real.exp (-c 7 * y) - c 6 * dc 7 * Real.exp (-c 7 * y) + c 6 * dc 7 * y * c 7 * Real.exp (-c 7 * y)
    - dc 8 * c 9 * Real.exp (-c 9 * y) - c 8 * dc 9 * Real.exp (-c 9 * y) + c 8 * dc 9 * y * c 9 * Real.exp (-c 9 * y)
  fTTD := 2 / poly c y ^ 3 * poly d2c y * polyD c y + d2c 0
    - 2 * dc 8 * dc 9 * y * Real.exp (-c 9 * y) - c 6 * d2c 7 * y * Real.exp (-c 7 * y) + c 6 * dc 7 ^ 2 * y ^ 2 * Real.exp (-c 7 * y)
    - 6 / poly c y ^ 4 * poly dc y ^ 2 * polyD c y + 4 / poly c y ^ 3 * poly dc y * polyD dc y + d2c 6 * Real.exp (-c 7 * y)
    - 1 / poly c y ^ 2 * polyD d2c y
    - 2 * dc 6 * dc 7 * y * Real.exp (-c 7 * y) + c 8 * dc 9 ^ 2 * y ^ 2 * Real.exp (-c 9 * y)
    - c 8 * d2c 9 * y * Real.exp (-c 9 * y) + d2c 8 * Real.exp (-c 9 * y)
  fTTT := 0

/-- `Helmholtz` at a temperature, s_solmod2_.cpp:5947-6035. -/
noncomputable def helmholtz (cf : Nat → Row) (T y : ℝ) : Helm := helm (fun k => (cf k).c T) (fun k => (cf k).dc T) (fun k => (cf k).d2c T) y

/-- The fluid: `EosCode` 'V' or 'C', s_solmod_.h:62-64. -/
inductive Fluid
  | H2O | CO2
  deriving DecidableEq

/-- The table of a fluid, s_solmod2_.cpp:5532, 5643. -/
noncomputable def Fluid.cf : Fluid → Nat → Row
  | .H2O => cfh
  | .CO2 => cfc

/-- `Mw`, s_solmod2_.cpp:5057-5060. -/
noncomputable def Fluid.Mw : Fluid → ℝ
  | .H2O => 18.015268
  | .CO2 => 44.0098

/-- `rhomin`, s_solmod2_.cpp:5527, 5638. -/
noncomputable def Fluid.rhomin (m : Fluid) : ℝ := 1e-20 / 1000 / m.Mw

/-- `rhomax`, s_solmod2_.cpp:5528, 5639. -/
noncomputable def Fluid.rhomax : Fluid → ℝ
  | .H2O => 1800 / 1000 / 18.015268
  | .CO2 => 2400 / 1000 / 44.0098

/-- `TSTPcalc::PsatH2O`, s_solmod2_.cpp:6164-6205: saturation pressure (MPa), densities of liquid and vapour (kg/m³); called for T < Tc only. -/
noncomputable def psatH2O (T Tc Pc : ℝ) : ℝ × ℝ × ℝ :=
  let tau := 1 - T / Tc
  let ppc := Tc / T * (-7.85951783 * tau + 1.84408259 * tau ^ (1.5 : ℝ) + -11.7866497 * tau ^ 3 + 22.6807411 * tau ^ (3.5 : ℝ)
    + -15.9618719 * tau ^ 4 + 1.80122502 * tau ^ (7.5 : ℝ))
  let rhol := (1 + 1.99274064 * tau ^ (1 / 3 : ℝ) + 1.09965342 * tau ^ (2 / 3 : ℝ) + -0.510839303 * tau ^ (5 / 3 : ℝ)
    + -1.75493479 * tau ^ (16 / 3 : ℝ) + -45.5170352 * tau ^ (43 / 3 : ℝ) + -6.74694450e5 * tau ^ (110 / 3 : ℝ)) * 322
  let rrc := -2.03150240 * tau ^ (2 / 6 : ℝ) + -2.68302940 * tau ^ (4 / 6 : ℝ) + -5.38626492 * tau ^ (8 / 6 : ℝ) + -17.2991605 * tau ^ (18 / 6 : ℝ)
    + -44.7586581 * tau ^ (37 / 6 : ℝ) + -63.9201063 * tau ^ (71 / 6 : ℝ)
  (Real.exp ppc * Pc, rhol, Real.exp rrc * 322)

/-- `TSTPcalc::PsatCO2`, s_solmod2_.cpp:6210-6246: saturation pressure (MPa), densities of liquid and vapour (kg/m³); called for T < Tc only. -/
noncomputable def psatCO2 (T Tc Pc : ℝ) : ℝ × ℝ × ℝ :=
  let tau := 1 - T / Tc
  let ppc := Tc / T * (-7.0602087 * tau + 1.9391218 * tau ^ (1.5 : ℝ) + -1.6463597 * tau ^ 2 + -3.2995634 * tau ^ 4)
  let rholc := 1.9245108 * tau ^ (0.34 : ℝ) + -0.62385555 * tau ^ (0.5 : ℝ) + -0.32731127 * tau ^ (10 / 6 : ℝ) + 0.39245142 * tau ^ (11 / 6 : ℝ)
  let rhovc := -1.7074879 * tau ^ (0.34 : ℝ) + -0.82274670 * tau ^ (0.5 : ℝ) + -4.6008549 * tau + -10.111178 * tau ^ (7 / 3 : ℝ)
    + -29.742252 * tau ^ (14 / 3 : ℝ)
  (Real.exp ppc * Pc, Real.exp rholc * 467.6, Real.exp rhovc * 467.6)

open Classical in
/-- A density brought between `rhomin` and `rhomax`, s_solmod2_.cpp:5558-5561, 5668-5671, 5875-5878, 5902-5905. -/
noncomputable def Fluid.clamp (m : Fluid) (x : ℝ) : ℝ :=
  let x := if x < m.rhomin then m.rhomin else x
  if x > m.rhomax then m.rhomax else x

open Classical in
/-- `TSTPcalc::DensityGuess`, s_solmod2_.cpp:5844-5909; `Tc`, `Pc` in K and MPa.  At 273.15 K the guess for H2O is infinite, and replaced by the
largest density; with a critical temperature or pressure of 0 that for CO2 is NaN. -/
noncomputable def densityGuess (m : Fluid) (T Pmpa Tc Pc : ℝ) : Option ℝ :=
  match m with
  | .H2O =>
    if T < Tc then
      let s := psatH2O T Tc Pc
      some (m.clamp ((if Pmpa < s.1 then s.2.2 else s.2.1) / 1000 / m.Mw))
    else if Pmpa < 400 then
      if T = 273.15 then some m.rhomax else some (m.clamp (1000 / (T - 273.15) * 2 * Pmpa / 1000 / m.Mw))
    else some (m.clamp (800 / 1000 / m.Mw))
  | .CO2 =>
    if T < Tc then
      let s := psatCO2 T Tc Pc
      some (m.clamp ((if Pmpa < s.1 then s.2.2 else s.2.1) / 1000 / m.Mw))
    else if Tc = 0 ∨ Pc = 0 then none
    else some (m.clamp (Pmpa / Pc * Pc * 1000 / (0.1889241 * (T / Tc) * Tc) / 1000 / m.Mw))

/-- What the Newton iteration gives: a density, NaN, or no convergence (`iErr = 2`).  Modelling device. -/
inductive Dens
  | ok (rho : ℝ)
  | nan
  | fail

open Classical in
/-- The Newton iteration for the density, s_solmod2_.cpp:5539-5563 and 5650-5673, with `n` rounds left before `iErr = 2`.  The pressure compared with
the given one is that of the density before the step.  A zero of the polynomial in the denominator gives NaN, which ends the loop; a slope of 0
(taken to be +0) gives an infinite step, or NaN if the pressure is right. -/
noncomputable def newton (m : Fluid) (T pmpa : ℝ) : Nat → ℝ → Dens
  | 0, _ => .fail
  | n + 1, rho =>
    if poly (fun k => (m.cf k).c T) rho = 0 then .nan
    else
      let pnew := pressure m.cf T rho
      let pgrad := slope m.cf T rho
      if pgrad = 0 ∧ pnew = pmpa then .nan
      else
        let rhonew := if pgrad = 0 then (if pnew > pmpa then m.rhomin else m.rhomax) else m.clamp (rho + -(pnew - pmpa) / pgrad)
        if |1 - pnew / pmpa| > 1e-10 then newton m T pmpa n rhonew else .ok rhonew

/-- The properties at a density, s_solmod2_.cpp:5565-5589 and 5675-5699: fugacity coefficient and residual properties. -/
noncomputable def props (cf : Nat → Row) (T pmpa rho : ℝ) : Fug :=
  let F := helmholtz cf T rho
  let dard := Rgas * T * F.fD
  let dardd := Rgas * T * F.fDD
  let dart := Rgas * (F.fT * T + F.f)
  let dartt := Rgas * (F.fTT * T + 2 * F.fT)
  let dardt := Rgas * (F.fTD * T + F.fD)
  let vol := 1 / rho / 10
  let lnfug := Real.log rho + F.f + pmpa / (rho * Rgas * T) + Real.log (Rgas * T) - 1
  let fugc := Real.exp lnfug / pmpa
  let pig := rho * Rgas * T
  let g := Real.log fugc * Rgas * T
  let s := -dart + Rgas * Real.log (pmpa / pig)
  let h := g + T * s
  let cv := -T * dartt - Rgas
  let cp := cv + Rgas * (1 + rho / Rgas * dardt) ^ 2 / (1 + 2 * rho / (Rgas * T) * dard + rho ^ 2 / (Rgas * T) * dardd)
  { phi := fugc, g := g, h := some h, s := some s, v := vol, cp := cp }

open Classical in
/-- `TSTPcalc::FugacityH2O` and `FugacityCO2`, s_solmod2_.cpp:5516-5622 and 5627-5732, with the pressure in bar.  Without convergence the results are
not set, and read by the caller.  NaN if a coefficient that is divided by is 0; the denominator of `cp` is the slope of the pressure over RT. -/
noncomputable def fugacity (m : Fluid) (T Pbar Tc Pc : ℝ) : Res (Option Fug) :=
  match densityGuess m T (Pbar / 10) Tc Pc with
  | none => .ok none
  | some rho =>
    match newton m T (Pbar / 10) 999 rho with
    | .fail => .ub
    | .nan => .ok none
    | .ok rho =>
      if poly (fun k => (m.cf k).c T) rho = 0 ∨ (m.cf 1).c T = 0 ∨ (m.cf 7).c T = 0 ∨ (m.cf 9).c T = 0 then .ok none
      else .ok (some (props m.cf T (Pbar / 10) rho))

open Classical in
/-- `TSTPcalc::FugacityPT`, s_solmod2_.cpp:5469-5511: outside 200-2000 K and 1e-20-10000 MPa an error is returned, which the caller does not look at;
it copies results that have not been set. -/
noncomputable def fugacityPT (m : Fluid) (T Pbar : ℝ) (k : Nat → ℝ) : Res (Option Fug) :=
  if T < 200 ∨ T > 2000 ∨ Pbar / 10 < 1e-20 ∨ Pbar / 10 > 10000 then .ub else fugacity m T Pbar (k 0) (k 1 / 10)

open Classical in
/-- `TSTPcalc::STPCalcFugPure`, s_solmod2_.cpp:6251-6278. -/
noncomputable def calcFugPure (m : Fluid) (Tmin T Pbar : ℝ) (k : Nat → ℝ) : Res (Option Fug) :=
  if T ≥ Tmin ∧ T < 1e4 ∧ Pbar ≥ 1e-5 ∧ Pbar < 1e5 then fugacityPT m T Pbar k
  else .ok (some { phi := 1, g := 0, h := some 0, s := some 0, v := 8.31451 * T / Pbar, cp := 0 })

/-- The fluid of a formula, GasSTP.cpp:12-17: the variable is not initialised for other formulas. -/
def Fluid.of (formula : String) : Option Fluid := if formula = "H2O" then some .H2O else if formula = "CO2" then some .CO2 else none

open Classical in
/-- `thermoPropertiesGasSTP`, GasSTP.cpp:9-39; the increments are those of the other gas models (`Gas.increment`).  The code of the fluid is passed
on before anything else, so an uninitialised one is undefined behaviour even if it is not used. -/
noncomputable def stpProps (TK Pbar' : TS) (formula : String) (intervals : List (List ℝ)) (crit : List ℝ) (tps : TPS) : Res (Option TPS) :=
  let Pbar := if Pbar'.val = 0 then TS.addAssignD Pbar' 1e-5 else Pbar'
  match Fluid.of formula, intervals with
  | some m, (TClow :: _) :: _ =>
    if crit.length < 7 then .ub
    else do
      match ← calcFugPure m TClow TK.val Pbar.val (fun i => crit.getD i 0) with
      | none => .ok none
      | some f => match f.h, f.s with
        | some h, some s => .ok (some (Gas.increment TK Pbar f h s tps))
        | _, _ => .ok none
  | _, _ => .ub

/-- `GasSTP::thermoProperties`, ThermoModelsSubstance.cpp:706-715. -/
noncomputable def stpEntry (T P : ℝ) (formula : String) (intervals : List (List ℝ)) (crit : List ℝ) (Pr : ℝ) (tps : TPS) (applyP : Bool) :
    Res (Option TPS) := do
  let r ← stpProps (TS.temperature T) (pbar P) formula intervals crit tps
  .ok (if applyP then r.map fun t => applyPressure t (TS.temperature T) (pbar P) Pr else r)

/-! ### Churakov and Gottschalk -/

/-- Elements 0 to n-1 of an array; past its end there is undefined behaviour.  GasCGF.cpp:17-20 and s_solmod2_.cpp:2278-2279. -/
def readFirst (a : List ℝ) (n : Nat) : Res (List ℝ) := if a.length < n then .ub else .ok (a.take n)

/-- `thermoPropertiesGasCGF`, GasCGF.cpp:9-36, with what follows the copying of the coefficients as a parameter: `CPg`, an array of seven elements on
the heap, is filled from the record (GasCGF.cpp:16-20), and `TCGFcalc::CGcalcFugPure` copies twelve elements of it (s_solmod2_.cpp:2278-2279), before
it looks at temperature and pressure. -/
noncomputable def cgfProps (rest : List ℝ → Res (Option TPS)) (intervals : List (List ℝ)) (crit : List ℝ) : Res (Option TPS) :=
  match intervals with
  | (_ :: _) :: _ => do
    let cpg ← readFirst crit 7
    let coeff ← readFirst cpg 12
    rest coeff
  | _ => .ub

end ThermoFun.Stp
