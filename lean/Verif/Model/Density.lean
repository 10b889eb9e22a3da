import Verif.Model.TSOps
import Verif.Model.LogK

/-!
Model of the density models of reactions: /repo/ThermoFun/Reactions/{DolejsManning2010,FrantzMarshall,RyzhenkoBryzgalyn,
Volume_function_of_T}.cpp and their entry points in /repo/ThermoFun/ThermoModelsReaction.cpp.

`std::log(10.)` is a double; the double nearest to ln 10 is the literal `ln10` of ThermoScalar.hpp:457.  Both are modelled by
that literal, `TS.ln10`.  `pow(x, 2)` with an integer exponent selects the same overload as `pow(x, 2.)`.
-/

namespace ThermoFun

/-- The part of `PropertiesSolvent` (ThermoProperties.h:82-159) the density models use. -/
structure Solv where
  density : TS
  Alpha : TS
  Beta : TS
  dAldT : TS

/-- `thermoPropertiesDolejsManning2010`, DolejsManning2010.cpp:6-51; reading fewer than five coefficients is undefined. -/
noncomputable def dm10 (TK Pbar : TS) (coef : List ℝ) (wp : Solv) : Res TPR :=
  match coef with
  | a :: b :: c :: d :: e :: _ =>
    let RHOw := wp.density / (1000 : ℝ)
    let ALPw := wp.Alpha
    let BETw := wp.Beta * (1e05 : ℝ)
    let dALPdTw := wp.dAldT
    let lnK := ((-1 : ℝ) / Rgas) * (a / TK + b + c * TS.log TK + d * TK + e * TS.log RHOw)
    let dSr := (-b) - c * ((1 : ℝ) + TS.log TK) - (2 * d) * TK - e * TS.log RHOw + (e * TK) * ALPw
    let dHr := a - c * TK - d * TS.powR TK 2 + (e * TS.powR TK 2) * ALPw
    let dCPr := (-c) - (2 * d) * TK + ((2 * e) * TK) * ALPw + (e * TS.powR TK 2) * dALPdTw
    let dVr := (e * TK) * BETw
    let dGr := dHr - TK * dSr
    let logK := lnK * lnToLg
    let dUr := dHr - Pbar * dVr
    let dAr := dUr - TK * dSr
    .ok { TPR.default with lnK := logK * lgToLn, H := dHr, S := dSr, G := dGr, Cp := dCPr, V := dVr, A := dAr, U := dUr }
  | _ => .ub

/-- `thermoPropertiesFrantzMarshall`, FrantzMarshall.cpp:6-59; reading fewer than seven coefficients is undefined. -/
noncomputable def fm (TK Pbar : TS) (coef : List ℝ) (wp : Solv) : Res TPR :=
  match coef with
  | a :: b :: c :: d :: e :: f :: g :: _ =>
    let RHO := wp.density / (1000 : ℝ)
    let ALP := wp.Alpha
    let BET := wp.Beta * (1e05 : ℝ)
    let dALPdT := wp.dAldT
    let dRHOdT := (-ALP) * RHO
    let dRHOdP := BET * RHO
    let d2RHOdT2 := RHO * (TS.powR ALP 2 - dALPdT)
    let logK := a + b / TK + c / TS.powR TK 2 + d / TS.powR TK 3 + (e + f / TK + g / TS.powR TK 2) * TS.log10 RHO
    let J := a + b / TK + c / TS.powR TK 2 + d / TS.powR TK 3 + (e + f / TK + g / TS.powR TK 2) * TS.log10 RHO
    let dJ := (-b) / TS.powR TK 2 - (2 * c) / TS.powR TK 3 - (3 * d) / TS.powR TK 4
      + ((-f) / TS.powR TK 2 - (2 * g) / TS.powR TK 3) * TS.log10 RHO
      + (e + f / TK + g / TS.powR TK 2) * (1 : ℝ) / (RHO * TS.ln10) * dRHOdT
    let d2J := (2 * b) / TS.powR TK 3 + (6 * c) / TS.powR TK 4 + (12 * d) / TS.powR TK 5
      + ((2 * f) / TS.powR TK 3 + (6 * g) / TS.powR TK 4) * TS.log10 RHO
      + (2 : ℝ) * ((-f) / TS.powR TK 2 - (2 * g) / TS.powR TK 3) * (1 : ℝ) / (RHO * TS.ln10) * dRHOdT
      - (e + f / TK + g / TS.powR TK 2) * (1 : ℝ) / (TS.powR RHO 2 * TS.ln10) * TS.powR dRHOdT 2
      + (e + f / TK + g / TS.powR TK 2) * (1 : ℝ) / (RHO * TS.ln10) * d2RHOdT2
    let dGr := (-Rgas) * TK * TS.ln10 * logK
    let dSr := (Rgas * TS.ln10) * (J + dJ * TK)
    let dCPr := (Rgas * TS.ln10) * TK * ((2 : ℝ) * dJ + d2J * TK)
    let dVr := (-Rgas * TS.ln10) * TK * ((e + f / TK + g / TS.powR TK 2) * (1 : ℝ) / (RHO * TS.ln10) * dRHOdP)
    let dHr := dGr + dSr * TK
    let dUr := dHr - Pbar * dVr
    let dAr := dUr - TK * dSr
    .ok { TPR.default with lnK := logK * lgToLn, H := dHr, S := dSr, G := dGr, Cp := dCPr, V := dVr, A := dAr, U := dUr }
  | _ => .ub

/-- Constants a..g, RyzhenkoBryzgalyn.cpp:25-33. -/
structure RBConst where
  a : ℝ
  b : ℝ
  c : ℝ
  d : ℝ
  e : ℝ
  f : ℝ
  g : ℝ
  rho298 : ℝ
  zz : ℝ

/-- Their values, RyzhenkoBryzgalyn.cpp:25-33. -/
noncomputable def rbConst : RBConst :=
  ⟨-4.098, -3245.2, 2.2362e+5, -3.984e+7, 13.957, -1262.3, 8.5641e+5, 0.997061, 1.0107⟩

/-- pKw298, RyzhenkoBryzgalyn.cpp:35-36. -/
noncomputable def pKw298 (k : RBConst) : ℝ :=
  -(k.a + k.b / 298.15 + k.c / 298.15 ^ (2 : ℝ) + k.d / 298.15 ^ (3 : ℝ)
    + (k.e + k.f / 298.15 + k.g / 298.15 ^ (2 : ℝ)) * (Real.log k.rho298 / TS.ln10))

/-- `thermoPropertiesRyzhenkoBryzgalin`, RyzhenkoBryzgalyn.cpp:5-79; reading fewer than three coefficients is undefined. -/
noncomputable def rb (TK Pbar : TS) (coef : List ℝ) (wp : Solv) : Res TPR :=
  match coef with
  | pK298 :: A :: B :: _ =>
    let k := rbConst
    let RHO := wp.density / (1000 : ℝ)
    let ALP := wp.Alpha
    let BET := wp.Beta
    let dALPdT := wp.dAldT
    let dRHOdT := (-ALP) * RHO
    let dRHOdP := BET * RHO
    let d2RHOdT2 := RHO * (TS.powR ALP 2 - dALPdT)
    let pKwTP := -(k.a + k.b / TK + k.c / TS.powR TK 2 + k.d / TS.powR TK 3
      + (k.e + k.f / TK + k.g / TS.powR TK 2) * TS.log10 RHO)
    let zzA := A + B / TK
    let BB := (pKwTP - (pKw298 k * 298.15) / TK) / k.zz
    let pKTP := pK298 * ((298.15 : ℝ) / TK) + zzA * BB
    let logKTP := -pKTP
    let dGr := pKTP * TS.ln10 * Rgas * TK
    let I := k.a * TK + k.b + k.c / TK + k.d / TS.powR TK 2 + (k.e * TK + k.f + k.g / TK) * TS.log10 RHO
      - ((-pKw298 k) * 298.15)
    let J := A + B / TK
    let dI := k.a - k.c / TS.powR TK 2 - (2 * k.d) / TS.powR TK 3 + (k.e - k.g / TS.powR TK 2) * TS.log10 RHO
      + (k.e * TK + k.f + k.g / TK) * (1 : ℝ) / (RHO * TS.ln10) * dRHOdT
    let dJ := (-B) / TS.powR TK 2
    let d2I := (2 * k.c) / TS.powR TK 3 + (6 * k.d) / TS.powR TK 4 + (2 * k.g) / TS.powR TK 3 * TS.log10 RHO
      + (2 : ℝ) * (k.e - k.g / TS.powR TK 2) * (1 : ℝ) / (RHO * TS.ln10) * dRHOdT
      - (k.e * TK + k.f + k.g / TK) * (1 : ℝ) / (TS.powR RHO 2 * TS.ln10) * TS.powR dRHOdT 2
      + (k.e * TK + k.f + k.g / TK) * (1 : ℝ) / (RHO * TS.ln10) * d2RHOdT2
    let d2J := (2 * B) / TS.powR TK 3
    let dSr := (Rgas * TS.ln10 / k.zz) * (dI * J + dJ * I)
    let dCPr := (Rgas * TS.ln10 / k.zz) * TK * (d2I * J + (2 : ℝ) * dI * dJ + d2J * I)
    let dVr := (-Rgas * TS.ln10 / k.zz) * (k.e * TK + k.f + k.g / TK) * (1 : ℝ) / (RHO * TS.ln10) * dRHOdP * (A + B / TK)
    let dHr := dGr + dSr * TK
    let dUr := dHr - Pbar * dVr
    let dAr := dUr - TK * dSr
    .ok { TPR.default with lnK := logKTP * lgToLn, logK := logKTP, G := dGr, S := dSr, H := dHr, Cp := dCPr,
                           V := dVr * (1e5 : ℝ), A := dAr, U := dUr }
  | _ => .ub

/-- The reaction data the entry points read: the coefficient vectors of the three models (`thermoParameters()`). -/
structure DensityCoef where
  DM10 : List ℝ
  FM : List ℝ
  RB : List ℝ

/-- The reaction models with an entry point taking solvent properties (ThermoModelsReaction.h). -/
inductive DensityModel
  | DolejsManning10 | FrantzMarshall | RyzhenkoBryzgalin
  deriving DecidableEq

/-- `thermoProperties(T, P, wp)` of the three classes, ThermoModelsReaction.cpp:33-39, 64-70, 95-101. -/
noncomputable def densityEntry (m : DensityModel) (T P : ℝ) (k : DensityCoef) (wp : Solv) : Res TPR :=
  let t := TS.temperature T
  let p := TS.divAssignD (TS.pressure P) 1e5
  match m with
  | .DolejsManning10 => fm t p k.FM wp
  | .FrantzMarshall => fm t p k.FM wp
  | .RyzhenkoBryzgalin => rb t p k.RB wp

end ThermoFun
