import Verif.Model.Substance
import Mathlib.Analysis.SpecialFunctions.Trigonometric.Inverse

/-!
Model of the cubic equations of state of gases: the classes TPRSVcalc, TSRKcalc and TPR78calc of
/repo/ThermoFun/Substances/Gases/s_solmod2_.cpp as far as they are used for a pure fluid, the functions
/repo/ThermoFun/Substances/Gases/{GasPRSV,GasSRK,GasPR78}.cpp and their entry points in /repo/ThermoFun/ThermoModelsSubstance.cpp.

`R_CONST` (s_solmod_.cpp:176) is the number `Rgas`.  `pow` with the exponents 2. and 3. is a natural power.  A result that is NaN because of
0/0 is `none`.  The calls of `checkCalcMethodBounds`, which only change status and message, and leaked memory are left out.
-/

namespace ThermoFun.Gas

open Classical in
/-- `Cardano`, s_solmod2_.cpp:586-613, 2976-3005 and 3791-3818 (the same text three times); `pi` is the literal 3.1415927.  In the second
branch `rc/fabs(rc)` is NaN if `rc` is 0, and with it all three results. -/
noncomputable def cardano (a2 a1 a0 : ℝ) : Option (ℝ × ℝ × ℝ) :=
  let q := (a2 ^ 2 - 3 * a1) / 9
  let rc := (2 * a2 ^ 3 - 9 * a2 * a1 + 27 * a0) / 54
  let q3 := q ^ 3
  let rc2 := rc ^ 2
  if rc2 < q3 then
    let theta := Real.arccos (rc / Real.sqrt q3)
    some ((-2) * Real.sqrt q * Real.cos (theta / 3) - a2 / 3,
      (-2) * Real.sqrt q * Real.cos (theta / 3 + 2 / 3 * 3.1415927) - a2 / 3,
      (-2) * Real.sqrt q * Real.cos (theta / 3 - 2 / 3 * 3.1415927) - a2 / 3)
  else if rc = 0 then none
  else
    let ac := (-1) * rc / |rc| * (|rc| + Real.sqrt (rc2 - q3)) ^ (1 / 3 : ℝ)
    let bc := if ac ≠ 0 then q / ac else 0
    some (ac + bc - a2 / 3, ac + bc - a2 / 3, ac + bc - a2 / 3)

/-- `Pureparm[i][0..3]`: the parameters a and b, da/dT and d2a/dT2; s_solmod2_.cpp:441-444. -/
structure AB where
  a : ℝ
  b : ℝ
  da : ℝ
  d2a : ℝ

open Classical in
/-- `TPRSVcalc::AB`, s_solmod2_.cpp:453-482. -/
noncomputable def prsvAB (Tk Tcrit Pcrit omg k1' k2' k3' : ℝ) : AB :=
  let Tred := Tk / Tcrit
  let k0 := 0.378893 + 1.4897153 * omg - 0.17131848 * omg ^ 2 + 0.0196554 * omg ^ 3
  let k1 := if Tk ≥ Tcrit then 0 else k1'
  let k2 := if Tk ≥ Tcrit then 0 else k2'
  let k3 := if Tk ≥ Tcrit then 0 else k3'
  let k := k0 + (k1 + k2 * (k3 - Tred) * (1 - Real.sqrt Tred)) * (1 + Real.sqrt Tred) * (0.7 - Tred)
  let alph := (1 + k * (1 - Real.sqrt Tred)) ^ 2
  let ac := 0.457235 * Rgas ^ 2 * Tcrit ^ 2 / Pcrit
  let sqa := 1 + k * (1 - Real.sqrt Tred)
  let dsqa := (k1 * (0.7 - Tred) / (2 * Real.sqrt Tred * Tcrit) - k1 * (1 + Real.sqrt Tred) / Tcrit) * (1 - Real.sqrt Tred)
    - (k0 + k1 * (1 + Real.sqrt Tred) * (0.7 - Tred)) / (2 * Real.sqrt Tred * Tcrit)
  let d2sqa := (-(k1 * (0.7 - Tred)) / (4 * Tred ^ (1.5 : ℝ) * Tcrit ^ 2) - k1 / (Real.sqrt Tred * Tcrit ^ 2)) * (1 - Real.sqrt Tred)
    + (-k1 * (0.7 - Tred) / (2 * Real.sqrt Tred * Tcrit) - k1 * (1 + Real.sqrt Tred) / Tcrit) / (Real.sqrt Tred * Tcrit)
    + (k0 + k1 * (1 + Real.sqrt Tred) * (0.7 - Tred)) / (4 * Tred ^ (1.5 : ℝ) * Tcrit ^ 2)
  { a := alph * ac, b := 0.077796 * Rgas * Tcrit / Pcrit, da := 2 * ac * (sqa * dsqa), d2a := 2 * ac * (dsqa * dsqa + sqa * d2sqa) }

open Classical in
/-- The factor `k` of `TPR78calc::AB`, s_solmod2_.cpp:3671-3674. -/
noncomputable def pr78k (omg : ℝ) : ℝ :=
  if omg ≤ 0.491 then 0.37464 + 1.54226 * omg - 0.26992 * omg ^ 2
  else 0.379642 + 1.48503 * omg - 0.164423 * omg ^ 2 + 0.0166666 * omg ^ 3

/-- `TPR78calc::AB`, s_solmod2_.cpp:3665-3687; the fourth parameter is not used. -/
noncomputable def pr78AB (Tk Tcrit Pcrit omg : ℝ) : AB :=
  let Tred := Tk / Tcrit
  let k := pr78k omg
  let alph := (1 + k * (1 - Real.sqrt Tred)) ^ 2
  let ac := 0.457235529 * Rgas ^ 2 * Tcrit ^ 2 / Pcrit
  let sqa := 1 + k * (1 - Real.sqrt Tred)
  let dsqa := -0.5 * k / (Real.sqrt Tred * Tcrit)
  let d2sqa := 0.25 * k / (Tred ^ (1.5 : ℝ) * Tcrit ^ 2)
  { a := alph * ac, b := 0.0777960739 * Rgas * Tcrit / Pcrit, da := 2 * ac * (sqa * dsqa), d2a := 2 * ac * (dsqa * dsqa + sqa * d2sqa) }

/-- `TSRKcalc::AB`, s_solmod2_.cpp:2861-2879; the fourth parameter is not used. -/
noncomputable def srkAB (Tk Tcrit Pcrit omg : ℝ) : AB :=
  let Tred := Tk / Tcrit
  let m := 0.48 + 1.574 * omg - 0.176 * omg ^ 2
  let alph := (1 + m * (1 - Real.sqrt Tred)) ^ 2
  let ac := 0.42747 * Rgas ^ 2 * Tcrit ^ 2 / Pcrit
  let sqa := 1 + m * (1 - Real.sqrt Tred)
  let dsqa := -0.5 * m / (Real.sqrt Tred * Tcrit)
  let d2sqa := 0.25 * m / (Tred ^ (1.5 : ℝ) * Tcrit ^ 2)
  { a := alph * ac, b := 0.08664 * Rgas * Tcrit / Pcrit, da := 2 * ac * (sqa * dsqa), d2a := 2 * ac * (dsqa * dsqa + sqa * d2sqa) }

/-- `Fugpure[i][0..5]`, s_solmod2_.cpp:571-577: fugacity coefficient, residual G, H, S, the volume and the residual Cp.  H and S can be NaN
while the others are not. -/
structure Fug where
  phi : ℝ
  g : ℝ
  h : Option ℝ
  s : Option ℝ
  v : ℝ
  cp : ℝ

open Classical in
/-- The value compared for a root: s_solmod2_.cpp:523-537, 2919-2930, 3728-3742. -/
noncomputable def lnfOr (lnf : ℝ → ℝ) (B z : ℝ) : ℝ := if z > B then lnf z else 1000

open Classical in
/-- The selection of the root and its ln f, s_solmod2_.cpp:539-553, 2932-2946, 3744-3758. -/
noncomputable def pick (lnf : ℝ → ℝ) (B z1 z2 z3 : ℝ) : ℝ × ℝ :=
  let r := if lnfOr lnf B z2 < lnfOr lnf B z1 then (z2, lnfOr lnf B z2) else (z1, lnfOr lnf B z1)
  if lnfOr lnf B z3 < r.2 then (z3, lnfOr lnf B z3) else r

/-- ln f of the Peng-Robinson equations, s_solmod2_.cpp:524-525, 3729-3730. -/
noncomputable def prLnf (A B z : ℝ) : ℝ :=
  (-1) * Real.log (z - B) - A / (B * Real.sqrt 8)
    * Real.log ((z + (1 + Real.sqrt 2) * B) / (z + (1 - Real.sqrt 2) * B)) + z - 1

/-- ln f of the SRK equation, s_solmod2_.cpp:2920. -/
noncomputable def srkLnf (A B z : ℝ) : ℝ := z - 1 - Real.log (z - B) - A / B * Real.log (1 + B / z)

open Classical in
/-- The properties computed from a root of the Peng-Robinson cubic, s_solmod2_.cpp:555-577 and 3760-3782; `c` is the literal 0.457235 of
PRSV or 0.457235529 of PR78.  At the critical temperature `k` is 0/0. -/
noncomputable def prProps (c Tk Pbar Tcrit Pcrit : ℝ) (p : AB) (A B : ℝ) (zl : ℝ × ℝ) : Fug :=
  let z := zl.1
  let vol := z * Rgas * Tk / Pbar
  let Tred := Tk / Tcrit
  let alph := p.a / (c * Rgas ^ 2 * Tcrit ^ 2 / Pcrit)
  let k := (Real.sqrt alph - 1) / (1 - Real.sqrt Tred)
  let L := Real.log ((z + (1 + Real.sqrt 2) * B) / (z + (1 - Real.sqrt 2) * B))
  let grs := Rgas * Tk * (z - 1 - Real.log (z - B) - A / (B * Real.sqrt 8) * L)
  let hrs := Rgas * Tk * (z - 1 - L * A / (B * Real.sqrt 8) * (1 + k * Real.sqrt Tred / Real.sqrt alph))
  let srs := (hrs - grs) / Tk
  let cv := Tk * p.d2a / (p.b * Real.sqrt 8)
    * Real.log ((z + B * (1 + Real.sqrt 2)) / (z + B * (1 - Real.sqrt 2)))
  let dPdT := Rgas / (vol - p.b) - p.da / (vol * (vol + p.b) + p.b * (vol - p.b))
  let dPdV := -Rgas * Tk / (vol - p.b) ^ 2 + 2 * p.a * (vol + p.b) / (vol * (vol + p.b) + p.b * (vol - p.b)) ^ 2
  let dVdT := (-1) * (1 / dPdV) * dPdT
  { phi := Real.exp zl.2, g := grs, h := if Real.sqrt Tred = 1 then none else some hrs,
    s := if Real.sqrt Tred = 1 then none else some srs, v := vol, cp := cv + Tk * dPdT * dVdT - Rgas }

/-- `FugacityPure` of TPRSVcalc and TPR78calc, s_solmod2_.cpp:487-581, 3692-3786. -/
noncomputable def prPure (c Tk Pbar Tcrit Pcrit : ℝ) (p : AB) : Option Fug :=
  let A := p.a * Pbar / (Rgas ^ 2 * Tk ^ 2)
  let B := p.b * Pbar / (Rgas * Tk)
  let a2 := B - 1
  let a1 := A - 3 * B ^ 2 - 2 * B
  let a0 := B ^ 3 + B ^ 2 - A * B
  (cardano a2 a1 a0).map fun r => prProps c Tk Pbar Tcrit Pcrit p A B (pick (prLnf A B) B r.1 r.2.1 r.2.2)

/-- The properties computed from a root of the SRK cubic, s_solmod2_.cpp:2948-2968. -/
noncomputable def srkProps (Tk Pbar : ℝ) (p : AB) (B : ℝ) (zl : ℝ × ℝ) : Fug :=
  let z := zl.1
  let vol := z * Rgas * Tk / Pbar
  let hrs := -(1 - z + 1 / (p.b * Rgas * Tk) * (p.a - Tk * p.da) * Real.log (1 + p.b / vol)) * Rgas * Tk
  let srs := (Real.log (z * (1 - p.b / vol)) + 1 / (p.b * Rgas) * p.da * Real.log (1 + p.b / vol)) * Rgas
  let grs := hrs - Tk * srs
  let cv := Tk * p.d2a / p.b * Real.log (1 + B / z)
  let dPdT := Rgas / (vol - p.b) - p.da / (vol * (vol + p.b))
  let dPdV := -Rgas * Tk / (vol - p.b) ^ 2 + p.a * (2 * vol + p.b) / (vol * (vol + p.b)) ^ 2
  let dVdT := (-1) * (1 / dPdV) * dPdT
  { phi := Real.exp zl.2, g := grs, h := some hrs, s := some srs, v := vol, cp := cv + Tk * dPdT * dVdT - Rgas }

/-- `TSRKcalc::FugacityPure`, s_solmod2_.cpp:2884-2971. -/
noncomputable def srkPure (Tk Pbar : ℝ) (p : AB) : Option Fug :=
  let A := p.a * Pbar / (Rgas ^ 2 * Tk ^ 2)
  let B := p.b * Pbar / (Rgas * Tk)
  let a2 := -1
  let a1 := A - B - B ^ 2
  let a0 := -A * B
  (cardano a2 a1 a0).map fun r => srkProps Tk Pbar p B (pick (srkLnf A B) B r.1 r.2.1 r.2.2)

/-- The three equations of state. -/
inductive Eos
  | PRSV | SRK | PR78
  deriving DecidableEq

/-- `FugacityPT`, s_solmod2_.cpp:413-447, 2825-2856, 3629-3660, for the parameters in the array `k`. -/
noncomputable def fugacityPT (m : Eos) (Tk Pbar : ℝ) (k : Nat → ℝ) : Option Fug :=
  match m with
  | .PRSV => prPure 0.457235 Tk Pbar (k 0) (k 1) (prsvAB Tk (k 0) (k 1) (k 2) (k 3) (k 4) (k 5))
  | .SRK => srkPure Tk Pbar (srkAB Tk (k 0) (k 1) (k 2))
  | .PR78 => prPure 0.457235529 Tk Pbar (k 0) (k 1) (pr78AB Tk (k 0) (k 1) (k 2))

open Classical in
/-- `PRSVCalcFugPure`, `SRKCalcFugPure`, `PR78CalcFugPure`, s_solmod2_.cpp:826-850, 3220-3244, 4034-4058. -/
noncomputable def calcFugPure (m : Eos) (Tmin Tk Pbar : ℝ) (k : Nat → ℝ) : Option Fug :=
  if Tk ≥ Tmin ∧ Tk < 1e4 ∧ Pbar ≥ 1e-5 ∧ Pbar < 1e5 then fugacityPT m Tk Pbar k
  else some { phi := 1, g := 0, h := some 0, s := some 0, v := 8.31451 * Tk / Pbar, cp := 0 }

/-- The increments of the properties: GasPRSV.cpp:26-32, GasSRK.cpp:26-33, GasPR78.cpp:26-33; `h` and `s` are `FugProps[2]` and `[3]`. -/
noncomputable def increment (TK Pbar : TS) (f : Fug) (h s : ℝ) (tps : TPS) : TPS :=
  let G := TS.addAssign tps.G (Rgas * TK * Real.log f.phi)
  let Fug := f.phi * Pbar
  { tps with G := TS.subAssign G (Rgas * TK * TS.log (Fug / Pbar)), H := TS.addAssignD tps.H h, S := TS.addAssignD tps.S s,
             V := TS.assign tps.V f.v }

open Classical in
/-- `thermoPropertiesGasPRSV`, `thermoPropertiesGasSRK`, `thermoPropertiesGasPR78` (GasPRSV.cpp:9-35, GasSRK.cpp:9-36, GasPR78.cpp:9-36);
`intervals` and `crit` are `temperature_intervals` and `critical_parameters`; seven entries of the latter are copied.  `none` inside: a
property is NaN. -/
noncomputable def gasProps (m : Eos) (TK Pbar' : TS) (intervals : List (List ℝ)) (crit : List ℝ) (tps : TPS) : Res (Option TPS) :=
  let Pbar := if Pbar'.val = 0 then TS.addAssignD Pbar' 1e-5 else Pbar'
  match intervals with
  | (TClow :: _) :: _ =>
    if crit.length < 7 then .ub
    else
      .ok (match calcFugPure m TClow TK.val Pbar.val (fun i => crit.getD i 0) with
        | none => none
        | some f => match f.h, f.s with
          | some h, some s => some (increment TK Pbar f h s tps)
          | _, _ => none)
  | _ => .ub

/-- `GasPRSV::thermoProperties`, `GasSRK::…`, `GasPR78::…`, ThermoModelsSubstance.cpp:566-575, 636-645, 671-680. -/
noncomputable def gasEntry (m : Eos) (T P : ℝ) (intervals : List (List ℝ)) (crit : List ℝ) (Pr : ℝ) (tps : TPS) (applyP : Bool) :
    Res (Option TPS) := do
  let r ← gasProps m (TS.temperature T) (pbar P) intervals crit tps
  .ok (if applyP then r.map fun t => applyPressure t (TS.temperature T) (pbar P) Pr else r)

end ThermoFun.Gas
