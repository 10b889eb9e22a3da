import Verif.Model.Gems

/-!
# WaterHGK-JNgems.cpp: saturation, density and the choice of states

The part of the code that, from a temperature and a pressure, finds the densities (`denHGK`, `pcorr`), chooses the states (`HGKsat`, `calcv2`,
`calcv3`, `HGKeqn`, `calculateWaterHGKgems`) and hands them out (`thermoPropertiesWaterHGKgems`, `propertiesWaterHGKgems`, `electroPropertiesWaterJNgems`).
Members of the class that carry values between the functions (`a1.rt`, `el`, `ba`, `qq`, `res`, `id`, `fct`) are passed as arguments: the function that reads
them gets the evaluation made last.  The near-critical region (`LVSeqn` and what it calls, 1100-1600 and 1793-2134) is a parameter, `Lvs` (given in Model/GemsCrit.lean).  Global objects shared by all instances
(`ac_`, `el_`, `tt_`) are not modelled as shared: one calculation at a time.
-/

namespace ThermoFun

namespace Gems

open WP (el)

/-- The coefficients of `PsHGK`, WaterHGK-JNgems.cpp:2716-2717. -/
def psA : List ℚ := [-0.78889166e1, 0.25514255e1, -0.6716169e1, 0.33239495e2, -0.10538479e3, 0.17435319e3, -0.14839348e3, 0.48631602e2]

/-- `PsHGK`, WaterHGK-JNgems.cpp:2712-2737, in MPa. -/
noncomputable def PsHGK (t : ℝ) : ℝ :=
  if t ≤ 314.0e0 then 0.1e0 * Real.exp (6.3573118e0 - 8858.843e0 / t + 607.56335e0 * t ^ (-0.6e0 : ℝ))
  else
    let v := t / 647.25e0
    let w := |1 - v|
    22.093e0 * Real.exp ((List.range 8).foldl (fun b i => b + el psA i * w ^ (((i : ℝ) + 1 + 1) / 2)) 0 / v)

/-- What `denHGK` leaves behind: the density `*d`, the density at which the equation of state was evaluated last, and whether it returned at line 2234
(the tolerance was reached) rather than after too many iterations. -/
structure DenR where
  d : ℝ
  e : ℝ
  conv : Bool

/-- WaterHGK-JNgems.cpp:2213-2214. -/
noncomputable def clampD (d : ℝ) : ℝ :=
  let d := if d ≤ 0 then 1.0e-8 else d
  if d > 1.9 then 1.9 else d

/-- `dpdd`, WaterHGK-JNgems.cpp:2218. -/
noncomputable def dpddOf (t d : ℝ) : ℝ :=
  let e := evalAt t d
  gascon * t * (e.b.zb + e.b.yb * e.b.dzb) + e.r.q5

/-- The test at WaterHGK-JNgems.cpp:2231-2233. -/
def denConv (p dguess pp : ℝ) : Prop :=
  |1 - pp / p| < 1.0e-8 ∨ (dguess > 0.3 ∧ |1 - pp / p| < 1.0e-7) ∨ (dguess > 0.7 ∧ |1 - pp / p| < 1.0e-6)

noncomputable instance (p dguess pp : ℝ) : Decidable (denConv p dguess pp) := Classical.propDecidable _

/-- The density after a step, WaterHGK-JNgems.cpp:2228-2230, 2235-2240. -/
noncomputable def denNext (p d pp k : ℝ) : ℝ :=
  let dpdx := if k * 1.1 < 0.1 then 0.1 else k * 1.1
  let x := (p - pp) / dpdx
  let x := if |x| > 0.1 then x * (0.1 / |x|) else x
  if d + x ≤ 0 then 1.0e-8 else d + x

/-- The loop of `denHGK`, WaterHGK-JNgems.cpp:2209-2243.  `fuel` bounds the number of rounds; 32 is never used up, as the loop is left when `i` exceeds 30. -/
noncomputable def denLoop (p dguess t : ℝ) : ℕ → ℕ → ℝ → DenR
  | 0, _, d => ⟨d, d, false⟩
  | fuel + 1, i, d =>
    let i := i + 1
    let d := clampD d
    let pp := presOf (evalAt t d) t d
    let k := dpddOf t d
    if k > 0 then
      if denConv p dguess pp then ⟨d, d, true⟩
      else if i ≤ 30 then denLoop p dguess t fuel i (denNext p d pp k) else ⟨denNext p d pp k, d, false⟩
    else
      let d' := if dguess ≥ 0.2967 then d * 1.02 else d * 0.98
      if i ≤ 10 then denLoop p dguess t fuel i d' else ⟨d', d, false⟩

/-- `denHGK`, WaterHGK-JNgems.cpp:2204-2243. -/
noncomputable def denHGK (p dguess t : ℝ) : DenR := denLoop p dguess t 32 0 dguess

/-- The Gibbs energy left in `fct` by `thmHGK` for the density `d` when the equation of state was evaluated at `e`, WaterHGK-JNgems.cpp:2753, 2765. -/
noncomputable def gdAt (t d e : ℝ) : ℝ := (thmHGK (evalAt t e) t d).gd

/-- What `corr` computes: the two densities and `delg`. -/
structure Corr where
  dL : ℝ
  dV : ℝ
  delg : ℝ

/-- `corr`, WaterHGK-JNgems.cpp:2741-2767. -/
noncomputable def corr (t p dL dV : ℝ) : Corr :=
  let l := denHGK p (if dL ≤ 0 then 1.11 - 0.0004 * t else dL) t
  let w := denHGK p (if dV ≤ 0 then p / (gascon * t) else dV) t
  let v := if w.d < 5.0e-7 then 5.0e-7 else w.d
  ⟨l.d, v, gdAt t l.d l.e - gdAt t v w.e⟩

/-- The results of `pcorr`: pressure and densities of liquid and vapour. -/
structure Sat where
  p : ℝ
  dL : ℝ
  dV : ℝ

/-- The loop of `pcorr`, WaterHGK-JNgems.cpp:2499-2505; it has no bound, `none` when it has not ended after `fuel` rounds. -/
noncomputable def pcorrLoop (t : ℝ) : ℕ → Sat → Option Sat
  | 0, _ => none
  | fuel + 1, s =>
    let c := corr t s.p s.dL s.dV
    let s' : Sat := ⟨s.p + c.delg * gascon * t / (1 / c.dV - 1 / c.dL), c.dL, c.dV⟩
    if |c.delg| > 1.0e-4 then pcorrLoop t fuel s' else some s'

/-- `pcorr`, WaterHGK-JNgems.cpp:2492-2506. -/
noncomputable def pcorr (fuel : ℕ) (t : ℝ) : Option Sat := pcorrLoop t fuel ⟨PsHGK t, 0, 0⟩

/-- `thmHGK` and `dimHGK` for the density `d` after an evaluation at `e`, e.g. WaterHGK-JNgems.cpp:1740-1741. -/
noncomputable def propsAt (tt : Triple) (isat : ℕ) (t p d e : ℝ) : WProps := dimHGK tt (thmHGK (evalAt t e) t d) isat t p d

/-- The state of the object when `calculateWaterHGKgems` returns: `aSpc.isat`, `aSta.Pres` (bar), `aSta.Dens`, `wl`, `wr`. -/
structure Sta where
  isat : Bool
  pres : ℝ
  dens0 : ℝ
  dens1 : ℝ
  wl : WProps
  wr : WProps

/-- The guess of `calcv2` for the liquid with `iopt` 2, WaterHGK-JNgems.cpp:1688-1704; `tz` is the reference temperature 647.073 K. -/
noncomputable def guessL (fuel : ℕ) (t : ℝ) : Option ℝ :=
  if t < tz then (pcorr fuel t).map (·.dL) else some 0

/-- The guess of `calcv3` with `iopt` 2, WaterHGK-JNgems.cpp:1652-1666. -/
noncomputable def guess3 (fuel : ℕ) (t p : ℝ) : Option ℝ :=
  if t < tz then (pcorr fuel t).map (fun s => if p > s.p then s.dL else p / t / 0.4)
  else some (if p > 2.0e4 then 0 else p / t / 0.4)

/-- `HGKsat` with `isat` 0 and `iopt` 2, WaterHGK-JNgems.cpp:1617-1632: the local `isat` and the pressure (the densities set at 1629-1630 are overwritten later). -/
noncomputable def hgkSat0 (fuel : ℕ) (t p : ℝ) : Option (ℕ × ℝ) :=
  if t > 647.067 ∨ t < 2.7316e2 ∨ p > 22.046 then some (0, p)
  else (pcorr fuel t).map (fun s => if |p - s.p| ≤ 1.0e-6 then (1, s.p) else (0, p))

/-- `HGKeqn` for a given pressure (`isat` 0, `iopt` 2), WaterHGK-JNgems.cpp:1717-1766; `psat` is `aSta.Psat` in bar. -/
noncomputable def hgkEqn0 (tt : Triple) (fuel : ℕ) (psat t p : ℝ) : Option Sta :=
  (hgkSat0 fuel t p).bind fun ip =>
  (guessL fuel t).bind fun g2 =>
  (guess3 fuel t ip.2).map fun g3 =>
    let a := denHGK ip.2 g2 t
    let wl := propsAt tt ip.1 t ip.2 a.d a.e
    let b := denHGK ip.2 g3 t
    if ip.2 * 10 > psat ∧ t < 0.647126e3 then
      -- `calcv2` with `iopt` 3 writes `aSta.Dens[1]`, while `thmHGK` and `dimHGK` are given `aSta.Dens[0]` (1751-1753); then the two are exchanged
      let c := denHGK ip.2 0 t
      ⟨false, ip.2, c.d, b.d, wl, propsAt tt 1 t ip.2 b.d c.e⟩
    else ⟨false, ip.2, b.d, a.d, wl, propsAt tt ip.1 t ip.2 b.d b.e⟩

/-- `HGKeqn` at saturation (`isat` 1, `iopt` 1), WaterHGK-JNgems.cpp:1717-1766: the pressure left is that of the liquid density (1648). -/
noncomputable def hgkEqn1 (tt : Triple) (fuel : ℕ) (t : ℝ) : Option Sta :=
  (pcorr fuel t).map fun s =>
    let pV := presOf (evalAt t s.dV) t s.dV
    let pL := presOf (evalAt t s.dL) t s.dL
    ⟨true, pL, s.dL, s.dV, propsAt tt 1 t pV s.dV s.dV, propsAt tt 1 t pL s.dL s.dL⟩

/-- The near-critical region as a parameter (`Crit.lvs` of Model/GemsCrit.lean is the one of the code): the saturation pressure of `Pfind` (WaterHGK-JNgems.cpp:637-726) and the state left by `LVSeqn` and lines 478-490. -/
structure Lvs where
  pfind : ℝ → ℝ
  eqn : Triple → Bool → ℝ → ℝ → Option Sta

/-- `Psublm`, WaterHGK-JNgems.cpp:863-873, `T` in °C. -/
noncomputable def Psublm (T : ℝ) : ℝ :=
  let TT := T + 2.731e2
  (1.0e1 : ℝ) ^ (-2.4455646e3 / TT + 8.2312e0 * 0.4342945 * Real.log TT - 1.677006e-2 * TT + 1.20514e-5 * TT * TT - 6.757169e0) * 1.33322e-3

/-- `valTP`, WaterHGK-JNgems.cpp:954-984, `T` in °C and `P` in bar. -/
def valTP (T P : ℝ) : Prop :=
  ¬ (T - 1.0e-7 > 2.25e3 ∨ T + 1.0e-7 < -2.0e1 ∨ P - 1.0e-7 > 3.0e4 ∨ P + 1.0e-7 < 1.0e-3) ∧
  (P ≥ 0.20741e4 → P - 1.0e-7 ≤ 0.174536874999999999999999999995e3 * (T - -0.15e2) + 0.20741e4) ∧
  (¬ P ≥ 0.20741e4 → P ≥ 0.611731677193563186622762580414e-2 → P + 1.0e-7 ≥ -0.138180804975562958027981345769e3 * (T - -0.15e2) + 0.20741e4) ∧
  (¬ P ≥ 0.20741e4 → ¬ P ≥ 0.611731677193563186622762580414e-2 → P - 1.0e-7 ≤ Psublm T)

/-- `crtreg` for a given pressure (`isat` 0, `iopt` 2), WaterHGK-JNgems.cpp:1024-1061; `P` in MPa. -/
def crtreg0 (l : Lvs) (T P : ℝ) : Prop :=
  ¬ (T < 6.43e2 ∨ T > 6.95e2) ∧
  let Pmin := 2.09945691135940719075293945960e1 + 0.175777517046267847932127026995e0 * (T - 6.43e2)
  let Pmax := 2.15814057875264119875397458907e1 + 0.380293646126229135059562456934e0 * (T - 6.453e2)
  P ≥ Pmin ∧ (P ≤ Pmax ∨ (T ≤ 6.453e2 ∧ P ≤ l.pfind T))

/-- What `calculateWaterHGKgems` does: raise an error (in `valid`) or leave a state; the second component is the pressure `P` (bar) handed back by reference. -/
inductive Calc where
  | error (P : ℝ)
  | done (s : Sta) (P : ℝ)

/-- `calculateWaterHGKgems`, WaterHGK-JNgems.cpp:386-524, `T` in °C and `P` in bar; `none` when `pcorr` (or the near-critical region) has not ended after
`fuel` rounds.  `aSta.Psat` is that of the temperature before it is raised to 0.01 °C.  With the factors of `un` (all 1 but `fp` = 10), 512-520 only convert
`Pres` to bar; the check `if (!eR)` at 562 tests a pointer and is always false. -/
noncomputable def calculate (l : Lvs) (wtr : Triple) (fuel : ℕ) (T P : ℝ) : Option Calc := by
  classical exact
  let Tk := T + 273.15
  let T := if T < 0.01 ∧ T ≥ 0 then 0.01 else T
  let P := if P < 6.11732e-3 then 0 else P
  let psat := if Tk ≤ 647.067e0 then PsHGK Tk * 10 else 0
  let t := T + 273.15e0
  let tt := tpset wtr
  if |P| = 0 ∨ |(|P| - |psat|)| < 1e-14 then
    let P := PsHGK Tk * 10
    if ¬ (T + 1.0e-7 ≥ 2.7316e2 - 273.15e0 ∧ T - 1.0e-7 ≤ 647.067e0 - 273.15e0) then some (.error P)
    else (if t ≥ 6.43e2 then l.eqn tt true t P else (hgkEqn1 tt fuel t).map fun s => { s with pres := s.pres * 10 }).map (.done · P)
  else
    if ¬ valTP T P then some (.error P)
    else (if crtreg0 l t (P / 10) then l.eqn tt false t (P / 10) else (hgkEqn0 tt fuel psat t (P / 10)).map fun s => { s with pres := s.pres * 10 }).map (.done · P)

/-! ### What is handed out -/

/-- The properties and the density that belong to a phase: `state` 0 is the liquid and 1 the vapour, WaterHGK-JNgems.cpp:14, 27, 49, 70, 157, 170.  For another `state`
the code returns values that were not set; here 0. -/
noncomputable def Sta.pick (s : Sta) (state : ℕ) : WProps × ℝ :=
  if (s.isat = true ∧ state = 1) ∨ (s.isat = false ∧ state = 0) then (s.wl, s.dens1)
  else if (s.isat = true ∧ state = 0) ∨ (s.isat = false ∧ state = 1) then (s.wr, s.dens0)
  else (WProps.zero, 0)

/-- The fields set by `thermoPropertiesWaterHGKgems`. -/
structure ThermoW where
  A : ℝ
  G : ℝ
  S : ℝ
  U : ℝ
  H : ℝ
  Cv : ℝ
  Cp : ℝ
  V : ℝ

/-- `thermoPropertiesWaterHGKgems`, WaterHGK-JNgems.cpp:10-42; `H2OMolarMass` and `cm3_mol_to_J_bar` GlobalVariables.h:47, 40.  The values are assigned as numbers: the
derivatives carried by the ThermoScalars are 0 and are left out. -/
noncomputable def Sta.thermo (s : Sta) (state : ℕ) : ThermoW :=
  let w := (s.pick state).1
  ⟨w.A * calToJ, w.G * calToJ, w.S * calToJ, w.U * calToJ, w.H * calToJ, w.Cv * calToJ, w.Cp * calToJ, 1 / (s.pick state).2 * 18.015268 * 0.1⟩

/-- The fields set by `propertiesWaterHGKgems`. -/
structure SolvW where
  surfaceTension : ℝ
  Alpha : ℝ
  Beta : ℝ
  thermalConductivity : ℝ
  dAldT : ℝ
  speedOfSound : ℝ
  dynamicViscosity : ℝ
  density : ℝ
  densityT : ℝ
  densityTT : ℝ
  densityP : ℝ
  pressure : ℝ

/-- `propertiesWaterHGKgems`, WaterHGK-JNgems.cpp:44-150 (without `Tdiff`, `Prndtl`, `Albe`, `Visck`). -/
noncomputable def Sta.solv (s : Sta) (state : ℕ) : SolvW :=
  let w := (s.pick state).1
  let rho := (s.pick state).2 * 1000
  { surfaceTension := w.surten, Alpha := w.alpha, Beta := w.beta / 1e05, thermalConductivity := w.tcond, dAldT := w.dAldT, speedOfSound := w.speed
    dynamicViscosity := w.visc, density := rho, densityT := -w.alpha * rho, densityTT := rho * (w.alpha ^ 2 - w.dAldT), densityP := w.beta / 1e05 * rho
    pressure := s.pres * 1e5 }

/-- The fields set by `electroPropertiesWaterJNgems`. -/
structure ElectroW where
  epsilon : ℝ
  epsilonT : ℝ
  epsilonP : ℝ
  epsilonTT : ℝ
  bornZ : ℝ
  bornY : ℝ
  bornQ : ℝ
  bornX : ℝ

/-- `electroPropertiesWaterJNgems`, WaterHGK-JNgems.cpp:152-216. -/
noncomputable def Sta.electro (s : Sta) (state : ℕ) : ElectroW :=
  let w := (s.pick state).1
  { epsilon := w.diel, bornZ := w.Z, bornY := w.Y, bornQ := w.Q / 1e05, bornX := w.X, epsilonT := w.Y * w.diel ^ 2
    epsilonTT := (w.X + 2 * w.diel * w.Y ^ 2) * w.diel ^ 2, epsilonP := w.Q * w.diel ^ 2 }

/-- `WaterHGK::propertiesSolvent` and `thermoPropertiesSubstance` up to the reading of the state, ThermoModelsSolvent.cpp:72-91, and `WaterJNgems::electroPropertiesSolvent`,
ElectroModelsSolvent.cpp:91-100 (with the triple point data of `NEA_HGK`): `T` in K and `P` in Pa. -/
noncomputable def waterHGK (l : Lvs) (wtr : Triple) (fuel : ℕ) (T P : ℝ) : Option Calc := calculate l wtr fuel (T - 273.15) (P / 1e05)

end Gems

end ThermoFun
