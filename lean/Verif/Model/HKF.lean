import Verif.Model.Substance
import Verif.Model.Density

/-!
Model of the two implementations of the Helgeson-Kirkham-Flowers model of aqueous species:
/repo/ThermoFun/Substances/Solute/SoluteHKFreaktoro.cpp and /repo/ThermoFun/Substances/Solute/SoluteHKFgems.cpp, with their entry points
in /repo/ThermoFun/ThermoModelsSubstance.cpp.  Log messages, and the status texts set by `checkCalcMethodBounds` and `setMessage`, are
left out here.
-/

namespace ThermoFun

/-- `PropertiesSolvent`, ThermoProperties.h:82-159: the density with its derivatives, and the pressure with its derivatives; the first
part is in `Solv`. -/
structure PSolv extends Solv where
  densityT : TS
  densityP : TS
  densityTT : TS
  densityTP : TS
  densityPP : TS

/-- `ElectroPropertiesSolvent`, ThermoProperties.h:164-201; only the Born functions the solute models read. -/
structure ESolv where
  bornZ : TS
  bornY : TS
  bornQ : TS
  bornX : TS

/-- `ElectroPropertiesSubstance`, ThermoProperties.h:206-231, without the radii `re` and `reref`, which nothing reads. -/
structure ESub where
  w : TS
  wT : TS
  wP : TS
  wTT : TS
  wTP : TS
  wPP : TS

/-- `FunctionG`, ThermoProperties.h:234-253. -/
structure FunG where
  g : TS
  gT : TS
  gP : TS
  gTT : TS
  gTP : TS
  gPP : TS

namespace HKF

/-- `eta`, SoluteHKFreaktoro.cpp:37 and SoluteHKFgems.cpp:15. -/
noncomputable def eta : ℝ := 1.66027e+05
/-- `theta`, SoluteHKFreaktoro.cpp:40 and SoluteHKFgems.cpp:16. -/
noncomputable def theta : ℝ := 228
/-- `psi`, SoluteHKFreaktoro.cpp:43 and SoluteHKFgems.cpp:17. -/
noncomputable def psi : ℝ := 2600
/-- `referenceTemperature`, SoluteHKFreaktoro.cpp:10; `Tref`, SoluteHKFgems.cpp:14. -/
noncomputable def Tr : ℝ := 298.15
/-- `referencePressure`, SoluteHKFreaktoro.cpp:13; `Pref`, SoluteHKFgems.cpp:13 (bar). -/
noncomputable def Pr : ℝ := 1
/-- `referenceBornZ`, SoluteHKFreaktoro.cpp:19. -/
noncomputable def Zr : ℝ := -1.278055636e-02
/-- `referenceBornY`, SoluteHKFreaktoro.cpp:22. -/
noncomputable def Yr : ℝ := -5.795424563e-05
/-- `ZPrTr`, SoluteHKFgems.cpp:11. -/
noncomputable def ZPrTr : ℝ := -0.1278034682e-1
/-- `YPrTr`, SoluteHKFgems.cpp:12. -/
noncomputable def YPrTr : ℝ := -0.5798650444e-4
/-- `cal_to_J`, GlobalVariables.h:33. -/
noncomputable def calJ : ℝ := 4.184

end HKF

open HKF in
/-- `thermoPropertiesAqSoluteHKFreaktoro`, SoluteHKFreaktoro.cpp:45-147; `ref` is `subst.thermoReferenceProperties()`.  Only an empty
parameter list is refused; reading past the end of a shorter one is undefined. -/
noncomputable def hkfReaktoro (TK Pbar : TS) (hkf : List ℝ) (ref : TPS) (aes : ESub) (wes : ESolv) : Res TPS :=
  match hkf with
  | [] => .throw
  | a1 :: a2 :: a3 :: a4 :: c1 :: c2 :: wr :: _ =>
    let Gf := ref.G / calJ
    let Hf := ref.H / calJ
    let Sr := ref.S / calJ
    let w := aes.w
    let wT := aes.wT
    let wP := aes.wP * (1e5 : ℝ)
    let wTT := aes.wTT
    let Z := wes.bornZ
    let Y := wes.bornY
    let Q := wes.bornQ * (1e5 : ℝ)
    let X := wes.bornX
    let V := (0.4184004e2 : ℝ) * (a1 + a2 / (psi + Pbar)
      + (a3 + a4 / (psi + Pbar)) / (TK - theta) - w * Q - (Z + (1 : ℝ)) * wP)
    let G := Gf - Sr * (TK - Tr) - c1 * (TK * TS.log (TK / Tr) - TK + Tr)
      + a1 * (Pbar - Pr) + a2 * TS.log ((psi + Pbar) / (psi + Pr))
      - c2 * (((1 : ℝ) / (TK - theta) - (1 / (Tr - theta) : ℝ)) * (theta - TK) / theta
      - TK / (theta * theta) * TS.log (Tr / TK * (TK - theta) / (Tr - theta)))
      + (1 : ℝ) / (TK - theta) * (a3 * (Pbar - Pr) + a4 * TS.log ((psi + Pbar) / (psi + Pr)))
      - w * (Z + (1 : ℝ)) + wr * (Zr + 1) + wr * Yr * (TK - Tr)
    let H := Hf + c1 * (TK - Tr) - c2 * ((1 : ℝ) / (TK - theta) - (1 / (Tr - theta) : ℝ))
      + a1 * (Pbar - Pr) + a2 * TS.log ((psi + Pbar) / (psi + Pr))
      + ((2 : ℝ) * TK - theta) / TS.powR (TK - theta) 2 * (a3 * (Pbar - Pr)
      + a4 * TS.log ((psi + Pbar) / (psi + Pr)))
      - w * (Z + (1 : ℝ)) + w * TK * Y + TK * (Z + (1 : ℝ)) * wT + wr * (Zr + 1) - wr * Tr * Yr
    let S := Sr + c1 * TS.log (TK / Tr) - (c2 / theta) * ((1 : ℝ) / (TK - theta)
      - (1 / (Tr - theta) : ℝ) + TS.log (Tr / TK * (TK - theta) / (Tr - theta)) / theta)
      + (1 : ℝ) / TS.powR (TK - theta) 2 * (a3 * (Pbar - Pr) + a4 * TS.log ((psi + Pbar) / (psi + Pr)))
      + w * Y + (Z + (1 : ℝ)) * wT - wr * Yr
    let Cp := c1 + c2 / TS.powR (TK - theta) 2 - ((2 : ℝ) * TK / TS.powR (TK - theta) 3) * (a3 * (Pbar - Pr)
      + a4 * TS.log ((psi + Pbar) / (psi + Pr))) + w * TK * X + (2 : ℝ) * TK * Y * wT + TK * (Z + (1 : ℝ)) * wTT
    let U := H - Pbar * V
    let A := U - TK * S
    .ok { V := TS.mulAssignD V 1e-1, G := TS.mulAssignD G calJ, H := TS.mulAssignD H calJ, S := TS.mulAssignD S calJ,
          U := TS.mulAssignD U calJ, A := TS.mulAssignD A calJ, Cp := TS.mulAssignD Cp calJ, Cv := TS.mulAssignD Cp calJ }
  | _ => .ub

open HKF in
/-- `thermoPropertiesAqSoluteHKFgems`, SoluteHKFgems.cpp:21-145; `TC` is in °C. -/
noncomputable def hkfGems (TC Pbar : TS) (hkf : List ℝ) (ref : TPS) (aes : ESub) (wes : ESolv) : Res TPS :=
  match hkf with
  | [] => .throw
  | a1 :: a2 :: a3 :: a4 :: c1 :: c2 :: wr :: _ =>
    let TK := TS.temperature (TC.val + 273.15)
    let Gf := ref.G / calJ
    let Hf := ref.H / calJ
    let Sr := ref.S / calJ
    let W := aes.w
    let dwdT := aes.wT
    let dwdP := aes.wP * (1e5 : ℝ)
    let d2wdT2 := aes.wTT
    let Z := wes.bornZ
    let Y := wes.bornY
    let Q := wes.bornQ * (1e5 : ℝ)
    let X := wes.bornX
    let VQterm := (0.4184004e2 : ℝ) * (-W * Q + (-Z - (1 : ℝ)) * dwdP)
    let V := (0.4184004e2 : ℝ) * (a1 + a2 / (psi + Pbar) + a3 / (TK - theta) + a4 / (psi + Pbar) / (TK - theta)) + VQterm
    let SYterm := W * Y - (-Z - (1 : ℝ)) * dwdT - wr * YPrTr
    let S := Sr + c1 * TS.log (TK / Tr) - (c2 / theta)
      * ((1 : ℝ) / (TK - theta) - (1 / (Tr - theta) : ℝ) + (1 / theta : ℝ)
      * TS.log (Tr * (TK - theta) / TK / (Tr - theta))) + (a3
      * (Pbar - Pr) + a4 * TS.log ((psi + Pbar) / (psi + Pr)))
      * TS.powR ((1 : ℝ) / (TK - theta)) 2 + SYterm
    let CpXtrm := W * TK * X + (2 : ℝ) * TK * Y * dwdT + TK * (Z + (1 : ℝ)) * d2wdT2
    let Cp := c1 + c2 / TS.powR (TK - theta) 2 - ((2 : ℝ) * TK / TS.powR (TK - theta) 3) * (a3 * (Pbar - Pr) + a4
      * TS.log ((psi + Pbar) / (psi + Pr))) + CpXtrm
    let HYterm := W * (-Z - (1 : ℝ)) + W * TK * Y - TK * (-Z - (1 : ℝ)) * dwdT - wr * (-ZPrTr - 1) - wr * Tr * YPrTr
    let H := Hf + c1 * (TK - Tr) - c2 * ((1 : ℝ) / (TK - theta) - (1 / (Tr - theta) : ℝ)) + a1 * (Pbar - Pr)
      + a2 * TS.log ((psi + Pbar) / (psi + Pr))
      + (a3 * (Pbar - Pr) + a4 * TS.log ((psi + Pbar) / (psi + Pr))) * (((2 : ℝ) * TK - theta) / TS.powR (TK - theta) 2)
      + HYterm
    let GZterm := W * (-Z - (1 : ℝ)) - wr * (-ZPrTr - 1) + wr * YPrTr * (TK - Tr)
    let G := Gf - Sr * (TK - Tr) - c1 * (TK * TS.log (TK / Tr) - TK + Tr) + a1 * (Pbar - Pr) + a2
      * TS.log ((psi + Pbar) / (psi + Pr)) - c2 * (((1 : ℝ) / (TK - theta)
      - (1 / (Tr - theta) : ℝ)) * ((theta - TK) / theta) - TK / (theta ^ (2 : ℝ))
      * TS.log ((Tr * (TK - theta)) / (TK * (Tr - theta)))) + ((1 : ℝ)
      / (TK - theta)) * (a3 * (Pbar - Pr) + a4 * TS.log ((psi + Pbar) / (psi + Pr))) + GZterm
    let U := H - Pbar * V
    let A := U - TK * S
    .ok { V := TS.mulAssignD V 1e-1, G := TS.mulAssignD G calJ, H := TS.mulAssignD H calJ, S := TS.mulAssignD S calJ,
          U := TS.mulAssignD U calJ, A := TS.mulAssignD A calJ, Cp := TS.mulAssignD Cp calJ, Cv := TS.mulAssignD Cp calJ }
  | _ => .ub

open HKF in
/-- `speciesElectroStateHKF`, SoluteHKFreaktoro.cpp:150-190; `isH` says that the symbol is "H+".  `charge()` is an int; overflow of its
powers is not modelled.  A list with fewer than seven parameters is read out of range. -/
noncomputable def bornReaktoro (g : FunG) (z : ℤ) (isH : Bool) (hkf : List ℝ) : Res ESub :=
  match hkf[6]? with
  | none => .ub
  | some wref =>
    let d := TS.default
    if z = 0 ∨ isH = true then
      .ok { w := TS.assign d wref, wT := TS.assign d 0, wP := TS.assign d 0, wTT := TS.assign d 0, wTP := TS.assign d 0,
            wPP := TS.assign d 0 }
    else
      let z : ℝ := z
      let reref := z * z / (wref / eta + z / 3.082)
      let re := reref + |z| * g.g
      let X1 := (-eta) * (|z * z * z| / (re * re) - z / TS.powR ((3.082 : ℝ) + g.g) 2)
      let X2 := (2 * eta) * ((z * z * z * z) / (re * re * re) - z / TS.powR ((3.082 : ℝ) + g.g) 3)
      .ok { w := eta * ((z * z) / re - z / ((3.082 : ℝ) + g.g)), wT := X1 * g.gT, wP := X1 * g.gP,
            wTT := X1 * g.gTT + X2 * g.gT * g.gT, wTP := X1 * g.gTP + X2 * g.gT * g.gP,
            wPP := X1 * g.gPP + X2 * g.gP * g.gP }

open HKF in
/-- `omeg92`, SoluteHKFgems.cpp:253-283; `gref` is 0 (line 18).  `wTP` and `wPP` are never set. -/
noncomputable def omeg92 (g : FunG) (chg : ℤ) (hkf : List ℝ) : Res ESub :=
  match hkf[6]? with
  | none => .ub
  | some wref =>
    let d := TS.default
    if chg = 0 then
      .ok { w := TS.assign d wref, wT := TS.assign d 0, wP := TS.assign d 0, wTT := TS.assign d 0, wTP := d, wPP := d }
    else
      let chg : ℝ := chg
      let reref := TS.assign d (chg ^ (2 : ℝ) / (wref / eta + chg / (3.082 + 0)))
      let re := reref + |chg| * g.g
      let Z3 := |chg ^ (3 : ℝ)| / TS.powR re 2 - chg / TS.powR ((3.082 : ℝ) + g.g) 2
      let Z4 := |chg ^ (4 : ℝ)| / TS.powR re 3 - chg / TS.powR ((3.082 : ℝ) + g.g) 3
      .ok { w := eta * (chg ^ (2 : ℝ) / re - chg / ((3.082 : ℝ) + g.g)), wP := (-eta) * Z3 * g.gP, wT := (-eta) * Z3 * g.gT,
            wTT := (2 * eta) * Z4 * TS.powR g.gT 2 - eta * Z3 * g.gTT, wTP := d, wPP := d }

/-- The condition of region II, SoluteHKFreaktoro.cpp:263 and SoluteHKFgems.cpp:229; temperature in °C, pressure in bar. -/
def inRegionII (TC P : ℝ) : Prop :=
  (TC > 155 ∧ TC < 355 ∧ P < 1000) ∨ (TC ≥ 355 ∧ P ≥ 500 ∧ P < 1000) ∨ (TC ≥ 355 ∧ P < 500)

/-- The g function in region I, SoluteHKFreaktoro.cpp:229-260. -/
noncomputable def functionGI (T : TS) (ps : PSolv) : FunG :=
  let TdegC := T - (273.15 : ℝ)
  let ag1 : ℝ := -2.037662
  let ag2 : ℝ := 5.747000e-03
  let ag3 : ℝ := -6.557892e-06
  let bg1 : ℝ := 6.107361
  let bg2 : ℝ := -1.074377e-02
  let bg3 : ℝ := 1.268348e-05
  let ag := ag1 + ag2 * TdegC + ag3 * TdegC * TdegC
  let bg := bg1 + bg2 * TdegC + bg3 * TdegC * TdegC
  let agT := ag2 + (2 * ag3) * TdegC
  let bgT := bg2 + (2 * bg3) * TdegC
  let agTT := 2 * ag3
  let bgTT := 2 * bg3
  let r := ps.density / (1000 : ℝ)
  let alpha := -ps.densityT / ps.density
  let beta := ps.densityP / ps.density
  let alphaT := -ps.densityTT / ps.density + alpha * alpha
  let alphaP := -ps.densityTP / ps.density - alpha * beta
  let betaP := ps.densityPP / ps.density - beta * beta
  let g := ag * TS.pow ((1 : ℝ) - r) bg
  let gT := g * (agT / ag + bgT * TS.log ((1 : ℝ) - r) + r * alpha * bg / ((1 : ℝ) - r))
  let gP := -g * r * beta * bg / ((1 : ℝ) - r)
  let gTT := g * (agTT / ag - TS.powR (agT / ag) 2 + bgTT * TS.log ((1 : ℝ) - r)
    + r * alpha * bg / ((1 : ℝ) - r) * ((2 : ℝ) * bgT / bg + alphaT / alpha - alpha - r * alpha / ((1 : ℝ) - r))) + gT * gT / g
  let gTP := gP * (bgT / bg - alpha - alphaP / beta - r * alpha / ((1 : ℝ) - r)) + gP * gT / g
  let gPP := gP * (gP / g + beta + betaP / beta + r * beta / ((1 : ℝ) - r))
  ⟨g, gT, gP, gTT, gTP, gPP⟩

/-- The correction in region II, SoluteHKFreaktoro.cpp:265-291, applied to the result `f` of region I. -/
noncomputable def functionGII (T P : TS) (f : FunG) : FunG :=
  let TdegC := T - (273.15 : ℝ)
  let af1 : ℝ := 3.666660e+01
  let af2 : ℝ := -1.504956e-10
  let af3 : ℝ := 5.017990e-14
  let auxT := (TdegC - (155 : ℝ)) / (300 : ℝ)
  let auxT1 := TS.powR auxT 4.8
  let auxT2 := TS.powR auxT 16
  let auxP := (1000 : ℝ) - P
  let auxP1 := TS.powR auxP 3
  let auxP2 := TS.powR auxP 4
  let ft := auxT1 + af1 * auxT2
  let ftT := ((4.80 : ℝ) * auxT1 + (16 * af1) * auxT2) / ((300 : ℝ) * auxT)
  let ftTT := ((18.24 : ℝ) * auxT1 + (240 * af1) * auxT2) / TS.powR ((300 : ℝ) * auxT) 2
  let fp := af2 * auxP1 + af3 * auxP2
  let fpP := -((3 * af2) * auxP1 + (4 * af3) * auxP2) / (auxP * (1e5 : ℝ))
  let fpPP := ((6 * af2) * auxP1 + (12 * af3) * auxP2) / TS.powR (auxP * (1e5 : ℝ)) 2
  { g := TS.subAssign f.g (ft * fp), gT := TS.subAssign f.gT (fp * ftT), gP := TS.subAssign f.gP (ft * fpP),
    gTT := TS.subAssign f.gTT (fp * ftTT), gTP := TS.subAssign f.gTP (ftT * fpP), gPP := TS.subAssign f.gPP (ft * fpPP) }

open Classical in
/-- `functionG`, SoluteHKFreaktoro.cpp:193-295; `T` in K, `P` in bar. -/
noncomputable def functionG (T P : TS) (ps : PSolv) : FunG :=
  let TdegC := T - (273.15 : ℝ)
  let z := TS.assign TS.default 0
  if ps.density.val > 1000 then ⟨z, z, z, z, z, z⟩
  else if inRegionII TdegC.val P.val then functionGII T P (functionGI T ps)
  else functionGI T ps

/-- The g function in region I, SoluteHKFgems.cpp:153-226.  The powers of `pw` are plain numbers; `gTP` and `gPP` are never set. -/
noncomputable def gShok2I (TC : TS) (ps : Solv) : FunG :=
  let C0 : ℝ := -0.2037662e+01
  let C1 : ℝ := 0.5747000e-02
  let C2 : ℝ := -0.6557892e-05
  let C3 : ℝ := 0.6107361e+01
  let C4 : ℝ := -0.1074377e-01
  let C5 : ℝ := 0.1268348e-04
  let D := ps.density / (1000 : ℝ)
  let beta := ps.Beta
  let alpha := ps.Alpha
  let daldT := ps.dAldT
  let pw := |1 - D.val|
  let a := C0 + C1 * TC + C2 * TS.powR TC 2
  let b := C3 + C4 * TC + C5 * TS.powR TC 2
  let g := a * (pw ^ b.val : ℝ)
  let dgdD := -a * b * (pw ^ (b.val - 1) : ℝ)
  let dadT := C1 + (2 * C2) * TC
  let dadTT := TS.assign TS.default (2 * C2)
  let dbdT := C4 + (2 * C5) * TC
  let dbdTT := TS.assign TS.default (2 * C5)
  let dDdT := -D * alpha
  let dDdP := D * beta
  let dDdTT := -D * (daldT - TS.powR alpha 2)
  let Db := TS.assign TS.default (pw ^ b.val)
  let dDbdT := -b * (pw ^ (b.val - 1) : ℝ) * dDdT + Real.log pw * Db * dbdT
  let dDbdTT := -(b * (pw ^ (b.val - 1) : ℝ) * dDdTT + (pw ^ (b.val - 1) : ℝ) * dDdT * dbdT
      + b * dDdT * (-(b - (1 : ℝ)) * (pw ^ (b.val - 2) : ℝ) * dDdT
      + (Real.log pw * pw ^ (b.val - 1)) * dbdT))
      + (Real.log pw * pw ^ b.val) * dbdTT
      - (pw ^ b.val : ℝ) * dbdT * dDdT / ((1 : ℝ) - D)
      + Real.log pw * dbdT * dDbdT
  { g := g, gP := dgdD * dDdP, gT := a * dDbdT + Db * dadT, gTT := a * dDbdTT + (2 : ℝ) * dDbdT * dadT + Db * dadTT,
    gTP := TS.default, gPP := TS.default }

/-- The correction in region II, SoluteHKFgems.cpp:229-248, applied to the result `r` of region I. -/
noncomputable def gShok2II (TC Pbar : TS) (r : FunG) : FunG :=
  let c0 : ℝ := 0.3666666e+02
  let c1 : ℝ := -0.1504956e-09
  let c2 : ℝ := 0.5017997e-13
  let tempy := (TC - (155 : ℝ)) / (300 : ℝ)
  let ft := TS.powR tempy 4.8 + c0 * TS.powR tempy 16
  let dftdT := (4.8 / 300 : ℝ) * TS.powR tempy 3.8 + (16 / 300 * c0 : ℝ) * TS.powR tempy 15
  let dftdTT := (3.8 * 4.8 / (300 * 300) : ℝ) * TS.powR tempy 2.8 + (15 * 16 / (300 * 300) * c0 : ℝ) * TS.powR tempy 14
  let fp := c1 * TS.powR ((1000 : ℝ) - Pbar) 3 + c2 * TS.powR ((1000 : ℝ) - Pbar) 4
  let dfpdP := (-3 * c1) * TS.powR ((1000 : ℝ) - Pbar) 2 - (4 * c2) * TS.powR ((1000 : ℝ) - Pbar) 3
  let f := ft * fp
  let dfdP := ft * dfpdP
  let dfdT := fp * dftdT
  let d2fdT2 := fp * dftdTT
  { r with g := TS.subAssign r.g f, gP := TS.subAssign r.gP (dfdP / (1e5 : ℝ)), gT := TS.subAssign r.gT dfdT,
           gTT := TS.subAssign r.gTT d2fdT2 }

open Classical in
/-- `gShok2`, SoluteHKFgems.cpp:151-251; `TC` in °C, `Pbar` in bar. -/
noncomputable def gShok2 (TC Pbar : TS) (ps : Solv) : FunG :=
  if inRegionII TC.val Pbar.val then gShok2II TC Pbar (gShok2I TC ps) else gShok2I TC ps

/-- What the solute models read from a substance record. -/
structure HKFSub where
  charge : ℤ
  isH : Bool
  /-- `thermoParameters().HKF_parameters` -/
  hkf : List ℝ
  /-- `thermoReferenceProperties()` -/
  ref : TPS

/-- `SoluteHKFgems::thermoProperties`, ThermoModelsSubstance.cpp:185-197 (T in K, P in Pa). -/
noncomputable def hkfGemsEntry (T P : ℝ) (s : HKFSub) (wp : PSolv) (wes : ESolv) : Res TPS := do
  let t := TS.subAssignD (TS.temperature T) 273.15
  let p := pbar P
  let aes ← omeg92 (gShok2 t p wp.toSolv) s.charge s.hkf
  hkfGems t p s.hkf s.ref aes wes

/-- `SoluteHKFreaktoro::thermoProperties`, ThermoModelsSubstance.cpp:223-235 (T in K, P in Pa). -/
noncomputable def hkfReaktoroEntry (T P : ℝ) (s : HKFSub) (wp : PSolv) (wes : ESolv) : Res TPS := do
  let t := TS.temperature T
  let p := pbar P
  let aes ← bornReaktoro (functionG t p wp) s.charge s.isH s.hkf
  hkfReaktoro t p s.hkf s.ref aes wes

end ThermoFun
