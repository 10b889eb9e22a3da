import Verif.Model.Substance

/-!
The Birch-Murnaghan model of solids, `SolidBMGottschalk.cpp`.  Pressures in MPa, volumes in cm³/mol, so that P V is in J/mol.
Division by zero (a Newton step with slope 0) gives 0 in the model and an infinite or undefined number in the source.
-/

namespace ThermoFun.BM

/-- `BM_IntVol`, SolidBMGottschalk.cpp:14-26. -/
noncomputable def intVol (P Pref vt vpt kt0 kp kpp : TS) : TS :=
  let vt23 := TS.powR (vt / vpt) (2 / 3)
  let pint := ((-3 : ℝ) * kt0 * vt * ((6 : ℝ) * ((199 : ℝ) - (75 : ℝ) * kp + (9 : ℝ) * kp * kp + (9 : ℝ) * kpp * kt0) * vpt * vt
        * TS.powR (vt / vpt) (1 / 3)
      + vt * vt * ((-668 : ℝ) + kp * ((276 : ℝ) - (63 : ℝ) * vt23) + (9 : ℝ) * kp * kp * ((-4 : ℝ) + vt23)
        + (9 : ℝ) * kpp * kt0 * ((-4 : ℝ) + vt23) + (143 : ℝ) * vt23)
      + vpt * vpt * ((287 : ℝ) + kp * kp * ((9 : ℝ) - (36 : ℝ) * vt23)
        + (9 : ℝ) * kpp * kt0 * ((1 : ℝ) - (4 : ℝ) * vt23) - (956 : ℝ) * vt23 + kp * ((-87 : ℝ) + (324 : ℝ) * vt23))))
    / ((128 : ℝ) * vpt * vpt)
  (-Pref) * vt + P * vpt - pint

/-- `veq` in `BM_Volume`, SolidBMGottschalk.cpp:44-47. -/
noncomputable def veq (P vt kt0 kp kpp vv : TS) : TS :=
  let vt23 := TS.powR (vt / vv) (2 / 3)
  (3 / 2 : ℝ) * kt0 * ((1 : ℝ) + (3 / 4 : ℝ) * (kp - (4 : ℝ)) * (vt23 - (1 : ℝ))
      + (3 / 8 : ℝ) * ((143 / 9 : ℝ) - (7 : ℝ) * kp + kp * kp + kpp * kt0) * (vt23 - (1 : ℝ)) * (vt23 - (1 : ℝ)))
    * (vt23 - (1 : ℝ)) * TS.powR (vt / vv) (5 / 3) - P

/-- `dveq` in `BM_Volume`, SolidBMGottschalk.cpp:48-51. -/
noncomputable def dveq (vt kt0 kp kpp vv : TS) : TS :=
  let vt23 := TS.powR (vt / vv) (2 / 3)
  (kt0 * vt * (vt * vt * ((4509 : ℝ) + kp * kp * ((243 : ℝ) - (99 : ℝ) * vt23)
        + (9 : ℝ) * kpp * kt0 * ((27 : ℝ) - (11 : ℝ) * vt23) + (9 : ℝ) * kp * ((-207 : ℝ) + (77 : ℝ) * vt23)
        - (1573 : ℝ) * vt23) - (21 : ℝ) * ((199 : ℝ) - (75 : ℝ) * kp + (9 : ℝ) * kp * kp + (9 : ℝ) * kpp * kt0) * vt * TS.powR (vt / vv) (1 / 3) * vv
      + (5 : ℝ) * ((239 : ℝ) - (81 : ℝ) * kp + (9 : ℝ) * kp * kp + (9 : ℝ) * kpp * kt0) * vt23 * vv * vv)) / ((48 : ℝ) * vv * vv * vv * vv)

/-- One pass of the loop of `BM_Volume`, SolidBMGottschalk.cpp:53. -/
noncomputable def step (P vt kt0 kp kpp vv : TS) : TS := vv - veq P vt kt0 kp kpp vv / dveq vt kt0 kp kpp vv / (2 : ℝ)

open Classical in
/-- The loop of `BM_Volume`, SolidBMGottschalk.cpp:42-55; the first argument counts the passes left, `vv` is the latest volume (`vvnew`) and
`old` the one before (`vvold`; only its value is used). -/
noncomputable def loop (P vt kt0 kp kpp : TS) : Nat → TS → ℝ → TS
  | 0, vv, _ => vv
  | n + 1, vv, old => if |vv.val - old| > 1e-10 then loop P vt kt0 kp kpp n (step P vt kt0 kp kpp vv) vv.val else vv

/-- `BM_Volume`, SolidBMGottschalk.cpp:31-59: at the first test `vvnew - vvold` is 1, so the first of the 50 passes is always made. -/
noncomputable def volume (P vt kt0 kp kpp vstart : TS) : TS :=
  loop P vt kt0 kp kpp 49 (step P vt kt0 kp kpp vstart) vstart.val

/-- The volume at T and the reference pressure, SolidBMGottschalk.cpp:110-118. -/
noncomputable def refVolume (v0 a1 a2 a3 T Tref : TS) : TS :=
  v0 * TS.exp (a1 * (T - Tref) + a2 / (2 : ℝ) * (T * T - Tref * Tref) + a3 * ((-1 : ℝ) / T + (1 : ℝ) / Tref))

/-- The second derivative of the bulk modulus if none is given, SolidBMGottschalk.cpp:104-106. -/
noncomputable def defaultKpp (kp kt0 : TS) : TS := -(((35 / 9 : ℝ) + ((3 : ℝ) - kp) * ((4 : ℝ) - kp)) / kt0)

/-- The results of `BirchMurnaghan` that are used, SolidBMGottschalk.cpp:66-67: volume, Gibbs energy, enthalpy, entropy. -/
structure Out where
  v : TS
  dG : TS
  dH : TS
  dS : TS

open Classical in
/-- `BirchMurnaghan`, SolidBMGottschalk.cpp:65-145, with `c` = `BMConst`.  `alpha` and `beta`, which the caller does not use, are left out with
the volumes at P ± 0.01 they need. -/
noncomputable def birchMurnaghan (Pref : ℝ) (P Tref T v0 : TS) (c : Nat → ℝ) : Out :=
  let num (x : ℝ) : TS := TS.assign TS.default x
  let Tincr : TS := { num 0 with val := 0.1 }
  let a1 := num (c 0)
  let a2 := num (c 1)
  let a3 := num (c 2)
  let kt00 := num (c 5)
  let dkdt := num (c 6)
  let kp := num (c 7)
  let Tplus := T + Tincr
  let Tminus := T - Tincr
  let kt0 := kt00 + dkdt * (T - Tref)
  let kt0Tplus := kt00 + dkdt * (Tplus - Tref)
  let kt0Tminus := kt00 + dkdt * (Tminus - Tref)
  let given : Prop := ¬ |c 8| < 1e-20
  let kpp := if given then num (c 8) else defaultKpp kp kt0
  let kppTplus := if given then num 0 else defaultKpp kp kt0Tplus
  let kppTminus := if given then num 0 else defaultKpp kp kt0Tminus
  let vt := refVolume v0 a1 a2 a3 T Tref
  let vtTplus := refVolume v0 a1 a2 a3 Tplus Tref
  let vtTminus := refVolume v0 a1 a2 a3 Tminus Tref
  let vstart := vt * TS.exp ((-1 : ℝ) / kt0 * (P - Pref))
  let vv := volume P vt kt0 kp kpp vstart
  let vTplus := volume P vtTplus kt0Tplus kp kppTplus vv
  let vTminus := volume P vtTminus kt0Tminus kp kppTminus vv
  let dG := intVol P (TS.pressure Pref) vt vv kt0 kp kpp
  let dGTplus := intVol P (TS.pressure Pref) vtTplus vTplus kt0Tplus kp kppTplus
  let dGTminus := intVol P (TS.pressure Pref) vtTminus vTminus kt0Tminus kp kppTminus
  let dS := (dGTplus - dGTminus) / ((2 : ℝ) * Tincr)
  { v := vv, dG := dG, dH := dG + T * dS, dS := dS }

open Classical in
/-- `thermoPropertiesMinBMGottschalk`, SolidBMGottschalk.cpp:149-188, without the bounds message of line 185; `c` is `volume_BirchM_coeff`.  With
eight coefficients the ninth is read past the end of the vector. -/
noncomputable def bmGottschalk (TK Pbar : TS) (Tst Pr : ℝ) (ref : TPS) (c : List ℝ) (tps : TPS) : Res TPS :=
  if c.length < 8 then .throw
  else
    let Pst := 0.1 * Pr / 1e5
    let Vst := ref.V
    let T := TS.temperature TK.val
    let P := TS.mulAssignD Pbar 0.1
    if (P - Pst).val ≠ 0 ∨ (T - Tst).val ≠ 0 then
      if c.length = 8 then .ub
      else
        let r := birchMurnaghan Pst P (TS.temperature Tst) T (Vst * (10 : ℝ)) (fun i => c.getD i 0)
        let V := TS.addAssign tps.V (Vst + r.v / (10 : ℝ))
        let S := TS.addAssign tps.S r.dS
        let G := TS.addAssign tps.G r.dG
        let H := TS.addAssign tps.H r.dH
        let U := H - Pbar * V
        .ok { tps with V := V, S := S, G := G, H := H, U := U, A := U - TK * S }
    else .ok tps

/-- `MinBMGottschalk::thermoProperties`, ThermoModelsSubstance.cpp:394-400. -/
noncomputable def bmEntry (T P Tst Pr : ℝ) (ref : TPS) (c : List ℝ) (tps : TPS) : Res TPS :=
  bmGottschalk (TS.temperature T) (pbar P) Tst Pr ref c tps

end ThermoFun.BM
