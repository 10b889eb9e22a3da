import Verif.Model.Substance
import Verif.Model.Density

/-!
Model of the remaining aqueous solutes: /repo/ThermoFun/Substances/Solute/{SoluteAnderson91,SoluteHollandPowell98,SoluteADgems}.cpp and
their entry points in /repo/ThermoFun/ThermoModelsSubstance.cpp.  `wpr` are the properties of the solvent at its reference state, `wp` those
at (T, P).  The call of `checkCalcMethodBounds` (SoluteADgems.cpp:102) is left out: it only changes the status of the unused argument `tps`.
-/

namespace ThermoFun

/-- `thermoPropertiesAqSoluteAN91`, SoluteAnderson91.cpp:10-49; `T298` is the reference temperature of the substance, `ref` its reference
properties.  Variables computed but not used are left out. -/
noncomputable def anderson91 (T Pbar : TS) (T298 : ℝ) (ref : TPS) (wpr wp : Solv) : TPS :=
  let G298 := ref.G.val
  let H298 := ref.H.val
  let S298 := ref.S.val
  let V298 := ref.V.val
  let Cp298 := ref.Cp.val
  let ALPw298 := wpr.Alpha.val
  let dALPdTw298 := wpr.dAldT.val
  let RHOw298 := wpr.density.val / 1000
  let RHOw := wp.density / (1000 : ℝ)
  let ALPw := wp.Alpha
  let dALPdTw := wp.dAldT
  let Gbb := H298 - T * S298 + (Cp298 / (T298 * dALPdTw298)) * (ALPw298 * (T - T298) + TS.log (RHOw / RHOw298))
  let G := G298 - S298 * (T - T298) + (Cp298 / (T298 * dALPdTw298)) * (ALPw298 * (T - T298) + TS.log (RHOw / RHOw298))
  let S := S298 - (Cp298 * (ALPw298 - ALPw)) / (T298 * dALPdTw298)
  let V := TS.ofVal V298
  let Cp := T * (Cp298 * dALPdTw) / (T298 * dALPdTw298)
  let H := Gbb + T * S298
  let U := H - Pbar * V
  { TPS.default with G := G, V := V, S := S, Cp := Cp, H := H, U := U, A := U - T * S }

/-- `SoluteAnderson91::thermoProperties`, ThermoModelsSubstance.cpp:296-304. -/
noncomputable def anderson91Entry (T P T298 : ℝ) (ref : TPS) (wpr wp : Solv) : TPS :=
  anderson91 (TS.temperature T) (pbar P) T298 ref wpr wp

open Classical in
/-- `Tprime`, SoluteHollandPowell98.cpp:53-56. -/
noncomputable def hp98Tprime (T : TS) : ℝ := if T.val ≤ 500 then T.val else 500

/-- `thermoPropertiesAqSoluteHP98`, SoluteHollandPowell98.cpp:10-74; `coef` is `solute_holland_powell98_coeff`.  `Tprime` is a double. -/
noncomputable def hp98 (T Pbar : TS) (T298 : ℝ) (ref : TPS) (coef : List ℝ) (wpr wp : Solv) : Res TPS :=
  match coef with
  | [] => .throw
  | b :: _ =>
    let G298 := ref.G.val
    let H298 := ref.H.val
    let S298 := ref.S.val
    let V298 := ref.V.val
    let Cp298 := ref.Cp.val
    let ALPw298 := wpr.Alpha.val
    let BETw298 := wpr.Beta.val * 1e5
    let dALPdTw298 := wpr.dAldT.val
    let RHOw298 := wpr.density.val / 1000
    let RHOw := wp.density / (1000 : ℝ)
    let ALPw := wp.Alpha
    let BETw := wp.Beta * (1e5 : ℝ)
    let dALPdTw := wp.dAldT
    let Tprime := hp98Tprime T
    let Gbb := H298 - T * S298 + Pbar * V298 + b * (T298 * T - (T298 ^ 2 / 2 : ℝ) - TS.powR T 2 / (2 : ℝ))
      + ((Cp298 - T298 * b) / (T298 * dALPdTw298))
        * (ALPw298 * (T - T298) - BETw298 * Pbar + (T / Tprime) * TS.log (RHOw / RHOw298))
    let G := G298 - (T - T298) * S298 + Pbar * V298 + b * (T298 * T - (T298 ^ 2 / 2 : ℝ) - TS.powR T 2 / (2 : ℝ))
      + ((Cp298 - T298 * b) / (T298 * dALPdTw298))
        * (ALPw298 * (T - T298) - BETw298 * Pbar + (T / Tprime) * TS.log (RHOw / RHOw298))
    let S := S298 - b * (T298 - T)
      - ((Cp298 - T298 * b) / (T298 * dALPdTw298)) * (ALPw298 - TS.log (RHOw / RHOw298) / Tprime - (T / Tprime) * ALPw)
    let V := V298 + ((Cp298 - T298 * b) / (T298 * dALPdTw298)) * ((-BETw298) + T / Tprime * BETw)
    let Cp := T * (b - ((T298 * b - Cp298) * (T * dALPdTw)) / (T298 * dALPdTw298 * Tprime))
    let H := Gbb + T * S298
    let U := H - Pbar * V
    .ok { TPS.default with G := G, V := V, S := S, Cp := Cp, H := H, U := U, A := U - T * S }

/-- `SoluteHollandPowell98::thermoProperties`, ThermoModelsSubstance.cpp:262-270. -/
noncomputable def hp98Entry (T P T298 : ℝ) (ref : TPS) (coef : List ℝ) (wpr wp : Solv) : Res TPS :=
  hp98 (TS.temperature T) (pbar P) T298 ref coef wpr wp

/-- The five results of `Akinfiev_EOS_increments`, SoluteADgems.cpp:109. -/
structure ADIncr where
  G : TS
  V : TS
  S : TS
  Cp : TS
  H : TS

/-- `Akinfiev_EOS_increments`, SoluteADgems.cpp:107-158: `Gig Sig CPig` of the ideal gas of water, `Gw Sw CPw` of water.  The first line of
the source declares all variables as ThermoScalars; numbers assigned to them carry no derivatives.  `deltaB` and `lnKH` are computed but not
used and are left out. -/
noncomputable def adIncrements (Tk Gig Sig CPig Gw Sw CPw rho alp bet dalpT : TS) (xi' aa' bb' : ℝ) : ADIncr :=
  let RR := TS.assign TS.default 83.1451
  let R_CONST := TS.assign TS.default Rgas
  let MW := TS.assign TS.default 18.01528
  let RT := Tk * R_CONST
  let xi := TS.assign TS.default xi'
  let aa := TS.assign TS.default aa'
  let bb := TS.assign TS.default bb'
  let Gres := Gw - Gig
  let Sres := Sw - Sig
  let CPres := CPw - CPig
  let lnfug := Gres / RT
  let fug := TS.exp lnfug
  let vol := MW / rho
  let drhoT := (-alp) * rho
  let drhoP := bet * rho
  let d2rhoT := rho * (TS.powR alp 2 - dalpT)
  let Nw := (1000 : ℝ) / MW
  let t15 : ℝ := (10 : ℝ) ^ (1.5 : ℝ)
  let Geos := (-R_CONST) * Tk * TS.log Nw + ((1 : ℝ) - xi) * R_CONST * Tk * TS.log fug
    + R_CONST * Tk * xi * TS.log (RR * Tk / MW * rho)
    + R_CONST * Tk * rho * (aa + bb * TS.powR ((1000 : ℝ) / Tk) 0.5)
  let derP := aa * Tk * drhoP + bb * t15 * TS.powR Tk 0.5 * drhoP
  let derT := aa * (rho + Tk * drhoT) + bb * ((0.5 * t15) * TS.powR Tk (-0.5) * rho + t15 * TS.powR Tk 0.5 * drhoT)
  let der2T := aa * ((2 : ℝ) * drhoT + Tk * d2rhoT) + bb * (((-0.25) * t15) * TS.powR Tk (-1.5) * rho
    + t15 * TS.powR Tk (-0.5) * drhoT + t15 * TS.powR Tk 0.5 * d2rhoT)
  let Veos := (vol * ((1 : ℝ) - xi) + xi * RR * Tk * ((1 : ℝ) / rho) * drhoP + RR * derP) / (10 : ℝ)
  let Seos := ((1 : ℝ) - xi) * Sres + R_CONST * TS.log Nw - R_CONST * (xi + xi * TS.log (RR * Tk / MW) + xi * TS.log rho
    + xi * Tk * ((1 : ℝ) / rho) * drhoT) - R_CONST * derT
  let CPeos := ((1 : ℝ) - xi) * CPres - R_CONST * (xi + (2 : ℝ) * xi * Tk * ((1 : ℝ) / rho) * drhoT
    - xi * TS.powR Tk 2 / TS.powR rho 2 * TS.powR drhoT 2 + xi * TS.powR Tk 2 / rho * d2rhoT) - R_CONST * Tk * der2T
  { G := Geos, V := Veos, S := Seos, Cp := CPeos, H := Geos + Tk * Seos }

/-- The call of `Akinfiev_EOS_increments` for one state of water, SoluteADgems.cpp:51-64 and 76-88. -/
noncomputable def adAt (Tk : TS) (xi aa bb : ℝ) (wtp wigp : TPS) (wp : Solv) : ADIncr :=
  adIncrements Tk wigp.G wigp.S wigp.Cp wtp.G wtp.S wtp.Cp (wp.density / (1000 : ℝ)) wp.Alpha (wp.Beta * (1e05 : ℝ)) wp.dAldT xi aa bb

/-- `thermoPropertiesAqSoluteAD`, SoluteADgems.cpp:9-105; `par` is `Cp_nonElectrolyte_coeff`, `tps` the properties from the integration of
the heat capacity, `wtp wigp wp` water, its ideal gas and its density at (T, P), `wtpr wigpr wpr` the same at the reference state.  One or two
coefficients: reading past the end is undefined. -/
noncomputable def akinfievDiamond (Tk Pbar : TS) (par : List ℝ) (tps wtp wigp : TPS) (wp : Solv) (wtpr wigpr : TPS) (wpr : Solv) : Res TPS :=
  match par with
  | [] => .throw
  | xi :: aa :: bb :: _ =>
    let Tr : ℝ := 298.15
    let r := adAt (TS.temperature Tr) xi aa bb wtpr wigpr wpr
    let Gids := TS.subAssign tps.G r.G
    let Sids := TS.subAssign tps.S r.S
    let CPids := tps.Cp
    let Hids := TS.subAssign tps.H r.H
    let e := adAt Tk xi aa bb wtp wigp wp
    let Gids := { Gids with ddp := 0 }
    let Sids := { Sids with ddp := 0 }
    let CPids := { CPids with ddp := 0 }
    let G := Gids + e.G + (r.S.val * (Tk.val - Tr))
    let V := e.V
    let S := Sids + e.S
    let Cp := CPids + e.Cp
    let H := Hids + e.H
    let U := H - Pbar * V
    .ok { tps with G := G, V := V, S := S, Cp := Cp, H := H, U := U, A := U - Tk * S }
  | _ => .ub

/-- `SoluteAkinfievDiamondEOS::thermoProperties`, ThermoModelsSubstance.cpp:119-126. -/
noncomputable def akinfievDiamondEntry (T P : ℝ) (par : List ℝ) (tps wtp wigp : TPS) (wp : Solv) (wtpr wigpr : TPS) (wpr : Solv) : Res TPS :=
  akinfievDiamond (TS.temperature T) (pbar P) par tps wtp wigp wp wtpr wigpr wpr

end ThermoFun
