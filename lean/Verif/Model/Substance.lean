import Verif.Model.TSOps
import Verif.Model.LogK

/-!
Model of the standard-state models of substances: /repo/ThermoFun/Substances/{StandardEntropyCpIntegration,EmpiricalCpIntegration}.cpp,
/repo/ThermoFun/Substances/Solids/*.cpp and the pressure corrections in /repo/ThermoFun/ThermoModelsSubstance.cpp.
Log messages are left out.
-/

namespace ThermoFun

/-- `ThermoPropertiesSubstance`, ThermoProperties.h:19-44. -/
structure TPS where
  G : TS
  A : TS
  U : TS
  H : TS
  S : TS
  V : TS
  Cp : TS
  Cv : TS

/-- Default-constructed properties, ThermoProperties.h:19-44 with ThermoScalar.hpp:62-63. -/
noncomputable def TPS.default : TPS :=
  ⟨TS.default, TS.default, TS.default, TS.default, TS.default, TS.default, TS.default, TS.default⟩

/-- `thermoPropertiesEntropyCpIntegration`, StandardEntropyCpIntegration.cpp:8-37; `pt` is `substance.thermoProperties()`, `ref` the
reference properties, `Tr` the reference temperature.  `TrK` is declared as a `Temperature`. -/
noncomputable def entropyCp (TK : TS) (Tr : ℝ) (pt ref : TPS) : TPS :=
  let TrK := TS.temperature Tr
  let G := if ref.S.has then TS.subAssign ref.G (ref.S * (TK - TrK)) else ref.G
  let S := if ref.Cp.has then TS.addAssign ref.S (ref.Cp * TS.log (TK / TrK)) else ref.S
  let G := if ref.Cp.has then TS.subAssign G (ref.Cp * (TK * TS.log (TK / TrK) - (TK - TrK))) else G
  let H := if ref.Cp.has then TS.addAssign ref.H (ref.Cp * (TK - TrK)) else ref.H
  { pt with Cp := ref.Cp, G := G, H := H, S := S }

/-- `EntropyCpIntegration::thermoProperties(T, P)`, ThermoModelsSubstance.cpp:458-464 (T in K). -/
noncomputable def entropyCpEntry (T Tr : ℝ) (pt ref : TPS) : TPS := entropyCp (TS.temperature T) Tr pt ref

/-! ### Empirical heat capacity -/

/-- The data `thermoPropertiesEmpCpIntegration` reads from a substance. -/
structure CpData where
  /-- `thermo_parameters.Cp_coeff` -/
  coef : List (List ℝ)
  /-- `thermo_parameters.temperature_intervals` -/
  intervals : List (List ℝ)
  /-- `thermo_parameters.phase_transition_prop` -/
  trans : List (List ℝ)
  /-- `substance.referenceT()` -/
  Tr : ℝ
  /-- `substance.thermoReferenceProperties()` -/
  ref : TPS
  /-- `substance.thermoProperties()` -/
  pt : TPS

/-- The coefficient array `ac[16]`, EmpiricalCpIntegration.cpp:21-26. -/
abbrev AC := Nat → ℝ

/-- The copying loops, EmpiricalCpIntegration.cpp:75-80, 136-141: entries beyond the end of `c` keep their old value. -/
noncomputable def loadAC (ac : AC) (c : List ℝ) : AC := fun i => if i < c.length ∧ i < 16 then c.getD i 0 else ac i

open Classical in
/-- The interval search, EmpiricalCpIntegration.cpp:45-59, from interval number `i` on; `k` is the index so far (`none` is -1).
`[1]` of an interval with one entry is out of range. -/
noncomputable def searchGo (T : ℝ) : List (List ℝ) → Nat → Option Nat → Res (Option Nat)
  | [], _, k => .ok k
  | [] :: t, i, _ => searchGo T t (i + 1) (some 0)
  | [a] :: t, i, k => if a ≤ T then .ub else searchGo T t (i + 1) k
  | (a :: b :: _) :: t, i, k => if a ≤ T ∧ b > T then .ok (some i) else searchGo T t (i + 1) k

open Classical in
/-- The index used, EmpiricalCpIntegration.cpp:45-75: outside all intervals the first or the last; still -1 between intervals or at the
upper end of the last, where `Cp_coeff[k]` is out of range. -/
noncomputable def selectInterval (T : ℝ) (iv : List (List ℝ)) : Res Nat := do
  match ← searchGo T iv 0 none with
  | some k => .ok k
  | none =>
    match iv.head?, iv.getLast? with
    | some (a :: _), some (_ :: b :: _) =>
      if T > b then .ok (iv.length - 1) else if T ≤ a then .ok 0 else .ub
    | _, _ => .ub

/-- The heat capacity, EmpiricalCpIntegration.cpp:82-91; `(1 / 2)` is an integer division. -/
noncomputable def empCp (ac : AC) (TK : TS) : TS :=
  ac 0 + ac 1 * TK + ac 2 / (TK * TK) + ac 3 / (TS.powR TK 0.5) + ac 4 * (TK * TK) + ac 5 * (TK * TK * TK)
    + ac 6 * (TK * TK * TK * TK) + ac 7 / (TK * TK * TK) + ac 8 / TK + ac 9 * (TS.powR TK 0)

/-- The entropy increment, EmpiricalCpIntegration.cpp:143-152. -/
noncomputable def empS (ac : AC) (TK : TS) (TrK : ℝ) : TS :=
  let Tst2 := TrK * TrK
  let Tst3 := Tst2 * TrK
  let Tst4 := Tst3 * TrK
  let Tst05 := Real.sqrt TrK
  ac 0 * TS.log (TK / TrK)
    + ac 1 * (TK - TrK)
    + ac 2 * ((1 / Tst2 : ℝ) - (1 : ℝ) / (TK * TK)) / (2 : ℝ)
    + (ac 3 * 2) * ((1 / Tst05 : ℝ) - (1 : ℝ) / (TS.powR TK 0.5))
    + ac 4 * ((TK * TK) - Tst2) / (2 : ℝ)
    + ac 5 * (TS.powR TK 3 - Tst3) / (3 : ℝ)
    + ac 6 * (TS.powR TK 4 - Tst4) / (4 : ℝ)
    + ac 7 * ((1 / Tst3 : ℝ) - (1 : ℝ) / (TS.powR TK 3)) / (3 : ℝ)
    + ac 8 * ((1 / TrK : ℝ) - (1 : ℝ) / TK)
    + (ac 9 * 2) * (TS.powR TK 0.5 - Tst05)

/-- The Gibbs energy decrement, EmpiricalCpIntegration.cpp:154-163. -/
noncomputable def empG (ac : AC) (TK : TS) (TrK : ℝ) : TS :=
  let Tst2 := TrK * TrK
  let Tst3 := Tst2 * TrK
  let Tst4 := Tst3 * TrK
  let Tst05 := Real.sqrt TrK
  ac 0 * (TK * TS.log (TK / TrK) - (TK - TrK))
    + ac 1 * (TS.powR (TK - TrK) 2) / (2 : ℝ)
    + ac 2 * (TS.powR (TK - TrK) 2) / TK / Tst2 / (2 : ℝ)
    + (ac 3 * 2) * (TS.powR TK 0.5 - Tst05) * (TS.powR TK 0.5 - Tst05) / Tst05
    + ac 4 * (TS.powR TK 3 + (2 * Tst3 : ℝ) - (3 : ℝ) * TK * Tst2) / (6 : ℝ)
    + ac 5 * (TS.powR TK 4 + (3 * Tst4 : ℝ) - (4 : ℝ) * TK * Tst3) / (12 : ℝ)
    + ac 6 * (TS.powR TK 4 * TK + (4 * Tst4 * TrK : ℝ) - (5 : ℝ) * TK * Tst4) / (20 : ℝ)
    + ac 7 * (Tst3 - (3 : ℝ) * TS.powR TK 2 * TrK + (2 : ℝ) * TS.powR TK 3) / (6 : ℝ) / TS.powR TK 2 / Tst3
    + ac 8 * ((TK / TrK) - (1 : ℝ) - TS.log (TK / TrK))
    + (ac 9 * 2) * ((2 : ℝ) * TK * TS.powR TK 0.5 - (3 : ℝ) * TK * Tst05 + (TrK * Tst05 : ℝ)) / (3 : ℝ)

/-- The enthalpy increment, EmpiricalCpIntegration.cpp:165-174. -/
noncomputable def empH (ac : AC) (TK : TS) (TrK : ℝ) : TS :=
  let Tst2 := TrK * TrK
  let Tst3 := Tst2 * TrK
  let Tst4 := Tst3 * TrK
  let Tst05 := Real.sqrt TrK
  ac 0 * (TK - TrK)
    + ac 1 * (TS.powR TK 2 - Tst2) / (2 : ℝ)
    + ac 2 * ((1 / TrK : ℝ) - (1 : ℝ) / TK)
    + (ac 3 * 2) * (TS.powR TK 0.5 - Tst05)
    + ac 4 * (TS.powR TK 3 - Tst3) / (3 : ℝ)
    + ac 5 * (TS.powR TK 4 - Tst4) / (4 : ℝ)
    + ac 6 * (TS.powR TK 4 * TK - (Tst4 * TrK : ℝ)) / (5 : ℝ)
    + ac 7 * ((1 / Tst2 : ℝ) - (1 : ℝ) / (TS.powR TK 2)) / (2 : ℝ)
    + ac 8 * TS.log (TK / TrK)
    + (ac 9 * 2) * (TK * TS.powR TK 0.5 - (TrK * Tst05 : ℝ)) / (3 : ℝ)

/-- The variables of the loop, EmpiricalCpIntegration.cpp:18-36, 93. -/
structure EmpSt where
  ac : AC
  ft : Nat
  S : TS
  G : TS
  H : TS
  V : TS

/-- `v[i][j]` of a table (EmpiricalCpIntegration.cpp:98, 103, 122), out of range is undefined behaviour. -/
def cell (v : List (List ℝ)) (i j : Nat) : Res ℝ :=
  match v[i]? with
  | some r => match r[j]? with
    | some x => .ok x
    | none => .ub
  | none => .ub

open Classical in
/-- Adding a phase transition, EmpiricalCpIntegration.cpp:113-132; `TrK` is the lower end of interval `j`. -/
noncomputable def empTrans (d : CpData) (j : Nat) (TrK : ℝ) (st : EmpSt) : Res EmpSt := do
  if j = 0 then .ok st
  else if d.trans.length = 0 then .throw
  else
    let t0 ← cell d.trans st.ft 0
    if t0 ≤ TrK then
      let r := d.trans.getD st.ft []
      let S := if r.length > 1 then TS.addAssignD st.S (r.getD 1 0) else st.S
      let H := if r.length > 2 then TS.addAssignD st.H (r.getD 2 0) else st.H
      let V := if r.length > 3 then TS.addAssignD st.V (r.getD 3 0) else st.V
      .ok { st with S := S, H := H, V := V, ft := st.ft + 1 }
    else .ok st

/-- One round of the loop, EmpiricalCpIntegration.cpp:95-174, for interval `j`, `k` the interval of the temperature `T`.  Assigning a
number to the variable `TK` of type `Temperature` makes it a temperature again. -/
noncomputable def empStep (d : CpData) (T : ℝ) (k j : Nat) (st : EmpSt) : Res EmpSt := do
  let t ← (if j = k then Res.ok T else cell d.intervals j 1)
  let TrK ← (if j = 0 then Res.ok d.Tr else cell d.intervals j 0)
  let TK := TS.temperature t
  let st ← empTrans d j TrK st
  let G := TS.subAssign st.G (st.S * (TK - TrK))
  match d.coef[j]? with
  | none => .ub
  | some c =>
    let ac := loadAC st.ac c
    .ok { st with ac := ac, S := TS.addAssign st.S (empS ac TK TrK), G := TS.subAssign G (empG ac TK TrK),
                  H := TS.addAssign st.H (empH ac TK TrK) }

/-- The rounds for the intervals below `n`, EmpiricalCpIntegration.cpp:93. -/
noncomputable def empLoop (d : CpData) (T : ℝ) (k : Nat) (st0 : EmpSt) : Nat → Res EmpSt
  | 0 => .ok st0
  | n + 1 => do
    let st ← empLoop d T k st0 n
    empStep d T k n st

/-- `thermoPropertiesEmpCpIntegration`, EmpiricalCpIntegration.cpp:11-262. -/
noncomputable def empCpIntegration (d : CpData) (T : ℝ) : Res TPS := do
  if d.coef.length = 0 then .throw
  else
    let k ← selectInterval T d.intervals
    match d.coef[k]? with
    | none => .ub
    | some c =>
      let ac := loadAC (fun _ => 0) c
      let Cp := empCp ac (TS.temperature T)
      let st ← empLoop d T k ⟨ac, 0, d.ref.S, d.ref.G, d.ref.H, TS.assign TS.default 0⟩ (k + 1)
      .ok { d.pt with Cp := Cp, G := st.G, H := st.H, S := st.S, V := st.V }

/-! ### Pressure corrections -/

/-- The pressure in bar, as all entry points of ThermoModelsSubstance.cpp make it: `p /= bar_to_Pa`. -/
noncomputable def pbar (P : ℝ) : TS := TS.divAssignD (TS.pressure P) 1e5

/-- `applyPressure`, ThermoModelsSubstance.cpp:498-505. -/
noncomputable def applyPressure (tps : TPS) (t p : TS) (pr : ℝ) : TPS :=
  let G := TS.addAssign tps.G (tps.V * (p - (pr / 1e5)))
  let H := TS.addAssign tps.H (tps.V * (p - (pr / 1e5)))
  let U := H - p * tps.V
  { tps with G := G, H := H, U := U, A := U - t * tps.S }

/-- `ConMolVol::thermoProperties`, ThermoModelsSubstance.cpp:741-758. -/
noncomputable def conMolVol (T P : ℝ) (ref : TPS) (Pr : ℝ) (tps : TPS) : TPS :=
  let t := TS.temperature T
  let p := pbar P
  if ref.V.has then
    let dV := ref.V * (p - (Pr / 1e5))
    let G := TS.addAssign tps.G dV
    let H := TS.addAssign tps.H dV
    let U := H - p * ref.V
    { tps with V := ref.V, G := G, H := H, U := U, A := U - t * tps.S }
  else tps

open Classical in
/-- `IdealGasLawVol::thermoProperties`, ThermoModelsSubstance.cpp:784-798; `gas` is the test for the class GASFLUID. -/
noncomputable def idealGasLawVol (T P : ℝ) (gas : Bool) (Pr : ℝ) (tps : TPS) (applyP : Bool) : TPS :=
  let t := TS.temperature T
  let p := pbar P
  let tps := if gas = true ∧ P > 0 then { tps with V := t / p * Rgas } else tps
  if applyP then applyPressure tps t p Pr else tps

/-! ### Solids -/

open Classical in
/-- `thermoPropertiesMinBerman88`, SolidBerman88.cpp:9-57, without the bounds message of its last line; `Ts2` is `Tst*Tst`. -/
noncomputable def berman88 (TK Pbar : TS) (Tst Pr : ℝ) (ref : TPS) (vc : List ℝ) (tps : TPS) : Res TPS :=
  if vc.length ≠ 5 then .throw
  else match vc with
    | [v0, v1, v2, v3, v4] =>
      let Pst := Pr / 1e5
      let Vst := ref.V
      let T := TK
      let P := Pbar
      let Ts2 := Tst * Tst
      let tps := { tps with V := ref.V }
      if (P - Pst).val ≠ 0 ∨ (T - Tst).val ≠ 0 then
        let VP := Vst * (P - Pst)
        let VT := Vst * (T - Tst)
        let G := TS.addAssign tps.G VP
        let H := TS.addAssign tps.H VP
        let V := TS.addAssign tps.V (v0 * VT + v1 * VT * (T - Tst) + v2 * VT * Ts2 + v3 * VP + v4 * VP * (P - Pst))
        let S := TS.addAssign tps.S ((-v0) * VP - v1 * VP * (2 : ℝ) * (T - Tst) - v2 * VP * (3 : ℝ) * Ts2)
        let G := TS.addAssign G (v0 * (T - Tst) * VP + v1 * VP * Ts2 + v2 * VP * Ts2 * (T - Tst) + v3 * VP * (P - Pst) / (2 : ℝ)
          + v4 * VP * ((P - Pst) * (P - Pst)) / (3 : ℝ))
        let H := TS.addAssign H ((-v0 * Tst) * VP - v1 * VP * (T + Tst) * (T - Tst) + v2 * VP * Ts2 * ((2 : ℝ) * T + Tst)
          + v3 * VP * (P - Pst) / (2 : ℝ) + v4 * VP * ((P - Pst) * (P - Pst)) / (3 : ℝ))
        let U := H - Pbar * V
        .ok { tps with G := G, H := H, V := V, S := S, U := U, A := U - TK * S }
      else .ok tps
    | _ => .ub

open Classical in
/-- `thermoPropertiesMinMurnaghanEOSHP98`, SolidMurnaghanHP98.cpp:8-64, without the bounds message of its last line; `k0` is
`isothermal_compresibility`, `a` `isobaric_expansivity`. -/
noncomputable def murnaghan (TK Pbar : TS) (Tst Pr : ℝ) (ref : TPS) (k0 a : ℝ) (tps : TPS) : TPS :=
  let Pst := Pr / 1e5
  let Vst := ref.V
  let a0 := a * 1e-5
  let Pk := Pbar / (1000 : ℝ)
  if ((Pbar - Pst).val ≠ 0 ∨ (TK - Tst).val ≠ 0) ∧ |Vst.val| > 1e-9 ∧ |a0| > 1e-9 ∧ |k0| > 1e-9 then
    let kap := k0 * ((1 : ℝ) - (1.5e-4 : ℝ) * (TK - Tst))
    let Vt := Vst * ((1 : ℝ) + a0 * (TK - Tst) - (20 * a0 : ℝ) * (TS.powR TK 0.5 - Tst ^ (0.5 : ℝ)))
    let q := (1 : ℝ) + (4 : ℝ) * Pk / kap
    let dg := (1 / 3 : ℝ) * Vt * kap * (TS.powR q 0.75 - (1 : ℝ)) * (1000 : ℝ)
    let ds := -((Vst * kap / (3 : ℝ)) * (a0 - (10 * a0 : ℝ) * TS.powR TK (-0.5)) * (TS.powR q 0.75 - (1 : ℝ))
        - (Vt * k0 / (3 : ℝ)) * (1.5e-4 : ℝ) * (TS.powR q 0.75 - (1 : ℝ))
        + Vt * Pk * (1.5e-4 : ℝ) / ((1 : ℝ) - (1.5e-4 : ℝ) * (TK - Tst)) * TS.powR q (-0.25)) * (1000 : ℝ)
    let dh := dg + TK * ds
    let dv := Vt * TS.powR ((1 : ℝ) - (4 : ℝ) * Pk / (kap + (4 : ℝ) * Pk)) 0.25
    let dcp := (-TK) * ((5 / 3 : ℝ) * Vst * a0 * kap / TS.powR TK 1.5 * (TS.powR q 0.75 - (1 : ℝ))
        - (2 / 3 : ℝ) * Vst * (a0 - (10 * a0 : ℝ) / TS.powR TK 0.5) * k0 * (1.5e-4 : ℝ) * (TS.powR q 0.75 - (1 : ℝ))
        + (2 : ℝ) * Vst * (a0 - (10 * a0 : ℝ) / TS.powR TK 0.5) * Pk * (1.5e-4 : ℝ) / ((1 : ℝ) - (1.5e-4 : ℝ) * (TK - Tst))
          * TS.powR q (-0.25)
        - Vt * TS.powR Pk 2 * ((1.5e-4 : ℝ) ^ (2 : ℝ)) / (TS.powR ((1 : ℝ) - (1.5e-4 : ℝ) * (TK - Tst)) 3 * k0)
          * TS.powR q (-1.25)) * (1000 : ℝ)
    let G := TS.addAssign tps.G dg
    let S := TS.addAssign tps.S ds
    let H := TS.addAssign tps.H dh
    let V := TS.addAssign tps.V dv
    let Cp := TS.addAssign tps.Cp dcp
    let U := H - Pbar * V
    { tps with G := G, S := S, H := H, V := V, Cp := Cp, U := U, A := U - TK * S }
  else
    let G := TS.addAssign tps.G (Vst * (Pbar - Pst))
    let H := TS.addAssign tps.H (Vst * (Pbar - Pst))
    let U := H - Pbar * Vst
    { tps with V := Vst, G := G, H := H, U := U, A := U - TK * tps.S }

open Classical in
/-- `thermoPropertiesHPLandau`, SolidHPLandau.cpp:9-91, without the bounds message of its last line.  When `Qq` and `dQq` are both zero
the source uses plain zeros in their place. -/
noncomputable def landau (TK Pbar : TS) (TrK : ℝ) (transProp : List ℝ) (k298 a : ℝ) (tps : TPS) : Res TPS :=
  match transProp with
  | Tcr0c :: Smax' :: Vmax :: _ =>
    let a0 := a * 1e-5
    let Smax := if Smax' ≤ 0 then 1.0e-20 else Smax'
    let zero := TS.assign TS.default 0
    let Tcr := if Vmax = 0 then TS.assign TS.default Tcr0c else Tcr0c + (Vmax / Smax : ℝ) * Pbar
    let Tcr := TS.addAssignD Tcr 273.15
    let Tcr0 := Tcr0c + 273.15
    let Q298 := (1 - TrK / Tcr0) ^ (0.25 : ℝ)
    let Qq := if TK.val < Tcr.val then TS.powR ((1 : ℝ) - TK / Tcr) 0.25 else zero
    let dQq := if TK.val < Tcr.val then
        (-TK) * Vmax / ((4 : ℝ) * TS.powR ((1 : ℝ) + TK / Tcr) 0.75 * TS.powR Tcr 2 * Smax) else zero
    let kT := k298 * ((1 : ℝ) - (1.5e-4 : ℝ) * (TK - TrK))
    let Pk := Pbar / (1000 : ℝ)
    let Q2 := Q298 ^ (2 : ℝ)
    let vbis := (Vmax * Q2) * ((1 : ℝ) + a0 * (TK - TrK) - (20 * a0 : ℝ) * (TS.sqrt TK - Real.sqrt TrK))
    let q := (1 : ℝ) + (4 : ℝ) * Pk / kT
    let ivdp := (vbis * kT / (3 : ℝ)) * (TS.powR q 0.75 - (1 : ℝ)) * (1000 : ℝ)
    let idvdtdp := (((Vmax * Q2) * kT / (3 : ℝ)) * (a0 - (10 * a0 : ℝ) * TS.powR TK (-0.5)) * (TS.powR q 0.75 - (1 : ℝ))
        - (vbis * k298 / (3 : ℝ)) * (1.5e-4 : ℝ) * (TS.powR q 0.75 - (1 : ℝ))
        + vbis * Pk * (1.5e-4 : ℝ) / ((1 : ℝ) - (1.5e-4 : ℝ) * (TK - TrK)) * TS.powR q (-0.25)) * (1000 : ℝ)
    let smq := Smax * Tcr0 * (Q2 - Q298 ^ (6 : ℝ) / 3)
    let r := if Qq.val = 0 ∧ dQq.val = 0 then
        { tps with
          G := TS.addAssign tps.G (smq - TK * Smax * Q2 + ivdp
            + Smax * ((TK - Tcr) * (0 : ℝ) ^ (2 : ℝ) + Tcr * (0 : ℝ) ^ (6 : ℝ) / (3 : ℝ))),
          S := TS.addAssign tps.S ((Smax * (Q2 - (0 : ℝ) ^ (2 : ℝ)) : ℝ) - idvdtdp),
          H := TS.addAssign tps.H (smq - Smax * Tcr * ((0 : ℝ) ^ (2 : ℝ) - (0 : ℝ) ^ (6 : ℝ) / 3 : ℝ) + ivdp - TK * idvdtdp),
          V := vbis + (2 * Smax) * (TK - Tcr) * (0 : ℝ) * (0 : ℝ) - (Smax * (0 : ℝ) ^ (2 : ℝ) * Vmax / Smax : ℝ)
            + Tcr * (0 : ℝ) ^ (2 : ℝ) * (0 : ℝ) + (Vmax / Smax * (0 : ℝ) ^ (3 : ℝ) / 3 : ℝ) }
      else
        { tps with
          G := TS.addAssign tps.G (smq - TK * Smax * Q2 + ivdp
            + Smax * ((TK - Tcr) * TS.powR Qq 2 + Tcr * TS.powR Qq 6 / (3 : ℝ))),
          S := TS.addAssign tps.S (Smax * (Q2 - TS.powR Qq 2) - idvdtdp),
          H := TS.addAssign tps.H (smq - Smax * Tcr * (TS.powR Qq 2 - TS.powR Qq 6 / (3 : ℝ)) + ivdp - TK * idvdtdp),
          V := vbis + (2 * Smax) * (TK - Tcr) * Qq * dQq - Smax * TS.powR Qq 2 * Vmax / Smax
            + Tcr * TS.powR Qq 2 * dQq + (Vmax / Smax) * TS.powR Qq 3 / (3 : ℝ) }
    let Cp := if TK.val < Tcr.val then
        TS.addAssign r.Cp (TK * Smax / ((2 : ℝ) * TS.sqrt Tcr * TS.sqrt (Tcr - TK))) else r.Cp
    let U := r.H - Pbar * r.V
    .ok { r with Cp := Cp, U := U, A := U - TK * r.S }
  | _ => .throw

end ThermoFun
