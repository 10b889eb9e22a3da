import Verif.Model.GemsFlow
import Verif.Model.Saturation

/-!
# The pressure `WaterHGK` leaves in the caller's variable

`WaterHGK` (/repo/ThermoFun/ThermoModelsSolvent.cpp:72-91) converts the caller's variable to bar, calculates, and converts it back.
-/

namespace ThermoFun.Sat

open Engine

/-- What `WaterHGK::propertiesSolvent` and `WaterHGK::thermoPropertiesSubstance` leave in the variable when they return: the pressure
`calculateWaterHGKgems` left, times 1e5, ThermoModelsSolvent.cpp:74-77, 84-88. -/
noncomputable def hgkP (l : Gems.Lvs) (wtr : Gems.Triple) (fuel : ℕ) (T P : ℝ) : ℝ :=
  match Gems.waterHGK l wtr fuel T P with
  | some (.done _ Q) => Q * 1e5
  | _ => P

/-- What they leave in it when `calculateWaterHGKgems` raises: the statement `P *= bar_to_Pa` is not reached, ThermoModelsSolvent.cpp:74-77,
84-88.  (An unknown name of the triple point data raises before the calculation, 76, 86, and leaves P / 1e5; see `hgkThermo`.) -/
noncomputable def hgkE (l : Gems.Lvs) (wtr : Gems.Triple) (fuel : ℕ) (T P : ℝ) : ℝ :=
  match Gems.waterHGK l wtr fuel T P with
  | some (.error Q) => Q
  | _ => P

/-- `WaterHGK::thermoPropertiesSubstance`, ThermoModelsSolvent.cpp:82-91, with the triple point data already found.  Simplification: a
calculation that has not ended after `fuel` rounds counts as `ub`. -/
noncomputable def hgkThermo (l : Gems.Lvs) (wtr : Gems.Triple) (fuel : ℕ) (T P : ℝ) (state : Int) : Res TPS :=
  match Gems.waterHGK l wtr fuel T P with
  | some (.error _) => .throw
  | some (.done s _) =>
    let w := s.thermo state.toNat
    .ok { TPS.default with
      A := TS.assign TS.default w.A, G := TS.assign TS.default w.G, S := TS.assign TS.default w.S, U := TS.assign TS.default w.U
      H := TS.assign TS.default w.H, Cv := TS.assign TS.default w.Cv, Cp := TS.assign TS.default w.Cp, V := TS.assign TS.default w.V }
  | none => .ub

end ThermoFun.Sat
