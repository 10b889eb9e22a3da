import Mathlib.Data.Real.Basic

/-!
The model parameters of substances and reactions, /repo/ThermoFun/ThermoParameters.h.
-/

namespace ThermoFun

/-- `ThermoParametersSubstance`, ThermoParameters.h:74-119, as default-initialised in ParseJsonToData.cpp:330.  Of the members no record is
read into, `pressure_intervals` and `phase_transition_prop_Berman`, which no model uses, are left out; the last three here are such members
which models do use (`volume_coeff`, `volume_BirchM_coeff`, `empirical_coeff`). -/
structure ParamS where
  compressibility : Option ℝ := none
  expansivity : Option ℝ := none
  intervals : List (List ℝ) := []
  cpCoeffs : List (List ℝ) := []
  akinfiev : List ℝ := []
  transitions : List (List ℝ) := []
  landau : List ℝ := []
  hkf : List ℝ := []
  critical : List ℝ := []
  holland : List ℝ := []
  volume : List ℝ := []
  birch : List ℝ := []
  empirical : List ℝ := []

/-- `ThermoParametersReaction`, ThermoParameters.h:123-160; the members no record is read into are left out. -/
structure ParamR where
  logK : List ℝ := []
  cp : List ℝ := []
  vol : List ℝ := []
  rb : List ℝ := []
  fm : List ℝ := []
  dm : List ℝ := []

end ThermoFun
