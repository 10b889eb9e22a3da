import Verif.Model.Json

/-!
# Model of the check of temperature and pressure limits

`checkCalcMethodBounds` of `Substance.cpp` and `Reaction.cpp`, `setMessage` of `Common/Exception.cpp`.  Here the message of a
`StatusMessage` (ThermoScalar.hpp:37) is kept beside the scalar.  `std::to_string` is a parameter `fmt`.
-/

namespace ThermoFun.Bounds

/-- `ThermoScalar` with its message `sta.second`, ThermoScalar.hpp:37-59. -/
structure MS where
  ts : TS
  msg : String

/-- `ThermoPropertiesSubstance`, ThermoProperties.h, with messages. -/
structure TPSM where
  G : MS
  A : MS
  U : MS
  H : MS
  S : MS
  V : MS
  Cp : MS
  Cv : MS

/-- `ThermoPropertiesReaction`, ThermoProperties.h, with messages. -/
structure TPRM where
  lnK : MS
  logK : MS
  G : MS
  A : MS
  U : MS
  H : MS
  S : MS
  V : MS
  Cp : MS
  Cv : MS

/-- The limits of a record: `lower_T`, `lower_P`, `upper_T`, `upper_P`, Substance.cpp:31-45, Reaction.cpp:44-58. -/
structure Limits where
  lowerT : ℝ
  lowerP : ℝ
  upperT : ℝ
  upperP : ℝ

/-- One test of `setMessage`: `if (x.sta.first == sta) x.sta.second += message + "; "`, Exception.cpp:117-118. -/
def addMessage (sta : Status) (message : String) (x : MS) : MS := if x.ts.sta = sta then { x with msg := x.msg ++ (message ++ "; ") } else x

/-- `setMessage` for substances, Exception.cpp:115-133. -/
def setMessage (sta : Status) (message : String) (tps : TPSM) : TPSM where
  H := addMessage sta message tps.H
  S := addMessage sta message tps.S
  G := addMessage sta message tps.G
  Cp := addMessage sta message tps.Cp
  Cv := addMessage sta message tps.Cv
  A := addMessage sta message tps.A
  U := addMessage sta message tps.U
  V := addMessage sta message tps.V

/-- `setMessage` for reactions, Exception.cpp:135-153. -/
def setMessageR (sta : Status) (message : String) (tpr : TPRM) : TPRM where
  lnK := tpr.lnK
  logK := tpr.logK
  H := addMessage sta message tpr.H
  S := addMessage sta message tpr.S
  G := addMessage sta message tpr.G
  Cp := addMessage sta message tpr.Cp
  Cv := addMessage sta message tpr.Cv
  A := addMessage sta message tpr.A
  U := addMessage sta message tpr.U
  V := addMessage sta message tpr.V

/-- The message, Substance.cpp:329-331, Reaction.cpp:350-352. -/
def boundsMessage (fmt : ℝ → String) (modelName : String) (l : Limits) : String :=
  modelName ++ ": out of T(" ++ fmt l.lowerT ++ "-" ++ fmt l.upperT ++ " K) and P(" ++ fmt l.lowerP ++ "-" ++ fmt l.upperP ++ " Pa) bounds"

open Classical in
/-- `Substance::checkCalcMethodBounds`, Substance.cpp:324-335. -/
noncomputable def checkBounds (fmt : ℝ → String) (modelName : String) (l : Limits) (T P : ℝ) (tps : TPSM) : TPSM :=
  if l.upperP < P ∨ l.upperT < T ∨ l.lowerP > P ∨ l.lowerT > T then setMessage .calculated (boundsMessage fmt modelName l) tps else tps

open Classical in
/-- `Reaction::checkCalcMethodBounds`, Reaction.cpp:345-356; no code calls it. -/
noncomputable def checkBoundsR (fmt : ℝ → String) (modelName : String) (l : Limits) (T P : ℝ) (tpr : TPRM) : TPRM :=
  if l.upperP < P ∨ l.upperT < T ∨ l.lowerP > P ∨ l.lowerT > T then setMessageR .calculated (boundsMessage fmt modelName l) tpr else tpr

/-- The call at the end of a model, with the temperature in K and the pressure in bar at which the model is evaluated:
GasCGF.cpp:33, GasPRSV.cpp:32, GasSRK.cpp:33, GasSTP.cpp:37, GasPR78.cpp:33, GasCORK.cpp:38, SolidBerman88.cpp:47, SolidBMGottschalk.cpp:185,
SolidHPLandau.cpp:88, SolidMurnaghanHP98.cpp:61, SoluteHKFgems.cpp:136, SoluteADgems.cpp:102. -/
noncomputable def modelCheck (fmt : ℝ → String) (modelName : String) (l : Limits) (TK Pbar : ℝ) (tps : TPSM) : TPSM :=
  checkBounds fmt modelName l TK (Pbar * 1e5) tps

/-- The call at the end of the reaktoro HKF model, SoluteHKFreaktoro.cpp:140. -/
noncomputable def hkfReaktoroCheck (fmt : ℝ → String) (l : Limits) (TK Pbar : ℝ) (tps : TPSM) : TPSM :=
  checkBounds fmt "HKF model" l (TK - 273.15) Pbar tps

end ThermoFun.Bounds
