import Verif.Model.ThermoScalar

/-!
Infix notation for the ThermoScalar operators, so that formulas in the models read like the C++ source.  One instance per
C++ overload (ThermoScalar.hpp:293-398); nothing new is computed here.
-/

namespace ThermoFun

/-- ThermoScalar.hpp:293-297. -/
noncomputable instance : HAdd TS TS TS := ⟨TS.add⟩
/-- ThermoScalar.hpp:299-303. -/
noncomputable instance : HAdd ℝ TS TS := ⟨TS.addL⟩
/-- ThermoScalar.hpp:305-309. -/
noncomputable instance : HAdd TS ℝ TS := ⟨TS.addR⟩
/-- ThermoScalar.hpp:312-316. -/
noncomputable instance : Neg TS := ⟨TS.neg⟩
/-- ThermoScalar.hpp:319-323. -/
noncomputable instance : HSub TS TS TS := ⟨TS.sub⟩
/-- ThermoScalar.hpp:326-330. -/
noncomputable instance : HSub TS ℝ TS := ⟨TS.subR⟩
/-- ThermoScalar.hpp:333-337. -/
noncomputable instance : HSub ℝ TS TS := ⟨TS.subL⟩
/-- ThermoScalar.hpp:340-349. -/
noncomputable instance : HMul TS TS TS := ⟨TS.mul⟩
/-- ThermoScalar.hpp:352-359. -/
noncomputable instance : HMul ℝ TS TS := ⟨TS.mulL⟩
/-- ThermoScalar.hpp:362-366. -/
noncomputable instance : HMul TS ℝ TS := ⟨TS.mulR⟩
/-- ThermoScalar.hpp:369-380. -/
noncomputable instance : HDiv TS TS TS := ⟨TS.div⟩
/-- ThermoScalar.hpp:383-391. -/
noncomputable instance : HDiv ℝ TS TS := ⟨TS.divL⟩
/-- ThermoScalar.hpp:394-398. -/
noncomputable instance : HDiv TS ℝ TS := ⟨TS.divR⟩

end ThermoFun
