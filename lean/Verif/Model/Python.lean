import Mathlib.Data.List.Basic

/-!
# The Python module

The functions and attributes that `PyThermoFun` offers, with their C++ types, the conversion of Python values by pybind11, the choice among
functions of one name, and the lifetime of the objects handed out. pybind11 itself is not part of the repository: its rules are modelled
from its documentation ("Functions", "Type conversions", "Return value policies"), for arguments given by position.
-/

namespace ThermoFun.Py

/-- The C++ types in the signatures that the files python/src/thermofun/pyDatabase.cpp:37-110, pyThermoEngine.cpp:36-136 and the others
export. References and `const` are dropped: pybind11 converts to a temporary. -/
inductive CType
  | double | int | size | bool | string | void
  | cls (n : String)
  | enum (n : String)
  | vec (t : CType)
  | map (k v : CType)
  | pair (a b : CType)
  deriving DecidableEq, Repr

/-- Python values, as pyThermoBatch.cpp:59-95 and the other files receive them. The value of a `float` does not matter for the conversions; a
tuple is a list here; `obj n` is an instance of an exported class or enumeration. -/
inductive Val
  | none
  | bool (b : Bool)
  | int (i : Int)
  | float
  | str (s : String)
  | bytes
  | list (l : List Val)
  | dict (l : List (Val × Val))
  | obj (n : String)

/-- One exported function, python/src/thermofun: the class it belongs to (empty: the module), its name, the types of its arguments without `self`,
the type of its result, and whether its file includes pybind11/stl.h (pyDatabase.cpp:26). -/
structure Def where
  owner : String
  name : String
  params : List CType
  ret : CType
  stl : Bool
  deriving DecidableEq, Repr

/-- The classes and enumerations the module registers: PyThermoFun.cpp:27-46 calls the export functions of these (and not `exportTemperature`
and `exportPressure` of Common/pyThermoScalar.cpp:59-77). -/
def registered : List String :=
  ["ThermoScalar", "Status", "ThermoPropertiesSubstance", "ThermoPropertiesReaction", "ElectroPropertiesSolvent", "PropertiesSolvent",
   "ThermoParametersReaction", "ThermoParametersSubstance", "ThermoEngine", "EnginePreferences", "EngineConventions", "ThermoBatch",
   "BatchPreferences", "Output", "Database", "DatabaseConventions", "Substance", "Reaction", "Element"]

/-- Whether pybind11 converts a Python value to an argument of a C++ type, for the functions of PyThermoFun.cpp:27-46. `c`: implicit conversions
are allowed. A `float` is taken for a `double`, an integer or truth value only with `c`; a `float` never for an integer; integers must fit;
text and bytes for a string; containers need pybind11/stl.h, and text is not a container; an object must be of the registered class.
Simplified: no objects with `__float__`, `__index__`, `__bool__` or `__getitem__` of their own. -/
def accepts (reg : List String) (stl c : Bool) : CType → Val → Bool
  | .double, .float => true
  | .double, .int _ => c
  | .double, .bool _ => c
  | .int, .int i => decide (-2147483648 ≤ i ∧ i ≤ 2147483647)
  | .int, .bool _ => true
  | .size, .int i => decide (0 ≤ i ∧ i < 18446744073709551616)
  | .size, .bool _ => true
  | .bool, .bool _ => true
  | .bool, .none => c
  | .bool, .int _ => c
  | .bool, .float => c
  | .string, .str _ => true
  | .string, .bytes => true
  | .cls n, .obj m => decide (n = m) && reg.contains n
  | .enum n, .obj m => decide (n = m) && reg.contains n
  | .vec t, .list l => stl && l.all fun v => accepts reg stl c t v
  | .map k t, .dict l => stl && l.all fun p => accepts reg stl c k p.1 && accepts reg stl c t p.2
  | .pair a b, .list [u, v] => accepts reg stl c a u && accepts reg stl c b v
  | _, _ => false

/-- Whether pybind11 converts a result of a C++ type to Python, for the functions of PyThermoFun.cpp:27-46: a class or enumeration must be
registered, a container needs pybind11/stl.h. -/
def castable (reg : List String) (stl : Bool) : CType → Bool
  | .cls n => reg.contains n
  | .enum n => reg.contains n
  | .vec t => stl && castable reg stl t
  | .map k v => stl && (castable reg stl k && castable reg stl v)
  | .pair a b => castable reg stl a && castable reg stl b
  | _ => true

/-- All arguments are converted, and their number is right (pyThermoBatch.cpp:59-95 has no default arguments; the ones of the C++ functions are
dropped by taking their address, pyThermoEngine.cpp:41-71 repeats them as functions of their own). -/
def takes (reg : List String) (c : Bool) (d : Def) (args : List Val) : Bool :=
  args.length == d.params.length && (d.params.zip args).all fun p => accepts reg d.stl c p.1 p.2

/-- What comes of a call from Python (PyThermoFun.cpp:23-57): the function ran and its result was handed over, the function ran and its result
could not be converted (`TypeError` after the fact), or no function of the name takes the arguments (`TypeError`). -/
inductive Call
  | ran (d : Def)
  | lost (d : Def)
  | refused
  deriving DecidableEq

/-- The function called has run; its result is converted (PyThermoFun.cpp:23-57). -/
def finish (reg : List String) (d : Def) : Call := if castable reg d.stl d.ret then .ran d else .lost d

/-- The choice among the functions of one name, in the order of their definition (pyThermoEngine.cpp:98-111, pyThermoBatch.cpp:72-85): the first
that takes the arguments without conversions, otherwise the first that takes them with conversions. -/
def dispatch (reg : List String) (ovs : List Def) (args : List Val) : Call :=
  match ovs.find? (takes reg false · args) with
  | some d => finish reg d
  | none => match ovs.find? (takes reg true · args) with
    | some d => finish reg d
    | none => .refused

/-- The functions of a class from its methods and attributes; an attribute `x` (`def_readwrite`) counts as the functions `get x` and `set x`,
pyThermoProperties.cpp:34-43. -/
def cls (stl : Bool) (owner : String) (ms : List (String × List CType × CType)) (as : List (String × CType)) : List Def :=
  ms.map (fun m => ⟨owner, m.1, m.2.1, m.2.2, stl⟩) ++
    as.flatMap fun a => [⟨owner, "get " ++ a.1, [], a.2, stl⟩, ⟨owner, "set " ++ a.1, [a.2], .void, stl⟩]

/-- What Python sees of `ThermoScalar`, Common/pyThermoScalar.cpp:47-55, with the types of Common/ThermoScalar.hpp. -/
def expThermoScalar : List Def := cls true "ThermoScalar"
  [("__init__", [], .void), ("__init__", [.double], .void),
   ("__init__", [.double, .double, .double, .double, (.pair (.enum "Status") .string)], .void)]
  [("val", .double), ("ddt", .double), ("ddp", .double), ("err", .double), ("sta", (.pair (.enum "Status") .string))]

/-- What Python sees of `ThermoPropertiesSubstance`, pyThermoProperties.cpp:34-43, with the types of ThermoProperties.h; compiled without pybind11/stl.h. -/
def expThermoPropertiesSubstance : List Def := cls false "ThermoPropertiesSubstance"
  [("__init__", [], .void)]
  [("gibbs_energy", (.cls "ThermoScalar")), ("helmholtz_energy", (.cls "ThermoScalar")),
   ("internal_energy", (.cls "ThermoScalar")), ("enthalpy", (.cls "ThermoScalar")), ("entropy", (.cls "ThermoScalar")),
   ("volume", (.cls "ThermoScalar")), ("heat_capacity_cp", (.cls "ThermoScalar")), ("heat_capacity_cv", (.cls "ThermoScalar"))]

/-- What Python sees of `ThermoPropertiesReaction`, pyThermoProperties.cpp:49-60, with the types of ThermoProperties.h; compiled without pybind11/stl.h. -/
def expThermoPropertiesReaction : List Def := cls false "ThermoPropertiesReaction"
  [("__init__", [], .void)]
  [("ln_equilibrium_constant", (.cls "ThermoScalar")), ("log_equilibrium_constant", (.cls "ThermoScalar")),
   ("reaction_gibbs_energy", (.cls "ThermoScalar")), ("reaction_helmholtz_energy", (.cls "ThermoScalar")),
   ("reaction_internal_energy", (.cls "ThermoScalar")), ("reaction_enthalpy", (.cls "ThermoScalar")),
   ("reaction_entropy", (.cls "ThermoScalar")), ("reaction_volume", (.cls "ThermoScalar")),
   ("reaction_heat_capacity_cp", (.cls "ThermoScalar")), ("reaction_heat_capacity_cv", (.cls "ThermoScalar"))]

/-- What Python sees of `ElectroPropertiesSolvent`, pyThermoProperties.cpp:66-79, with the types of ThermoProperties.h; compiled without pybind11/stl.h. -/
def expElectroPropertiesSolvent : List Def := cls false "ElectroPropertiesSolvent"
  [("__init__", [], .void)]
  [("epsilon", (.cls "ThermoScalar")), ("epsilonT", (.cls "ThermoScalar")), ("epsilonP", (.cls "ThermoScalar")),
   ("epsilonTT", (.cls "ThermoScalar")), ("epsilonTP", (.cls "ThermoScalar")), ("epsilonPP", (.cls "ThermoScalar")),
   ("bornZ", (.cls "ThermoScalar")), ("bornY", (.cls "ThermoScalar")), ("bornQ", (.cls "ThermoScalar")),
   ("bornN", (.cls "ThermoScalar")), ("bornU", (.cls "ThermoScalar")), ("bornX", (.cls "ThermoScalar"))]

/-- What Python sees of `PropertiesSolvent`, pyThermoProperties.cpp:85-109, with the types of ThermoProperties.h; compiled without pybind11/stl.h. -/
def expPropertiesSolvent : List Def := cls false "PropertiesSolvent"
  [("__init__", [], .void)]
  [("speed_of_sound", .double), ("dynamic_viscosity", .double), ("thermal_conductivity", .double), ("surface_tension", .double),
   ("Tdiff", .double), ("Prndtl", .double), ("Visck", .double), ("Alpha", (.cls "ThermoScalar")),
   ("dAldT", (.cls "ThermoScalar")), ("Beta", (.cls "ThermoScalar")), ("Albe", (.cls "ThermoScalar")),
   ("density", (.cls "ThermoScalar")), ("densityT", (.cls "ThermoScalar")), ("densityP", (.cls "ThermoScalar")),
   ("densityTT", (.cls "ThermoScalar")), ("densityTP", (.cls "ThermoScalar")), ("densityPP", (.cls "ThermoScalar")),
   ("pressure", (.cls "ThermoScalar")), ("pressureT", (.cls "ThermoScalar")), ("pressureD", (.cls "ThermoScalar")),
   ("pressureTT", (.cls "ThermoScalar")), ("pressureTD", (.cls "ThermoScalar")), ("pressureDD", (.cls "ThermoScalar"))]

/-- What Python sees of `ThermoParametersSubstance`, pyThermoParameters.cpp:34-50, with the types of ThermoParameters.h. -/
def expThermoParametersSubstance : List Def := cls true "ThermoParametersSubstance"
  [("__init__", [], .void)]
  [("isothermal_compresibility", .double), ("isobaric_expansivity", .double), ("temperature_intervals", (.vec (.vec .double))),
   ("pressure_intervals", (.vec (.vec .double))), ("Cp_coeff", (.vec (.vec .double))),
   ("Cp_nonElectrolyte_coeff", (.vec .double)), ("phase_transition_prop", (.vec (.vec .double))),
   ("phase_transition_prop_Berman", (.vec (.vec .double))), ("m_landau_phase_trans_props", (.vec .double)),
   ("HKF_parameters", (.vec .double)), ("volume_coeff", (.vec .double)), ("critical_parameters", (.vec .double)),
   ("volume_BirchM_coeff", (.vec .double)), ("empirical_coeff", (.vec .double)),
   ("solute_holland_powell98_coeff", (.vec .double))]

/-- What Python sees of `ThermoParametersReaction`, pyThermoParameters.cpp:56-66, with the types of ThermoParameters.h. -/
def expThermoParametersReaction : List Def := cls true "ThermoParametersReaction"
  [("__init__", [], .void)]
  [("temperature_intervals", (.vec (.vec .double))), ("pressure_intervals", (.vec (.vec .double))),
   ("reaction_logK_fT_coeff", (.vec .double)), ("logK_TP_array", (.vec .double)), ("reaction_Cp_fT_coeff", (.vec .double)),
   ("reaction_V_fT_coeff", (.vec .double)), ("reaction_RB_coeff", (.vec .double)), ("reaction_FM_coeff", (.vec .double)),
   ("reaction_DM10_coeff", (.vec .double))]

/-- What Python sees of `ThermoEngine`, pyThermoEngine.cpp:87-111, with the types of ThermoEngine.h. -/
def expThermoEngine : List Def := cls true "ThermoEngine"
  [("__init__", [.string], .void), ("__init__", [(.cls "Database")], .void), ("__init__", [(.cls "ThermoEngine")], .void),
   ("appendData", [.string], .void), ("appendData", [(.vec .string), .string], .void), ("setSolventSymbol", [.string], .void),
   ("solventSymbol", [], .string), ("preferences", [], (.cls "EnginePreferences")),
   ("conventions", [], (.cls "EngineConventions")),
   ("thermoPropertiesSubstance", [.double, .double, .string], (.cls "ThermoPropertiesSubstance")),
   ("electroPropertiesSolvent", [.double, .double, .string, .int], (.cls "ElectroPropertiesSolvent")),
   ("propertiesSolvent", [.double, .double, .string, .int], (.cls "PropertiesSolvent")),
   ("electroPropertiesSolvent", [.double, .double, .string], (.cls "ElectroPropertiesSolvent")),
   ("propertiesSolvent", [.double, .double, .string], (.cls "PropertiesSolvent")),
   ("thermoPropertiesReaction", [.double, .double, .string], (.cls "ThermoPropertiesReaction")),
   ("thermoPropertiesReactionFromReactants", [.double, .double, .string], (.cls "ThermoPropertiesReaction")),
   ("thermoPropertiesSubstance", [.double, .double, (.cls "Substance")], (.cls "ThermoPropertiesSubstance")),
   ("electroPropertiesSolvent", [.double, .double, (.cls "Substance"), .int], (.cls "ElectroPropertiesSolvent")),
   ("propertiesSolvent", [.double, .double, (.cls "Substance"), .int], (.cls "PropertiesSolvent")),
   ("electroPropertiesSolvent", [.double, .double, (.cls "Substance")], (.cls "ElectroPropertiesSolvent")),
   ("propertiesSolvent", [.double, .double, (.cls "Substance")], (.cls "PropertiesSolvent")),
   ("thermoPropertiesReaction", [.double, .double, (.cls "Reaction")], (.cls "ThermoPropertiesReaction")),
   ("thermoPropertiesReactionFromReactants", [.double, .double, (.cls "Reaction")], (.cls "ThermoPropertiesReaction"))]
  []

/-- What Python sees of `EnginePreferences`, pyThermoEngine.cpp:114-127, with the types of ThermoEngine.h. -/
def expEnginePreferences : List Def := cls true "EnginePreferences"
  [("__init__", [], .void)]
  [("enable_memoize", .bool), ("max_cache_size", .size), ("solventState", .int), ("solventSymbol", .string),
   ("fallback_to_reference_properties", .bool), ("apply_pressure_correction_to_gas_props", .bool)]

/-- What Python sees of `EngineConventions`, pyThermoEngine.cpp:131-134, with the types of ThermoEngine.h. -/
def expEngineConventions : List Def := cls true "EngineConventions"
  [("__init__", [], .void)]
  [("apparent_properties", .string), ("water_properties", .string)]

/-- What Python sees of `ThermoBatch`, Batch/pyThermoBatch.cpp:59-92, with the types of Batch/ThermoBatch.h. -/
def expThermoBatch : List Def := cls true "ThermoBatch"
  [("__init__", [.string], .void), ("__init__", [(.cls "Database")], .void), ("__init__", [(.cls "ThermoEngine")], .void),
   ("setPropertiesUnits", [(.vec .string), (.vec .string)], .void),
   ("setPropertiesDigits", [(.vec .string), (.vec .int)], .void), ("setPropertyUnit", [.string, .string], .void),
   ("setPropertyDigit", [.string, .int], .void), ("setPropertyUnitDigit", [.string, .string, .int], .void),
   ("setTemperatureIncrement", [.double, .double, .double], .void), ("setPressureIncrement", [.double, .double, .double], .void),
   ("thermoPropertiesSubstance", [.double, .double, .string, .string], (.cls "Output")),
   ("thermoPropertiesSubstance", [.double, .double, (.vec .string), (.vec .string)], (.cls "Output")),
   ("thermoPropertiesSubstance", [(.vec .string), (.vec .string)], (.cls "Output")),
   ("thermoPropertiesSubstance", [(.vec (.vec .double)), (.vec .string), (.vec .string)], (.cls "Output")),
   ("thermoPropertiesSubstance", [(.vec (.vec .double)), (.vec .string), (.vec .string), (.vec (.cls "ThermoPropertiesSubstance"))], (.cls "Output")),
   ("thermoPropertiesSubstance", [(.vec .double), (.vec .double), (.vec .string), (.vec .string)], (.cls "Output")),
   ("thermoPropertiesSubstance", [(.vec .double), (.vec .double), (.vec .string), (.vec .string), (.vec (.cls "ThermoPropertiesSubstance"))], (.cls "Output")),
   ("thermoPropertiesReaction", [.double, .double, .string, .string], (.cls "Output")),
   ("thermoPropertiesReaction", [.double, .double, (.vec .string), (.vec .string)], (.cls "Output")),
   ("thermoPropertiesReaction", [(.vec .string), (.vec .string)], (.cls "Output")),
   ("thermoPropertiesReaction", [(.vec (.vec .double)), (.vec .string), (.vec .string)], (.cls "Output")),
   ("thermoPropertiesReaction", [(.vec (.vec .double)), (.vec .string), (.vec .string), (.vec (.cls "ThermoPropertiesReaction"))], (.cls "Output")),
   ("thermoPropertiesReaction", [(.vec .double), (.vec .double), (.vec .string), (.vec .string)], (.cls "Output")),
   ("thermoPropertiesReaction", [(.vec .double), (.vec .double), (.vec .string), (.vec .string), (.vec (.cls "ThermoPropertiesReaction"))], (.cls "Output")),
   ("setBatchPreferences", [(.cls "BatchPreferences")], .void), ("preferences", [], (.cls "BatchPreferences")),
   ("setSolventSymbol", [.string], .void), ("temperatureIncrement", [], (.map .string .double)),
   ("pressureIncrement", [], (.map .string .double)), ("propertyUnits", [], (.map .string .string)),
   ("propertyDigits", [], (.map .string .int))]
  []

/-- What Python sees of `BatchPreferences`, Batch/pyThermoBatch.cpp:110-123, with the types of Batch/ThermoBatch.h. -/
def expBatchPreferences : List Def := cls true "BatchPreferences"
  [("__init__", [], .void)]
  [("isFixed", .bool), ("isFloating", .bool), ("isScientific", .bool), ("separator", .string), ("fileName", .string),
   ("solventFileName", .string), ("outputSolventProperties", .bool), ("substancePropertiesFromReaction", .bool),
   ("reactionPropertiesFromReactants", .bool), ("loopOverTPpairsFirst", .bool), ("loopTemperatureThenPressure", .bool),
   ("writeNaNifNotDefinedValue", .bool)]

/-- What Python sees of `Output`, Batch/pyOutputBatch.cpp:38-45, with the types of Batch/OutputBatch.h. -/
def expOutput : List Def := cls true "Output"
  [("__init__", [(.cls "ThermoBatch")], .void), ("toCSV", [.string], .void), ("toCSVTransposed", [.string], .void),
   ("toCSVPropertyGrid", [.string], .void), ("toDouble", [], .double), ("toThermoScalar", [], (.cls "ThermoScalar")),
   ("to2DVectorDouble", [], (.vec (.vec .double)))]
  []

/-- What Python sees of `Database`, pyDatabase.cpp:57-102, with the types of Database.h. -/
def expDatabase : List Def := cls true "Database"
  [("__init__", [], .void), ("__init__", [.string], .void), ("__init__", [(.cls "Database")], .void),
   ("conventions", [], (.cls "DatabaseConventions")), ("appendData", [.string], .void),
   ("appendData", [(.vec .string), .string], .void), ("addElement", [.string], .void), ("setElement", [.string], .void),
   ("addElement", [(.cls "Element")], .void), ("setElement", [(.cls "Element")], .void),
   ("addMapElements", [(.map .string (.cls "Element"))], .void), ("addSubstance", [.string], .void),
   ("setSubstance", [.string], .void), ("addSubstance", [(.cls "Substance")], .void),
   ("setSubstance", [(.cls "Substance")], .void), ("addMapSubstances", [(.map .string (.cls "Substance"))], .void),
   ("addReaction", [.string], .void), ("setReaction", [.string], .void), ("addReaction", [(.cls "Reaction")], .void),
   ("setReaction", [(.cls "Reaction")], .void), ("addMapReactions", [(.map .string (.cls "Reaction"))], .void),
   ("getElements", [], (.vec (.cls "Element"))), ("getSubstances", [], (.vec (.cls "Substance"))),
   ("getReactions", [], (.vec (.cls "Reaction"))), ("getElementsList", [], (.vec .string)),
   ("getSubstancesList", [], (.vec .string)), ("getReactionsList", [], (.vec .string)),
   ("mapElements", [], (.map .string (.cls "Element"))), ("mapSubstances", [], (.map .string (.cls "Substance"))),
   ("mapReactions", [], (.map .string (.cls "Reaction"))), ("numberOfElements", [], .size), ("numberOfSubstances", [], .size),
   ("numberOfReactions", [], .size), ("getElement", [.string], (.cls "Element")),
   ("getSubstance", [.string], (.cls "Substance")), ("getReaction", [.string], (.cls "Reaction")),
   ("element", [.string], (.cls "Element")), ("substance", [.string], (.cls "Substance")),
   ("reaction", [.string], (.cls "Reaction")), ("containsElement", [.string], .bool), ("containsSubstance", [.string], .bool),
   ("containsReaction", [.string], .bool), ("parseSubstanceFormula", [.string], (.map (.cls "Element") .double)),
   ("setSubstancesChargeFromFromula", [], .void), ("__str__", [], .string)]
  []

/-- What Python sees of `DatabaseConventions`, pyDatabase.cpp:105-107, with the types of Database.h. -/
def expDatabaseConventions : List Def := cls true "DatabaseConventions"
  [("__init__", [], .void)]
  [("water_triple_point_reference", .string)]

/-- What Python sees of `Substance`, pySubstance.cpp:37-84, with the types of Substance.h; compiled without pybind11/stl.h. -/
def expSubstance : List Def := cls false "Substance"
  [("__init__", [], .void), ("__init__", [(.cls "Substance")], .void), ("__init__", [.string], .void),
   ("setName", [.string], .void), ("setSymbol", [.string], .void), ("setFormula", [.string], .void),
   ("setReactionSymbol", [.string], .void), ("setMolarMass", [.double], .void),
   ("setThermoReferenceProperties", [(.cls "ThermoPropertiesSubstance")], .void),
   ("setThermoParameters", [(.cls "ThermoParametersSubstance")], .void),
   ("setMethodGenEoS", [(.enum "MethodGenEoS_Thrift")], .void), ("setMethod_T", [(.enum "MethodCorrT_Thrift")], .void),
   ("setMethod_P", [(.enum "MethodCorrP_Thrift")], .void), ("setLowerT", [.double], .void), ("setLowerP", [.double], .void),
   ("setUpperT", [.double], .void), ("setUpperP", [.double], .void), ("setSubstanceClass", [(.enum "SubstanceClass")], .void),
   ("setAggregateState", [(.enum "AggregateState")], .void),
   ("setThermoCalculationType", [(.enum "SubstanceThermoCalculationType")], .void), ("setCharge", [.int], .void),
   ("setReferenceT", [.double], .void), ("setReferenceP", [.double], .void), ("setJsonString", [.string], .void),
   ("name", [], .string), ("symbol", [], .string), ("formula", [], .string), ("reactionSymbol", [], .string),
   ("molarMass", [], .double), ("referenceT", [], .double), ("referenceP", [], .double), ("lowerT", [], .double),
   ("lowerP", [], .double), ("upperT", [], .double), ("upperP", [], .double),
   ("thermoProperties", [], (.cls "ThermoPropertiesSubstance")), ("thermoParameters", [], (.cls "ThermoParametersSubstance")),
   ("thermoReferenceProperties", [], (.cls "ThermoPropertiesSubstance")), ("methodGenEOS", [], (.enum "MethodGenEoS_Thrift")),
   ("method_T", [], (.enum "MethodCorrT_Thrift")), ("method_P", [], (.enum "MethodCorrP_Thrift")),
   ("substanceClass", [], (.enum "SubstanceClass")), ("thermoCalculationType", [], (.enum "SubstanceThermoCalculationType")),
   ("aggregateState", [], (.enum "AggregateState")), ("charge", [], .int), ("jsonString", [], .string), ("__str__", [], .string)]
  []

/-- What Python sees of `Reaction`, pyReaction.cpp:38-75, with the types of Reaction.h. -/
def expReaction : List Def := cls true "Reaction"
  [("__init__", [], .void), ("__init__", [(.cls "Reaction")], .void), ("__init__", [.string], .void),
   ("setName", [.string], .void), ("setSymbol", [.string], .void), ("setEquation", [.string], .void),
   ("setReactants", [(.map .string .double)], .void), ("setReferenceT", [.double], .void), ("setReferenceP", [.double], .void),
   ("setLowerT", [.double], .void), ("setLowerP", [.double], .void), ("setUpperT", [.double], .void),
   ("setUpperP", [.double], .void), ("setMethodGenEoS", [(.enum "MethodGenEoS_Thrift")], .void),
   ("setMethod_T", [(.enum "MethodCorrT_Thrift")], .void), ("setMethod_P", [(.enum "MethodCorrP_Thrift")], .void),
   ("setThermoReferenceProperties", [(.cls "ThermoPropertiesReaction")], .void),
   ("setThermoParameters", [(.cls "ThermoParametersReaction")], .void), ("setJsonString", [.string], .void),
   ("fromEquation", [.string], .void), ("name", [], .string), ("symbol", [], .string), ("equation", [], .string),
   ("reactants", [], (.map .string .double)), ("thermoReferenceProperties", [], (.cls "ThermoPropertiesReaction")),
   ("thermoParameters", [], (.cls "ThermoParametersReaction")), ("referenceT", [], .double), ("referenceP", [], .double),
   ("lowerT", [], .double), ("lowerP", [], .double), ("upperT", [], .double), ("upperP", [], .double),
   ("methodGenEOS", [], (.enum "MethodGenEoS_Thrift")), ("method_T", [], (.enum "MethodCorrT_Thrift")),
   ("method_P", [], (.enum "MethodCorrP_Thrift")), ("jsonString", [], .string), ("__str__", [], .string)]
  []

/-- What Python sees of `Element`, pyElement.cpp:35-61, with the types of Element.h; compiled without pybind11/stl.h. -/
def expElement : List Def := cls false "Element"
  [("__init__", [], .void), ("__init__", [(.cls "Element")], .void), ("__init__", [.string], .void),
   ("setName", [.string], .void), ("setSymbol", [.string], .void), ("setMolarMass", [.double], .void),
   ("setEntropy", [.double], .void), ("setHeatCapacity", [.double], .void), ("setVolume", [.double], .void),
   ("setValence", [.int], .void), ("setClass", [.int], .void), ("setIsotopeMass", [.int], .void), ("setNumber", [.int], .void),
   ("setJsonString", [.string], .void), ("name", [], .string), ("symbol", [], .string), ("molarMass", [], .double),
   ("entropy", [], .double), ("heatCapacity", [], .double), ("volume", [], .double), ("valence", [], .int), ("class_", [], .int),
   ("isotopeMass", [], .int), ("number", [], .int), ("jsonString", [], .string), ("__str__", [], .string)]
  []

/-- The functions of the module itself, PyThermoFun.cpp:48-56, compiled without pybind11/stl.h; types of GlobalVariables.h:21-22 and 269-274. -/
def expModule : List Def := cls false ""
  [("availableSubstanceTPMethods", [], .string), ("availableReactionTPMethods", [], .string),
   ("availablePropertiesSubstance", [], .string), ("availablePropertiesReaction", [], .string),
   ("update_loggers", [.bool, .string, .size], .void), ("clear_loggers", [.string], .void),
   ("get_water_triple_data", [], .map .string (.cls "WaterTripleProperties"))]
  []

/-- Everything `PyThermoFun` exports, PyThermoFun.cpp:27-56. -/
def exports : List Def :=
  expThermoScalar ++ expThermoPropertiesSubstance ++ expThermoPropertiesReaction ++ expElectroPropertiesSolvent ++ expPropertiesSolvent ++
  expThermoParametersReaction ++ expThermoParametersSubstance ++ expThermoEngine ++ expEnginePreferences ++ expEngineConventions ++
  expThermoBatch ++ expBatchPreferences ++ expOutput ++ expDatabase ++ expDatabaseConventions ++ expSubstance ++ expReaction ++ expElement ++
  expModule

/-- The functions of one name, in the order of their definition (pyThermoEngine.cpp:98-111). -/
def overloads (owner name : String) : List Def := exports.filter fun d => d.owner == owner && d.name == name

/-- A call from Python of the function `name` of a class, PyThermoFun.cpp:27-56. -/
def call (owner name : String) (args : List Val) : Call := dispatch registered (overloads owner name) args

/-! ## Lifetime of the objects handed out -/

/-- What a Python variable holds: an object of its own, or a reference into the object `o`. `keeps`: the reference keeps `o` alive, as with
`return_value_policy::reference_internal` (pyThermoEngine.cpp:96-97, pyDatabase.cpp:61, and the attributes of `def_readwrite`), and unlike
`return_value_policy::reference` (pyDatabase.cpp:94-96). -/
inductive Held
  | own (o : Nat)
  | view (o : Nat) (keeps : Bool)
  deriving DecidableEq

/-- The object a variable belongs to, and whether holding the variable keeps the object alive. -/
def Held.root : Held → Nat × Bool
  | .own o => (o, true)
  | .view o k => (o, k)

/-- The ways in which a result is handed out: a copy or a new object (the rule for results and references, e.g. pyDatabase.cpp:91-93), a reference
that keeps its owner (`reference_internal`, pyThermoEngine.cpp:96), or a reference that does not (`reference`, pyDatabase.cpp:94-96). -/
inductive Policy
  | copy | internal | reference
  deriving DecidableEq

/-- How the result of a function is handed out: pyDatabase.cpp:94-96 has `reference`, pyThermoEngine.cpp:96-97, pyDatabase.cpp:61,
pyThermoBatch.cpp:87 and the attributes of class type have `reference_internal`; anything else is copied. (PyThermoFun.cpp:54-56 asks for a
reference to a table that lives as long as the program.) -/
def policy (d : Def) : Policy :=
  if d.owner = "Database" ∧ (d.name = "element" ∨ d.name = "substance" ∨ d.name = "reaction") then .reference
  else if d.name = "preferences" ∨ d.name = "conventions" then .internal
  else if (d.name.toList.take 4 = "get ".toList) ∧ (match d.ret with | .cls _ => true | _ => false) = true then .internal
  else .copy

/-- The steps of a Python program that matter for lifetimes: make a new object, take the result of a function of the object in `y`, forget a
variable, use the object in `x` (PyThermoFun.cpp:27-56). -/
inductive Step
  | new (x : String)
  | get (x y : String) (d : Def)
  | del (x : String)
  | use (x : String)

/-- The variables of a Python program and the number of objects made so far (PyThermoFun.cpp:27-56). -/
structure Heap where
  vars : String → Option Held
  next : Nat

/-- Python frees an object when nothing keeps it (pyDatabase.cpp:94-96 depends on it): it is alive as long as some variable keeps it. -/
def Heap.alive (h : Heap) (o : Nat) : Prop := ∃ x v, h.vars x = some v ∧ v.root = (o, true)

open Classical in
/-- One step, PyThermoFun.cpp:27-56: using or calling something of a variable that refers into a freed object is undefined; a missing variable raises
an exception. -/
noncomputable def step (h : Heap) : Step → Option (Heap × Bool)
  | .new x => some (⟨fun z => if z = x then some (.own h.next) else h.vars z, h.next + 1⟩, true)
  | .get x y d => match h.vars y with
    | none => some (h, false)
    | some v => if h.alive v.root.1 then
        match policy d with
        | .copy => some (⟨fun z => if z = x then some (.own h.next) else h.vars z, h.next + 1⟩, true)
        | .internal => some ({ h with vars := fun z => if z = x then some (.view v.root.1 v.root.2) else h.vars z }, true)
        | .reference => some ({ h with vars := fun z => if z = x then some (.view v.root.1 false) else h.vars z }, true)
      else none
  | .del x => some ({ h with vars := fun z => if z = x then none else h.vars z }, true)
  | .use x => match h.vars x with
    | none => some (h, false)
    | some v => if h.alive v.root.1 then some (h, true) else none

/-- A program: `none` is undefined behaviour, an exception ends it (PyThermoFun.cpp:27-56). -/
noncomputable def runs (h : Heap) : List Step → Option Heap
  | [] => some h
  | s :: ss => match step h s with
    | none => none
    | some (h', true) => runs h' ss
    | some (h', false) => some h'

end ThermoFun.Py
