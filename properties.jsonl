{"id": "C01", "title": "Derivatives carried by arithmetic are the true partial derivatives", "statement": "Whatever formula is written with the ThermoScalar operators (+, -, *, / in scalar and mixed form, unary minus, sqrt, pow with scalar and ThermoScalar exponent, exp, log, log10), evaluating it at temperature T and pressure P yields as `val` the real value of the formula and as `ddt`/`ddp` its exact partial derivatives in T and P, at every point where no operand leaves the domain of the operator (no zero divisor, positive argument of log/sqrt/pow).", "quantifier": "every expression tree over the operators, every T, every P inside the domain, every constant and every differentiable leaf", "why_tests_cant": "Tests compare a handful of formulas against finite differences at a few points; the claim is about all compositions of operators and all points.", "anchors": ["ThermoFun/Common/ThermoScalar.hpp: operator+, operator-, operator*, operator/, sqrt, pow, exp, log, log10, Temperature, Pressure"]}
{"id": "C02", "title": "'not defined' is contagious and never invented", "statement": "The status of any formula built with the free operators is `notdefined` exactly when at least one ThermoScalar occurring in it is `notdefined`; otherwise it is `calculated` (for a formula with at least one operator). So a reported value is never silently computed from an undefined input, and a defined input never yields an undefined result.", "quantifier": "every expression tree and every assignment of statuses to its leaves", "why_tests_cant": "The number of status combinations grows exponentially with the formula; tests look at a few.", "anchors": ["ThermoFun/Common/ThermoScalar.hpp: status, Status, operators"]}
{"id": "C03", "title": "Reported uncertainties are non-negative and follow the quadrature rule", "statement": "The `err` of any result of a free ThermoScalar operator is >= 0; for +,- it is sqrt(e1^2+e2^2); for * and / of non-zero operands it equals the Gaussian propagation formula; for a function of one variable (sqrt, pow, exp, log, operations with a plain number) it is |f'(x)| times the uncertainty of x. The compound assignments (+=,-=,*=,/=) give the same uncertainty as the free operators.", "quantifier": "all operand values, all uncertainties", "why_tests_cant": "Sign errors appear only for negative values or particular operand orders; tests use positive data.", "anchors": ["ThermoFun/Common/ThermoScalar.hpp: ThermoScalarBase ctor, operator*=, operator/=, operator*, operator/"]}
{"id": "C04", "title": "Compound assignment agrees with the free operator", "statement": "x op= y leaves in x the same value, temperature derivative, pressure derivative and status as x op y, for op in {+,-,*,/} and ThermoScalar y; for a plain double y the value and derivatives agree.", "quantifier": "all ThermoScalar pairs (val, ddt, ddp, err, status)", "why_tests_cant": "Formulas are mixed freely in 8000 lines of models; agreement must hold on every operand, not sampled ones.", "anchors": ["ThermoFun/Common/ThermoScalar.hpp: operator+=, operator-=, operator*=, operator/="]}
{"id": "C05", "title": "Caching is invisible when the computed function is pure", "statement": "With memoisation enabled (bounded or unbounded), any sequence of property queries returns exactly the values the un-memoised calculation returns, as long as the underlying calculation depends only on its arguments.", "quantifier": "every sequence of calls of any length, every key type, every cache capacity including 0 and 1, every pure function", "why_tests_cant": "Eviction interleavings depend on the whole history of calls.", "anchors": ["ThermoFun/OptimizationUtils.h: memoize, memoizeN", "ThermoFun/ThermoEngine.cpp: set_fn"]}
{"id": "C06", "title": "The bounded cache never grows beyond its configured size", "statement": "After any sequence of calls the bounded cache holds at most max(1, max_cache_size) entries, each key appears at most once, and the eviction queue lists exactly the cached keys in insertion order.", "quantifier": "every call history, every capacity", "why_tests_cant": "A leak shows up only after max_cache_size (default 10^6) distinct queries.", "anchors": ["ThermoFun/OptimizationUtils.h: memoizeN", "ThermoFun/ThermoEngine.h: EnginePreferences.max_cache_size"]}
{"id": "C07", "title": "Recursion through the cache exceeds the bound by at most the nesting depth", "statement": "When the memoised calculation calls itself through the cache (substance -> reaction -> substance), the cache can exceed max_cache_size but never by more than the nesting depth of the recursion.", "quantifier": "every recursive call tree of every shape, every history, every capacity", "why_tests_cant": "Needs all call trees; tests never reach the bound.", "anchors": ["ThermoFun/OptimizationUtils.h: memoizeN", "ThermoFun/ThermoEngine.cpp: thermoPropertiesReactionFromReactants, reacDCthermoProperties"]}
{"id": "C08", "title": "Eviction removes the oldest inserted entry, never a younger one", "statement": "Whenever an entry is dropped from a full cache it is the one inserted earliest among those present (first in, first out); hits neither refresh nor protect an entry, and a hit on a full cache also evicts.", "quantifier": "every call history, every capacity >= 1", "why_tests_cant": "The documented intent (last used) and the behaviour differ only on particular long histories.", "anchors": ["ThermoFun/OptimizationUtils.h: memoizeN"]}
{"id": "C09", "title": "Results reflect the current database and preferences", "statement": "A property query issued after records were appended or preferences changed returns the value for the new data. (The engine keeps its caches over such changes, so this is expected to hold only for queries not asked before.)", "quantifier": "every history of queries interleaved with changes of data or preferences", "why_tests_cant": "Staleness needs a specific interleaving of query, change, same query.", "anchors": ["ThermoFun/ThermoEngine.cpp: set_fn, appendData, solventSymbol", "ThermoFun/OptimizationUtils.h: memoize, memoizeN"]}
{"id": "C10", "title": "Single-entry cache returns what the function returns", "statement": "The 'last call' cache returns exactly the underlying function's value on every call of every sequence.", "quantifier": "every call sequence, every pure function, every argument including default-constructed ones", "why_tests_cant": "The failing argument (all default values on the very first call) is not in any test.", "anchors": ["ThermoFun/OptimizationUtils.h: memoizeLast"]}
{"id": "C11", "title": "Pressure write-back is the same on a cached query", "statement": "Queries that take the pressure by reference and find P = 0 store the saturation pressure into the caller's variable; a repeated identical query has the same effect on the caller's variable as the first.", "quantifier": "every history of by-reference queries, every variable contents", "why_tests_cant": "Requires comparing side effects of a first and a later identical call for all histories.", "anchors": ["ThermoFun/ThermoEngine.cpp: thermoPropertiesSubstance(double,double&,..), set_fn", "ThermoFun/OptimizationUtils.h: memoizeN key tuple with double&"]}
{"id": "C12", "title": "Unit conversion is reversible and composes", "statement": "For units a, b, c that are mutually convertible and not temperatures: convert(x,a,a) = x; convert(convert(x,a,b),b,a) = x; convert(convert(x,a,b),b,c) = convert(x,a,c).", "quantifier": "all real x, all unit strings the parser accepts built from the whole derived-unit table", "why_tests_cant": "Infinite set of unit strings (products, quotients, nested parentheses) and values.", "anchors": ["ThermoFun/Common/Units.cpp: convert, convertible, factor, derivedUnitsMap"]}
{"id": "C13", "title": "Every derived unit resolves to a positive factor", "statement": "Each unit name in the derived-unit table resolves, through finitely many definitions, to a strictly positive conversion factor and a dimension over the base units; no definition is cyclic or dangling.", "quantifier": "every entry of the derived-unit table and every composite unit string over them", "why_tests_cant": "A cyclic or dangling entry only fails when that unit is used.", "anchors": ["ThermoFun/Common/Units.cpp: derivedUnitsMap, factor, dimension"]}
{"id": "C14", "title": "Temperature conversion is exact, reversible and order preserving", "statement": "Conversion between K, degC, degF, degR and their long names is the textbook affine map, converting there and back returns the original value, going through an intermediate scale makes no difference, and a < b is preserved.", "quantifier": "all real temperatures, all pairs of temperature unit names", "why_tests_cant": "Tests check a few fixed points; reversibility is a claim about all values and all pairs.", "anchors": ["ThermoFun/Common/Units.cpp: convertTemperature, toKelvin, fromKelvin, temperatureUnitsMap"]}
{"id": "C15", "title": "Conversion between different dimensions is refused", "statement": "convert(x,a,b) returns a number if and only if a and b are known units with the same physical dimension, otherwise it raises; mutual convertibility is an equivalence relation.", "quantifier": "all pairs of unit strings", "why_tests_cant": "All pairs of an infinite language of unit strings.", "anchors": ["ThermoFun/Common/Units.cpp: convert, convertible, dimension, checkUnit"]}
{"id": "C16", "title": "Composite unit strings mean what they read as", "statement": "A unit expression written with * / and parentheses is interpreted with left-to-right evaluation of * and / and with parentheses overriding it: its factor is the arithmetic value of the expression over the factors of its symbols.", "quantifier": "every well-formed unit expression of any size and nesting depth", "why_tests_cant": "The parser scans right to left with index arithmetic; correctness is a claim about all nestings.", "anchors": ["ThermoFun/Common/Units.cpp: parseUnit, Node"]}
{"id": "C17", "title": "Malformed unit strings are reported as errors", "statement": "A unit string that is not a well-formed expression over known units makes conversion raise an exception, and never has undefined behaviour.", "quantifier": "all strings", "why_tests_cant": "All malformed strings; out-of-range indexing shows only for particular ones (empty, leading operator, unmatched parenthesis).", "anchors": ["ThermoFun/Common/Units.cpp: parseUnit, factor(Node*)"]}
{"id": "C18", "title": "Power units are the powers of their base unit", "statement": "A unit whose name ends in ^n (m^2, cm^3, K^-1, bar^2, ...) has factor = factor(base)^n and dimension n times the dimension of the base.", "quantifier": "every power entry in the derived-unit table", "why_tests_cant": "One mistyped row among 300 is found only by checking all rows against an independent definition.", "anchors": ["ThermoFun/Common/Units.cpp: derivedUnitsMap"]}
{"id": "C19", "title": "Reaction equation text round-trips to stoichiometry", "statement": "Parsing the text 'c1 A1 + c2 A2 = d1 B1 + d2 B2' yields exactly the species named, reactants with coefficient -c, products with coefficient +d, missing coefficients read as 1.", "quantifier": "all reactions with any number of distinct species with admissible names and any coefficients", "why_tests_cant": "All species names (with charges, @, parentheses, digits) and all lengths.", "anchors": ["ThermoFun/Reaction.cpp: fromEquation, extractCoef, regexp_split, strip_all"]}
{"id": "C20", "title": "A species occurring twice in an equation keeps its net coefficient", "statement": "If a species occurs several times in an equation (on one or both sides) its coefficient is the sum of its signed occurrences.", "quantifier": "all equations with repeated species", "why_tests_cant": "Tests use equations with distinct species.", "anchors": ["ThermoFun/Reaction.cpp: fromEquation", "ThermoFun/Common/ParseJsonToData.cpp: getReactants"]}
{"id": "C21", "title": "logK(T) fits are thermodynamically consistent", "statement": "For a reaction with 7-term logK(T) coefficients the reported properties satisfy, at every T > 0: G = H - T S, G = -R T ln K, dG/dT = -S, dH/dT = Cp (van 't Hoff), for all coefficient values.", "quantifier": "all coefficient vectors, all T > 0", "why_tests_cant": "An identity between five formulas over all coefficients and temperatures.", "anchors": ["ThermoFun/Reactions/LogK_function_of_T.cpp: thermoPropertiesReaction_LogK_fT"]}
{"id": "C22", "title": "1-, 2- and 3-term extrapolations are consistent and reproduce the reference state", "statement": "With the EK0-EK3 extrapolations the reported G equals -R T ln K for all T; with EK2/EK3 G = H - T S at all T, dG/dT = -S and dH/dT = dCp, and at T = Tr the reference H, S and G are recovered when the reference data satisfy G = H - Tr S.", "quantifier": "all reference data, all T > 0, all Tr > 0", "why_tests_cant": "Identity over all data and temperatures.", "anchors": ["ThermoFun/Reactions/LogK_function_of_T.cpp: thermoPropertiesReaction_LogK_fT, determineMethod"]}
{"id": "C23", "title": "Method downgrade picks exactly the richest extrapolation the data allow", "statement": "A 3-term request is carried out with EK3 iff dCp, dH and dS are all known, else EK2 iff dH and dS are known, else EK1 iff the only known one is zero, else EK0; values derivable from two of (G,H,S) are derived first.", "quantifier": "all combinations of statuses and values of the reference data", "why_tests_cant": "Case analysis over all status combinations.", "anchors": ["ThermoFun/Reactions/LogK_function_of_T.cpp: determineMethod"]}
{"id": "C24", "title": "Heat-capacity coefficients determine the temperature dependence of the reaction", "statement": "For a reaction given by reference data and Cp(T) coefficients (no logK coefficients), the reported enthalpy and entropy change with temperature as the integrals of Cp: dH/dT = Cp, dS/dT = Cp/T.", "quantifier": "all Cp coefficients, all T", "why_tests_cant": "The defect is invisible at T = Tr where tests sit.", "anchors": ["ThermoFun/Reactions/LogK_function_of_T.cpp lines 113-131"]}
{"id": "C25", "title": "Conversion between Cp(T) and logK(T) coefficients is lossless", "statement": "Converting logK(T) coefficients to Cp(T) coefficients and back recovers the temperature-dependent coefficients, and with matching reference entropy and enthalpy the two constants of integration.", "quantifier": "all coefficient vectors, all reference temperatures > 0", "why_tests_cant": "Identity over all coefficient vectors.", "anchors": ["ThermoFun/Reaction.cpp: convert_CpfT_to_logKfT, convert_logKfT_toCpfT", "ThermoFun/Reactions/LogK_function_of_T.cpp"]}
{"id": "C26", "title": "Density models satisfy the thermodynamic identities", "statement": "For the Frantz-Marshall, Ryzhenko-Bryzgalin and Dolejs-Manning density models, given solvent density and its derivatives, reported properties satisfy G = H - T S, dG/dT = -S, dH/dT = Cp and dG/dP = V along any differentiable density function.", "quantifier": "all parameter vectors, all T, P and all smooth density functions", "why_tests_cant": "Identity over arbitrary functions.", "anchors": ["ThermoFun/Reactions/FrantzMarshall.cpp", "ThermoFun/Reactions/RyzhenkoBryzgalyn.cpp", "ThermoFun/Reactions/DolejsManning2010.cpp"]}
{"id": "C27", "title": "A reaction is computed with the model it declares", "statement": "Selecting the Dolejs-Manning model computes the Dolejs-Manning formula from the Dolejs-Manning coefficients; likewise for the other reaction models; both ln K and log10 K are reported.", "quantifier": "all reactions and methods", "why_tests_cant": "No test exercises this dispatch with differing coefficient sets.", "anchors": ["ThermoFun/ThermoModelsReaction.cpp: ReactionDolejsManning10::thermoProperties"]}
{"id": "C28", "title": "Entropy/constant-Cp integration is exact", "statement": "With reference G, S, H and constant Cp the reported properties satisfy dH/dT = Cp, dS/dT = Cp/T, dG/dT = -S, equal the reference values at T = Tr, and G - H + T S is independent of T.", "quantifier": "all reference data, all T, Tr > 0", "why_tests_cant": "Identity over all real data.", "anchors": ["ThermoFun/Substances/StandardEntropyCpIntegration.cpp"]}
{"id": "C29", "title": "Cp polynomial integration is exact", "statement": "For a substance with Cp(T) coefficients the reported H, S and G are the exact integrals of the reported Cp: dH/dT = Cp, dS/dT = Cp/T, dG/dT = -S inside every temperature interval, for all ten coefficients.", "quantifier": "all coefficient vectors, all T, Tr > 0, any number of intervals", "why_tests_cant": "Ten-term closed forms over all coefficients; an error in one rarely used term is not covered.", "anchors": ["ThermoFun/Substances/EmpiricalCpIntegration.cpp"]}
{"id": "C30", "title": "Phase transitions keep the Gibbs energy continuous and shift H and S by the recorded amounts", "statement": "Crossing from one Cp interval into the next, G is continuous, S and H jump by the recorded transition entropy and enthalpy and V accumulates the recorded volume change, for any number of intervals.", "quantifier": "any number of contiguous intervals, any transition data, all T", "why_tests_cant": "Any number of transitions and all data.", "anchors": ["ThermoFun/Substances/EmpiricalCpIntegration.cpp lines 93-175"]}
{"id": "C31", "title": "Every temperature selects a valid Cp interval or an error", "statement": "For every temperature the interval selection yields an existing interval (extrapolating below the first and above the last) or raises an error; it never indexes outside the tables.", "quantifier": "all temperatures including interval bounds, all interval tables", "why_tests_cant": "The failing temperature is a single point (the upper bound of the last interval) or a gap.", "anchors": ["ThermoFun/Substances/EmpiricalCpIntegration.cpp lines 44-80"]}
{"id": "C32", "title": "Coefficients of one Cp interval do not influence another", "statement": "The contribution of an interval to H, S and G depends only on the coefficients recorded for that interval.", "quantifier": "all coefficient tables with rows of any lengths", "why_tests_cant": "Needs rows of different lengths.", "anchors": ["ThermoFun/Substances/EmpiricalCpIntegration.cpp lines 21-26, 75-80, 136-141"]}
{"id": "C33", "title": "Constant-volume and ideal-gas pressure corrections are consistent", "statement": "The constant molar volume correction adds V(P-Pr) to G and H, leaves S and Cp unchanged, so that dG/dP = V; it changes nothing when no volume is recorded; U = H - PV and A = U - TS hold afterwards.", "quantifier": "all data, all P, T", "why_tests_cant": "Identity over all data and both branches.", "anchors": ["ThermoFun/ThermoModelsSubstance.cpp: ConMolVol, IdealGasLawVol, applyPressure"]}
{"id": "C34", "title": "Berman (1988) volume model is consistent", "statement": "The pressure increments of the Berman model satisfy dG/dP = V, dG/dT = -S and H = G + T S.", "quantifier": "all coefficients, T, P", "why_tests_cant": "The wrong term vanishes for minerals with zero quadratic coefficient.", "anchors": ["ThermoFun/Substances/Solids/SolidBerman88.cpp"]}
{"id": "C35", "title": "Murnaghan (Holland-Powell 1998) model is consistent", "statement": "The increments of the Murnaghan model satisfy d(dG)/dP = V(T,P), d(dG)/dT = -dS, dH = dG + T dS and T d(dS)/dT = dCp on its domain.", "quantifier": "all parameters and all T, P in the domain", "why_tests_cant": "Identity between long closed forms over all parameters.", "anchors": ["ThermoFun/Substances/Solids/SolidMurnaghanHP98.cpp"]}
{"id": "C36", "title": "Landau transition model is consistent", "statement": "Below the transition temperature the Landau increments satisfy H = G + T S and d(dG)/dT = -dS; above it the order parameter contributions vanish; G is continuous at the transition temperature.", "quantifier": "all parameters, all T, P", "why_tests_cant": "Identity over all parameters and both branches.", "anchors": ["ThermoFun/Substances/Solids/SolidHPLandau.cpp"]}
{"id": "C37", "title": "HKF solute model is consistent", "statement": "The HKF properties (both implementations) satisfy dG/dT = -S, dH/dT = Cp, dG/dP = V and U = H - P V along any smooth Born coefficient and dielectric function.", "quantifier": "all HKF parameters, all T, P in the domain, all smooth w, Z", "why_tests_cant": "Identity over arbitrary functions.", "anchors": ["ThermoFun/Substances/Solute/SoluteHKFreaktoro.cpp", "ThermoFun/Substances/Solute/SoluteHKFgems.cpp"]}
{"id": "C38", "title": "Born coefficient derivatives of a solute are exact", "statement": "The reported T and P derivatives (first and second) of the Born coefficient are the derivatives of the reported Born coefficient given those of the solvent g function, for every charge; a neutral species has a constant Born coefficient.", "quantifier": "all charges, all smooth g functions", "why_tests_cant": "Identity over arbitrary functions.", "anchors": ["ThermoFun/Substances/Solute/SoluteHKFreaktoro.cpp: speciesElectroStateHKF", "ThermoFun/Substances/Solute/SoluteHKFgems.cpp: omeg92"]}
{"id": "C39", "title": "Water properties derived from a Helmholtz function are consistent", "statement": "Given any smooth Helmholtz function, the reported density derivatives are the partial derivatives of the density solving the pressure equation, G = H - T S, H = U + P/D and Cp - Cv = T (dP/dT)^2/(D^2 dP/dD).", "quantifier": "all smooth Helmholtz functions, all (T, D) with dP/dD not zero", "why_tests_cant": "Identity over arbitrary functions.", "anchors": ["ThermoFun/Substances/Solvent/Reaktoro/WaterThermoStateUtils.cpp: waterThermoState"]}
{"id": "C40", "title": "Ideal-gas water properties are consistent", "statement": "The ideal gas water properties satisfy dH/dT = Cp, dG/dT = -S, G = H - T S, Cp - Cv = R at all T > 0.", "quantifier": "all T > 0", "why_tests_cant": "An 18-coefficient closed form over a continuum.", "anchors": ["ThermoFun/Substances/Solvent/WaterIdealGasWolley.cpp"]}
{"id": "C41", "title": "The hydrogen ion is the zero of the scale", "statement": "Every standard property of the substance named H+ is reported as exactly 0 at every T and P, whatever record, preference or history.", "quantifier": "all T, P, all database contents containing H+, all preferences, all histories", "why_tests_cant": "All states of the engine.", "anchors": ["ThermoFun/ThermoEngine.cpp: thermoPropertiesSubstance"]}
{"id": "C42", "title": "Properties of a reaction computed from its species obey Hess's law", "statement": "Cp, G, H, S and V of a reaction computed from its species equal the sum of coefficient times species property; ln K = -G/(R T); reversing the reaction negates them.", "quantifier": "all reactions with any number of species and coefficients, all T > 0, all species properties", "why_tests_cant": "Sums over reactions of unbounded length.", "anchors": ["ThermoFun/ThermoEngine.cpp: thermoPropertiesReactionFromReactants"]}
{"id": "C43", "title": "Internal energy, Helmholtz energy and Cv of a reaction obey Hess's law", "statement": "U, A and Cv of a reaction computed from its species equal the sum of coefficient times species property.", "quantifier": "all reactions, all species properties", "why_tests_cant": "Fails only for reactions with more than one species contributing.", "anchors": ["ThermoFun/ThermoEngine.cpp lines 777-836"]}
{"id": "C44", "title": "A substance defined by a reaction closes its reaction", "statement": "For a substance whose properties come from its formation reaction, the stoichiometric sum over the reaction of G, H, S, V, Cp (with the substance's own result) equals the reaction's property.", "quantifier": "all reactions, all coefficients with non-zero own coefficient, all T, P", "why_tests_cant": "Unbounded number of species.", "anchors": ["ThermoFun/ThermoEngine.cpp: reacDCthermoProperties"]}
{"id": "C45", "title": "A query answers the same regardless of what was asked before", "statement": "The result of a property query does not depend on previous queries on the same engine.", "quantifier": "all histories of queries including failing ones", "why_tests_cant": "Depends on the history: a flag and solvent settings survive queries.", "anchors": ["ThermoFun/ThermoEngine.cpp: apply_pressure_correction_to_gas_props, solvent_state, solvent_symbol, reacDCthermoProperties"]}
{"id": "C46", "title": "Every query terminates", "statement": "Every property query returns a value or raises an error after finitely many steps; in particular for databases whose reaction definitions are acyclic, within a recursion depth bounded by the longest definition chain.", "quantifier": "all databases", "why_tests_cant": "Non-termination appears only for particular definition graphs.", "anchors": ["ThermoFun/ThermoEngine.cpp: thermoPropertiesSubstance, reacDCthermoProperties, thermoPropertiesReactionFromReactants"]}
{"id": "C47", "title": "Fallback to reference values touches only undefined properties", "statement": "When fallback to reference properties is on, a property that the model left undefined is replaced by the recorded one and a property the model computed is left unchanged; when off nothing changes.", "quantifier": "all property records, all preference settings", "why_tests_cant": "2^n status and preference combinations.", "anchors": ["ThermoFun/ThermoEngine.cpp: fallback handling, EnginePreferences"]}
{"id": "C48", "title": "Convention changes shift exactly the documented properties by the documented constants", "statement": "Steam-table convention subtracts the triple point values from the solvent's G, H, S, U and A only; Berman-Brown convention shifts only G by -Tr * (elemental entropy of the formula); switching back is exact.", "quantifier": "all properties, all elemental data", "why_tests_cant": "Identity over all data; selective effect on 8 fields.", "anchors": ["ThermoFun/ThermoEngine.cpp: toSteamTables, toBermanBrown"]}
{"id": "C49", "title": "Every declared calculation method is either executed or refused", "statement": "For each method code a record can carry, the engine either runs the corresponding model exactly once in the order EOS, temperature, pressure, or raises 'method not found'; reference-state method returns the record unchanged.", "quantifier": "all method code combinations", "why_tests_cant": "Product of three enumerations with tens of codes each.", "anchors": ["ThermoFun/ThermoEngine.cpp: thermoPropertiesSubstance switch", "ThermoFun/GlobalVariables.h"]}
{"id": "C50", "title": "The database behaves as finite maps from symbols to records", "statement": "After any sequence of add/set/replace operations, contains/get/lists/sizes agree with a plain map in which add keeps the first record of a symbol and set overwrites; lists are sorted by symbol without duplicates; get of a missing symbol raises.", "quantifier": "all operation sequences, all symbols", "why_tests_cant": "All histories.", "anchors": ["ThermoFun/Database.cpp: addSubstance, setSubstance, addElement, setElement, addReaction, setReaction, getSubstance, containsSubstance, substances, numberOfSubstances"]}
{"id": "C51", "title": "A database copy is independent of the original", "statement": "After copying a database, no operation on one is visible through the other.", "quantifier": "all operation sequences on both", "why_tests_cant": "All interleavings of operations on original and copy.", "anchors": ["ThermoFun/Database.cpp: copy constructor, operator="]}
{"id": "C52", "title": "Loading stops at the first malformed record, keeping exactly the records before it", "statement": "Loading a list of records applies the records in order until the first malformed one; the records before it are present, those after are not.", "quantifier": "all record lists", "why_tests_cant": "All positions of the malformed record.", "anchors": ["ThermoFun/Database.cpp: addRecords, fromFile, appendData"]}
{"id": "C53", "title": "Charge and formula calculations use the database's own current element data", "statement": "After appending records, formula-based quantities use the element records now in the database.", "quantifier": "all histories of append", "why_tests_cant": "Depends on whether the number of elements changed.", "anchors": ["ThermoFun/Database.cpp: appendData, setDBElements"]}
{"id": "C54", "title": "Ordering of elements and substances is a valid ordering", "statement": "The comparison used to key elements and substances is a strict weak order consistent with equality, so that no two different elements collide in or are lost from a formula.", "quantifier": "all triples of elements / substances", "why_tests_cant": "All triples including isotopes and valences.", "anchors": ["ThermoFun/Element.cpp: operator<, operator>, operator==", "ThermoFun/Substance.cpp: operator<, operator=="]}
{"id": "C55", "title": "Every batch result is stored under the symbol and T-P pair it was computed for", "statement": "For both loop orders the result row of (symbol s, pair t) is read back by the CSV, transposed CSV and array outputs under the same symbol and pair; every pair of symbol and T-P pair has exactly one row.", "quantifier": "all numbers of symbols, pairs and properties, both loop orders", "why_tests_cant": "Index arithmetic over all sizes.", "anchors": ["ThermoFun/Batch/ThermoBatch.cpp: calculate", "ThermoFun/Batch/OutputBatch.cpp: foutResults, foutResultsTransposed"]}
{"id": "C56", "title": "Temperature and pressure ranges generate the grid asked for", "statement": "A range min/max/step generates exactly the points min, min+step, ... not beyond max, in the documented nesting order, and terminates.", "quantifier": "all min, max, step", "why_tests_cant": "All real parameter combinations incl. non-dividing and zero steps.", "anchors": ["ThermoFun/Batch/ThermoBatch.cpp: addTPpairs"]}
{"id": "C57", "title": "A batch result does not depend on the other symbols in the batch", "statement": "The row of a symbol at a T-P pair equals what a batch with only that symbol gives.", "quantifier": "all symbol lists, orders and pairs", "why_tests_cant": "Depends on order and on P = 0 write-back.", "anchors": ["ThermoFun/Batch/ThermoBatch.cpp: calculate (write back of P)"]}
{"id": "C58", "title": "Result columns line up with the requested properties", "statement": "Column k of a result row is the k-th requested property.", "quantifier": "all property lists including unknown names", "why_tests_cant": "Only shows with a name the selector does not know.", "anchors": ["ThermoFun/Batch/ThermoBatch.cpp: selectResultsSubst, selectResultsSolvent, selectResultsReact"]}
{"id": "C59", "title": "The property grid shows each value under its own T and P", "statement": "In the property-grid output the cell at row T and column P holds the value computed at that (T,P).", "quantifier": "all sets of T-P pairs", "why_tests_cant": "Holds only for complete grids; needs all pair lists.", "anchors": ["ThermoFun/Batch/OutputBatch.cpp: foutPropertyGrid, CSVHeaderPropertyGrid"]}
{"id": "C60", "title": "A separator inside a name cannot split a CSV column", "statement": "In CSV output names never contain the separator: every occurrence is replaced, and the rest of the name is preserved.", "quantifier": "all names and non-empty separators", "why_tests_cant": "All strings.", "anchors": ["ThermoFun/Batch/OutputBatch.cpp: find_and_replace"]}
{"id": "C61", "title": "An output object shows the results of the query it was obtained from", "statement": "An Output obtained from a batch query keeps showing that query's results when the batch object is used again.", "quantifier": "all later operations on the batch object", "why_tests_cant": "Aliasing between handle objects over all histories.", "anchors": ["ThermoFun/Batch/OutputBatch.cpp: Output::Impl", "ThermoFun/Batch/ThermoBatch.cpp"]}
{"id": "C62", "title": "Every documented method name is honoured when a record is read", "statement": "Each documented method code in a record sets the corresponding calculation method; no code is silently ignored and distinct model codes give distinct method triples.", "quantifier": "all method codes of substances and reactions", "why_tests_cant": "Whole-table claim.", "anchors": ["ThermoFun/Common/ParseJsonToData.cpp: setTPMethods_old", "ThermoFun/GlobalVariables.h: new_old_s_methodtype, new_old_r_methodtype, enum_method_substance"]}
{"id": "C63", "title": "A value missing from a record is left undefined", "statement": "When an element record lacks a property the element keeps its default for it; one record property never leaks into another.", "quantifier": "all subsets of present properties", "why_tests_cant": "2^n subsets.", "anchors": ["ThermoFun/Common/ParseJsonToData.cpp: parseElement, read_value_unit"]}
{"id": "C64", "title": "Bounds violations are reported and nothing else changes", "statement": "When T or P lies outside a substance's or reaction's recorded validity bounds a message naming the model and bound is attached to computed properties and no value or derivative changes; inside the bounds nothing changes.", "quantifier": "all T, P, bounds, property records", "why_tests_cant": "All T, P and bound values incl. the bounds themselves.", "anchors": ["ThermoFun/Substance.cpp: checkCalcMethodBounds", "ThermoFun/Reaction.cpp: checkCalcMethodBounds", "ThermoFun/Common/Exception.cpp: setMessage"]}
{"id": "C65", "title": "Case-insensitive name comparison is an equivalence", "statement": "The case-insensitive comparison used for solvent/vapour naming is reflexive, symmetric, transitive and equals comparison of lower-cased strings.", "quantifier": "all strings", "why_tests_cant": "All strings.", "anchors": ["ThermoFun/ThermoEngine.cpp: iequals, ichar_equals"]}
{"id": "C66", "title": "Copies of an engine keep the cache bound and give correct answers", "statement": "After copying an engine (as every batch object does), interleaved queries on the original and the copy return the model's values and the shared cache never holds more results than its documented capacity.", "quantifier": "all interleavings of queries on original and copy, all capacities", "why_tests_cant": "Needs all interleavings of two handles on shared state.", "anchors": ["ThermoFun/OptimizationUtils.h: memoizeN", "ThermoFun/ThermoEngine.cpp: ThermoEngine(const ThermoEngine&)", "ThermoFun/Batch/ThermoBatch.cpp: ThermoBatch(const ThermoEngine&)"]}
{"id": "C67", "title": "A copied engine answers from its own data", "statement": "Every query on an engine is answered from that engine's own current data and settings, also after copying engines, changing one of them or destroying the original.", "quantifier": "all client programs creating, copying, changing, destroying and querying engines", "why_tests_cant": "All object life-time histories.", "anchors": ["ThermoFun/ThermoEngine.cpp: ThermoEngine::Impl, set_fn, ThermoEngine(const ThermoEngine&)"]}
{"id": "C68", "title": "Generated logK(T) coefficients reproduce the extrapolation they replace", "statement": "The seven logK(T) coefficients computed for a reaction from its extrapolation method and reference data give, when used as a logK(T) fit, the same log K, enthalpy, entropy and heat capacity as the extrapolation at every temperature.", "quantifier": "all reference data, all temperatures, every method", "why_tests_cant": "Equality of two functions of temperature over all data.", "anchors": ["ThermoFun/Reaction.cpp: calc_logK_fT_coefficients", "ThermoFun/Reactions/LogK_function_of_T.cpp: thermoPropertiesReaction_LogK_fT"]}
{"id": "C69", "title": "Internal and Helmholtz energies of reactions follow from the other properties", "statement": "Whenever a reaction's enthalpy, volume and entropy are reported, the reported internal energy is H - P V and the Helmholtz energy U - T S, for every reaction model.", "quantifier": "all reactions, all T and P, all reaction models", "why_tests_cant": "Identity over all data; fails only for special values such as a zero enthalpy.", "anchors": ["ThermoFun/Reactions/LogK_function_of_T.cpp", "ThermoFun/Reactions/RyzhenkoBryzgalyn.cpp", "ThermoFun/Reactions/FrantzMarshall.cpp", "ThermoFun/Reactions/DolejsManning2010.cpp"]}
{"id": "C70", "title": "Volume and heat capacity of the Landau model follow from its Gibbs energy", "statement": "The volume the Landau model reports is the pressure derivative of its Gibbs energy and its heat capacity increment is T times the temperature derivative of its entropy increment.", "quantifier": "all transition parameters, all T and P", "why_tests_cant": "Identity of functions over all parameters.", "anchors": ["ThermoFun/Substances/Solids/SolidHPLandau.cpp: thermoPropertiesHPLandau"]}
{"id": "C71", "title": "Internal and Helmholtz energies of substances follow from the other properties", "statement": "After every pressure model of a substance the reported internal energy is H - P V and the Helmholtz energy U - T S, at every temperature and pressure.", "quantifier": "all substances, all T and P including the reference point", "why_tests_cant": "Identity over all data; fails only on special points or for special records.", "anchors": ["ThermoFun/ThermoModelsSubstance.cpp: applyPressure, ConMolVol, IdealGasLawVol", "ThermoFun/Substances/Solids/SolidBerman88.cpp", "ThermoFun/Substances/Solids/SolidMurnaghanHP98.cpp", "ThermoFun/Substances/Solids/SolidHPLandau.cpp"]}
{"id": "C72", "title": "The g function's reported derivatives are exact", "statement": "The first and second temperature and pressure derivatives the solvent function g reports with its value are the derivatives of that value, for every smooth density, away from the edges of its regions.", "quantifier": "all smooth density functions, all T and P, both implementations", "why_tests_cant": "Derivatives of a function of an arbitrary density over a continuum of states.", "anchors": ["ThermoFun/Substances/Solute/SoluteHKFreaktoro.cpp: functionG", "ThermoFun/Substances/Solute/SoluteHKFgems.cpp: gShok2"]}
{"id": "C73", "title": "HKF returns the recorded properties at the reference state", "statement": "At 298.15 K and 1 bar, when the Born coefficient has its recorded value and the solvent its reference Born functions, the HKF models return the recorded G, H and S.", "quantifier": "all records, both implementations", "why_tests_cant": "Equality over all parameter values.", "anchors": ["ThermoFun/Substances/Solute/SoluteHKFreaktoro.cpp: thermoPropertiesAqSoluteHKFreaktoro", "ThermoFun/Substances/Solute/SoluteHKFgems.cpp: thermoPropertiesAqSoluteHKFgems"]}
{"id": "C74", "title": "The two HKF implementations agree", "statement": "Given the same record and the same electrostatic properties, the gems and the reaktoro implementation of the HKF model return the same thermodynamic properties.", "quantifier": "all records, all T and P", "why_tests_cant": "Equality of two functions over all data; the difference is below usual test tolerances.", "anchors": ["ThermoFun/Substances/Solute/SoluteHKFreaktoro.cpp: thermoPropertiesAqSoluteHKFreaktoro", "ThermoFun/Substances/Solute/SoluteHKFgems.cpp: thermoPropertiesAqSoluteHKFgems"]}
{"id": "C75", "title": "Molar properties of water are consistent", "statement": "The molar Gibbs energy, enthalpy, entropy, volume and heat capacity reported for water satisfy dG = -S dT + V dP, dH/dT = Cp and dS/dT = Cp/T, and H, U, A differ from G by the defining terms up to constants of the reference state.", "quantifier": "all Helmholtz functions, all temperatures and pressures with a density root", "why_tests_cant": "Derivatives of implicitly defined functions over a continuum of states.", "anchors": ["ThermoFun/Substances/Solvent/WaterHGKreaktoro.cpp: thermoPropertiesWaterHGKreaktoro", "ThermoFun/Substances/Solvent/WaterWP95reaktoro.cpp: thermoPropertiesWaterWP95reaktoro"]}
{"id": "C76", "title": "The density returned solves the pressure equation to the stated tolerance", "statement": "Whenever the density iteration for water returns, the relative pressure residual at the returned density is below 1e-8; otherwise it raises an error.", "quantifier": "all equations of state, all T, P and starting densities", "why_tests_cant": "All functions the Newton step can be run on; the last step is untested in the code.", "anchors": ["ThermoFun/Substances/Solvent/Reaktoro/WaterUtils.cpp: waterDensity"]}
{"id": "C77", "title": "Each pressure function evaluates the equation of state it is named after", "statement": "The Wagner-Pruss pressure function evaluates the Wagner-Pruss Helmholtz function and the Haar-Gallagher-Kell one evaluates its own.", "quantifier": "all temperatures and densities", "why_tests_cant": "Functional equality; a test would need reference values for both models.", "anchors": ["ThermoFun/Substances/Solvent/Reaktoro/WaterUtils.cpp: waterPressureHGK, waterPressureWagnerPruss"]}
{"id": "C78", "title": "The derivatives carried by the water density are those reported with it", "statement": "The temperature and pressure derivative carried by the computed water density equal the densityT and densityP entries of the water state.", "quantifier": "all equations of state, all T and P", "why_tests_cant": "Derivative of an implicitly defined function against a propagated derivative.", "anchors": ["ThermoFun/Substances/Solvent/Reaktoro/WaterUtils.cpp: waterDensity", "ThermoFun/Substances/Solvent/Reaktoro/WaterThermoStateUtils.cpp: waterThermoState"]}
{"id": "C79", "title": "At the triple point water returns the recorded triple-point values", "statement": "At the triple-point temperature of water, where the specific entropy and internal energy of the equation of state vanish by convention, the molar properties returned are the recorded triple-point data.", "quantifier": "all recorded triple-point data, both equations of state", "why_tests_cant": "Identity over all recorded data; the deviation is a hundredth of the entropy and hides in test tolerances.", "anchors": ["ThermoFun/Substances/Solvent/WaterHGKreaktoro.cpp: thermoPropertiesWaterHGKreaktoro", "ThermoFun/Substances/Solvent/WaterWP95reaktoro.cpp: thermoPropertiesWaterWP95reaktoro"]}
{"id": "C80", "title": "The dielectric constant's reported derivatives and the Born functions are exact", "statement": "For every smooth water density the temperature and pressure derivatives of the Johnson-Norton dielectric constant up to the second order are its derivatives, and the Born functions Z, Y, Q, U, N, X are the derivatives defining them.", "quantifier": "all smooth density functions, all T and P", "why_tests_cant": "Derivatives along an arbitrary density function; fails only at isolated temperatures.", "anchors": ["ThermoFun/Substances/Solvent/Reaktoro/WaterElectroStateJohnsonNorton.cpp: waterElectroStateJohnsonNorton"]}
{"id": "C81", "title": "Numerically differentiated dielectric models are accurate to second order everywhere", "statement": "The derivatives of the dielectric constant reported by the Sverjensky and Fernandez models approximate the true derivatives to second order in the step at every temperature and pressure, and all Born functions follow from them in the units of the other model.", "quantifier": "all smooth dielectric functions, all T and P including 0 degC and the saturation convention P = 0", "why_tests_cant": "Quantifies over functions; fails on special points.", "anchors": ["ThermoFun/Substances/Solvent/WaterElectroSverjensky2014.cpp: electroPropertiesWaterSverjensky2014", "ThermoFun/Substances/Solvent/WaterElectroFernandez1997.cpp: electroPropertiesWaterFernandez1997"]}
{"id": "C82", "title": "The Zhang-Duan water model is internally consistent", "statement": "The slope of the volume iteration is the derivative of its residual, the fugacity coefficient satisfies d ln phi = (Z-1) dP/P along isotherms, and the reported density derivatives are those of the density in K and Pa.", "quantifier": "all T, P, volumes", "why_tests_cant": "Derivative identities over a continuum.", "anchors": ["ThermoFun/Substances/Solvent/WaterZhangDuan2005.cpp: waterMolarVolume, waterFugacityCoeff, propertiesWaterZhangDuan2005"]}
{"id": "C83", "title": "The Fernandez dielectric constant solves the Harris-Alder equation", "statement": "The dielectric constant computed from the correlation factor is the root not below one of the Harris-Alder equation for all temperatures and densities in the physical range.", "quantifier": "all T > 0, densities below the polarisation catastrophe, nonnegative correlation factors", "why_tests_cant": "Algebraic identity over a continuum.", "anchors": ["ThermoFun/Substances/Solvent/WaterElectroFernandez1997.cpp: epsilonF"]}
{"id": "C84", "title": "The pressure correction of gases is on for every species of a reaction", "statement": "While a reaction is computed from its species, every species is evaluated with the pressure correction of gases switched on, whatever the other species are.", "quantifier": "all reactions, all databases, all states of the engine", "why_tests_cant": "The flag is mutable state shared with nested calculations; whether it is still on depends on the kind and the order of the other species.", "anchors": ["ThermoFun/ThermoEngine.cpp: thermoPropertiesReactionFromReactants, reacDCthermoProperties"]}
{"id": "C85", "title": "A change of preferences or conventions takes effect on the next query", "statement": "After the conventions or preferences of an engine are changed, queries are answered according to the new settings, as by the same engine with empty caches.", "quantifier": "all engines, all histories of queries, all changes of settings", "why_tests_cant": "Depends on what was asked before the change; a test has to guess the history.", "anchors": ["ThermoFun/ThermoEngine.cpp: preferences, conventions, set_fn", "ThermoFun/OptimizationUtils.h: memoizeN"]}
{"id": "C86", "title": "The derivatives carried by the results for reactions are derivatives", "statement": "The temperature and pressure derivatives carried by the equilibrium constant and Gibbs energy of a reaction are the derivatives of those functions of T and P.", "quantifier": "all reactions, all T and P", "why_tests_cant": "Derivative of a function over a continuum of T and P.", "anchors": ["ThermoFun/ThermoEngine.cpp: thermoPropertiesReactionFromReactants, thermoPropertiesReaction"]}
{"id": "C87", "title": "The pressure correction of a reaction keeps its properties consistent", "statement": "After the constant-volume pressure correction, ln K = ln(10) log K, G = -RT ln K, G = H - TS, U = H - PV and A = U - TS, and G has changed by V (P - Pr).", "quantifier": "all reactions with a logK(T) function, all T and P", "why_tests_cant": "Identity over all coefficients, T and P; at the reference pressure everything looks right.", "anchors": ["ThermoFun/ThermoEngine.cpp: thermoPropertiesReaction (CPM_CON)"]}
{"id": "C88", "title": "Reaction properties do not depend on the convention for apparent properties", "statement": "For a reaction whose elements balance, the Gibbs energy and equilibrium constant computed from the species are the same in the Benson-Helgeson and in the Berman-Brown convention.", "quantifier": "all balanced reactions, all databases, all T and P", "why_tests_cant": "Quantifies over databases and reactions; only reactions with some classes of species fail.", "anchors": ["ThermoFun/ThermoEngine.cpp: toBermanBrown, thermoPropertiesSubstance, thermoPropertiesReactionFromReactants"]}
{"id": "C89", "title": "The expansivity and compressibility of a record are used in the unit it states", "statement": "The solid models calculate with the expansivity (1/K) and compressibility (kbar) of the record, whichever unit the record states for them.", "quantifier": "all records, all values", "why_tests_cant": "All shipped databases state the same mistaken units, so tests never see the right ones.", "anchors": ["ThermoFun/Common/ParseJsonToData.cpp: read_value_unit", "ThermoFun/Substances/Solids/SolidMurnaghanHP98.cpp: thermoPropertiesMinMurnaghanEOSHP98"]}
{"id": "C90", "title": "Loading a file again changes nothing; the last record of a symbol wins", "statement": "Loading the same valid file a second time leaves every map of the database as it was, and after a load each symbol of the file has the content of its last record in the file.", "quantifier": "all files, all databases, all symbols", "why_tests_cant": "Quantifies over files with repeated symbols and over the previous content of the database.", "anchors": ["ThermoFun/Database.cpp: fromFile, addRecord, appendData"]}
{"id": "C91", "title": "Values of records are converted from the units the record states", "statement": "A list of parameters in a record is read with each value converted from its stated unit to the unit of the program; without stated units the values are taken as they are.", "quantifier": "all lists of parameters, all lists of units and values", "why_tests_cant": "Depends on the combination of units in a record; every shipped database uses one combination.", "anchors": ["ThermoFun/Common/ParseJsonToData.cpp: read_values_units, convert_values_units, thermoParamSubst, thermoParamReac"]}
{"id": "C92", "title": "A record is read as what it says", "statement": "Reading a well-formed record of a substance, reaction or element raises nothing, and every field of the result has the value the record states for it, or the default if it states none, whatever other keys the record has.", "quantifier": "all well-formed records, with all subsets of fields, methods, coefficients, units and errors", "why_tests_cant": "Quantifies over records; a test sees a handful.", "anchors": ["ThermoFun/Common/ParseJsonToData.cpp: parseSubstance, parseReaction, parseElement, getTPMethods, thermoParamSubst, thermoParamReac, thermoRefPropSubst, thermoRefPropReac, readValueErrorUnit"]}
{"id": "C93", "title": "The Wagner-Pruss state holds the derivatives of the Helmholtz energy", "statement": "Every derivative in the state returned by the Wagner-Pruss (IAPWS-95) equation, up to the third order, is the corresponding partial derivative of the Helmholtz energy in the same state.", "quantifier": "all temperatures above zero and all densities above zero", "why_tests_cant": "A derivative is a limit over all neighbouring states; finite differences of a 56-term sum hide errors below their own noise, and the third derivatives are never compared.", "anchors": ["ThermoFun/Substances/Solvent/Reaktoro/WaterHelmholtzStateWagnerPruss.cpp: waterHelmholtzStateWagnerPruss"]}
{"id": "C94", "title": "The Haar-Gallagher-Kell state holds the derivatives of the Helmholtz energy", "statement": "Every derivative in the state returned by the Haar-Gallagher-Kell equation, up to the third order, is the corresponding partial derivative of the Helmholtz energy in the same state.", "quantifier": "all states in the domain of the equation", "why_tests_cant": "A derivative is a limit over all neighbouring states; a test compares a few numbers at a few states.", "anchors": ["ThermoFun/Substances/Solvent/Reaktoro/WaterHelmholtzStateHGK.cpp: waterHelmholtzStateHGK and its five parts"]}
{"id": "C95", "title": "Water becomes an ideal gas at low density", "statement": "As the density tends to zero at a fixed temperature, the pressure over the density tends to R T, and the derivatives of the pressure to those of an ideal gas.", "quantifier": "all temperatures above zero", "why_tests_cant": "A limit; no finite set of densities shows it.", "anchors": ["ThermoFun/Substances/Solvent/Reaktoro/WaterHelmholtzStateWagnerPruss.cpp: waterHelmholtzStateWagnerPruss", "ThermoFun/Substances/Solvent/Reaktoro/WaterHelmholtzStateHGK.cpp: waterHelmholtzStateHGK", "ThermoFun/Substances/Solvent/Reaktoro/WaterThermoStateUtils.cpp: waterThermoState"]}
{"id": "C96", "title": "Dissolved gases (Akinfiev-Diamond) have consistent properties", "statement": "With consistent properties of water, of its ideal gas and of the gas, the properties of a dissolved gas satisfy dG/dT = -S, dS/dT = Cp/T, dH/dT = Cp, dG/dP = V, U = H - PV, A = U - TS.", "quantifier": "all parameters, all consistent water properties, all T > 0 and P", "why_tests_cant": "Derivative identities over a continuum of T and P and all parameters; the volume error is seven digits down.", "anchors": ["ThermoFun/Substances/Solute/SoluteADgems.cpp: thermoPropertiesAqSoluteAD, Akinfiev_EOS_increments"]}
{"id": "C97", "title": "Solutes of the density models (Anderson, Holland-Powell) have consistent properties", "statement": "With any smooth solvent density, the properties of a solute satisfy dG/dT = -S, dS/dT = Cp/T, dG/dP = V, G - H + TS is constant, U = H - PV, A = U - TS.", "quantifier": "all records, all smooth solvents, all T > 0 and P", "why_tests_cant": "Derivative identities over a continuum of T and P; a test compares single values with a table.", "anchors": ["ThermoFun/Substances/Solute/SoluteAnderson91.cpp: thermoPropertiesAqSoluteAN91", "ThermoFun/Substances/Solute/SoluteHollandPowell98.cpp: thermoPropertiesAqSoluteHP98"]}
{"id": "C98", "title": "The derivatives every model returns are the derivatives of its results", "statement": "When the inputs of a model of substances or reactions carry their partial derivatives in T and P, each property it returns carries the partial derivatives of its value.", "quantifier": "all records, all models, all T > 0 and P > 0", "why_tests_cant": "A derivative is a limit over neighbouring states; tests compare the values and never look at the derivatives carried with them.", "anchors": ["ThermoFun/Substances/StandardEntropyCpIntegration.cpp: thermoPropertiesEntropyCpIntegration", "ThermoFun/Substances/EmpiricalCpIntegration.cpp: thermoPropertiesEmpCpIntegration", "ThermoFun/Substances/Solids/SolidBerman88.cpp, SolidMurnaghanHP98.cpp", "ThermoFun/Substances/Solute/SoluteHKFreaktoro.cpp, SoluteHKFgems.cpp, SoluteAnderson91.cpp, SoluteHollandPowell98.cpp, SoluteADgems.cpp", "ThermoFun/Reactions/LogK_function_of_T.cpp, DolejsManning2010.cpp, FrantzMarshall.cpp, RyzhenkoBryzgalin.cpp"]}
{"id": "C99", "title": "The cubic solver of the gas models returns the roots", "statement": "For every monic cubic the three numbers returned are its real roots: three different ones, or the single root (each double root counted) repeated.", "quantifier": "all real coefficients", "why_tests_cant": "The branches meet on a surface of coefficients that no test hits, and the literal used for pi gives errors in the eighth digit.", "anchors": ["ThermoFun/Substances/Gases/s_solmod2_.cpp: TPRSVcalc::CubicRoots, TSRKcalc::CubicRoots, TPR78calc::CubicRoots"]}
{"id": "C100", "title": "The gas volume solves the equation of state", "statement": "The volume returned by the Peng-Robinson and SRK models satisfies P = RT/(v-b) - a/(v^2+2bv-b^2) (PR) or P = RT/(v-b) - a/(v(v+b)) (SRK), and among the solutions it is the one with the smallest fugacity.", "quantifier": "all positive T, P, a, b", "why_tests_cant": "An equation for every state; a test with two states in the middle of the range does not reach the root selection.", "anchors": ["ThermoFun/Substances/Gases/s_solmod2_.cpp: TPRSVcalc::FugacityPure, TSRKcalc::FugacityPure, TPR78calc::FugacityPure"]}
{"id": "C101", "title": "Fugacity coefficient and volume of a gas belong together", "statement": "The residual Gibbs energy is RT ln(phi) and its derivative with respect to pressure is v - RT/P.", "quantifier": "all positive T, P, a, b", "why_tests_cant": "A derivative identity; tests compare phi and v with tables separately.", "anchors": ["ThermoFun/Substances/Gases/s_solmod2_.cpp: FugacityPure, ResidualFunct of TPRSVcalc, TSRKcalc, TPR78calc"]}
{"id": "C102", "title": "Residual entropy and enthalpy of a gas belong to its fugacity coefficient", "statement": "The residual entropy is minus the temperature derivative of the residual Gibbs energy, and the residual enthalpy is G + TS, with the attraction term a(T) the model itself uses.", "quantifier": "all critical parameters, all T and P", "why_tests_cant": "A derivative identity that fails on the critical isotherm and far above the critical temperature, where no test looks.", "anchors": ["ThermoFun/Substances/Gases/s_solmod2_.cpp: AB, FugacityPT, FugacityPure, ResidualFunct of TPRSVcalc, TSRKcalc, TPR78calc"]}
{"id": "C103", "title": "Residual heat capacity of a gas belongs to its enthalpy", "statement": "The derivatives da/dT and d2a/dT2 are those of a(T), and the residual heat capacity is the temperature derivative of the residual enthalpy.", "quantifier": "all critical parameters, all T and P", "why_tests_cant": "A second derivative; a sign error in one of its terms changes the heat capacity by a few percent only.", "anchors": ["ThermoFun/Substances/Gases/s_solmod2_.cpp: AB, ResidualFunct of TPRSVcalc, TSRKcalc, TPR78calc"]}
{"id": "C104", "title": "The properties of a gas are consistent after the pressure correction", "statement": "G = H - TS, dH/dT = Cp, dG/dP = V hold for the properties of a gas returned by the library, with and without the option that applies the pressure to gases.", "quantifier": "all records, states and both options", "why_tests_cant": "Identities over all states and both options; each option is right for one reader of the numbers.", "anchors": ["ThermoFun/Substances/Gases/GasPRSV.cpp, GasSRK.cpp, GasPR78.cpp: thermoPropertiesGas*", "ThermoFun/ThermoEngine.cpp: apply_p, applyPressure"]}
{"id": "C105", "title": "The models of gases, dissolved gases and solids read only coefficients their records have", "statement": "A record with too few coefficients raises an error; no element past the end of a vector is read.", "quantifier": "all records, all numbers of coefficients", "why_tests_cant": "Reading past the end of a vector returns some number; a test with complete records does not see it.", "anchors": ["ThermoFun/Substances/Gases/GasPRSV.cpp, GasSRK.cpp, GasPR78.cpp", "ThermoFun/Substances/Solute/SoluteADgems.cpp: thermoPropertiesAqSoluteAD", "ThermoFun/Substances/Solute/SoluteHollandPowell98.cpp: thermoPropertiesAqSoluteHP98", "ThermoFun/Substances/Solids/SolidBMGottschalk.cpp:154-188"]}
{"id": "C106", "title": "The Birch-Murnaghan volume solves the Birch-Murnaghan equation", "statement": "The slope of the Newton steps is the derivative of the residual; the volume returned is positive and gives the stated pressure within the tolerance, for every solid for which the pressure has a solution near the start.", "quantifier": "all volumes at zero pressure, bulk moduli, their derivatives, pressures and starts for which the slope varies by a factor of two at most", "why_tests_cant": "The loop stops after 50 steps whether or not it has converged; a test checks a few minerals.", "anchors": ["ThermoFun/Substances/Solids/SolidBMGottschalk.cpp:27-79"]}
{"id": "C107", "title": "The pressure increment of G is the integral of the Birch-Murnaghan volume", "statement": "The increment of G has the volume as its derivative with respect to pressure, is zero at the reference pressure, and is insensitive to the first order in the error of the volume.", "quantifier": "all Birch-Murnaghan solids, all pressures", "why_tests_cant": "The closed form of the integral is checked neither against the volume nor at the reference pressure by a numeric test of a few minerals.", "anchors": ["ThermoFun/Substances/Solids/SolidBMGottschalk.cpp:17-26", "ThermoFun/Substances/Solids/SolidBMGottschalk.cpp:80-150"]}
{"id": "C108", "title": "The properties of a Birch-Murnaghan solid are consistent", "statement": "G = H - TS, U = H - PV, A = U - TS, dG/dP = V and dG/dT = -S for the properties returned, if they hold for those that come in; compression decreases the volume.", "quantifier": "all solids, temperatures and pressures", "why_tests_cant": "Relations between derivatives hold at every state or not at all; a table of values shows neither.", "anchors": ["ThermoFun/Substances/Solids/SolidBMGottschalk.cpp:154-188"]}
{"id": "C109", "title": "Reactions computed from species obey the equations of van 't Hoff and Planck", "statement": "After any history of queries the properties of a reaction computed from its species are the sums over the answers for the species asked one by one. If those of each species satisfy dG/dT = -S, dH/dT = Cp, G = H - TS up to constants that cancel in the reaction, and dG/dP = V, then so do those of the reaction, and d ln K/dT = H/(RT^2), d ln K/dP = -V/(RT).", "quantifier": "all reactions, all species models, all histories of queries, all T and P", "why_tests_cant": "Relations between derivatives of functions assembled through caches and a switchable gas correction; a test compares numbers at a few states of a fresh engine.", "anchors": ["ThermoFun/ThermoEngine.cpp: thermoPropertiesReactionFromReactants", "ThermoFun/ThermoEngine.cpp: thermoPropertiesSubstance"]}
{"id": "C110", "title": "Mineral reactions are consistent from the record to the equilibrium constant", "statement": "For a reaction between minerals with tabulated heat capacities and constant volumes, whose data hang together (G = H - Tr(S - S of the elements), transitions at equilibrium) and which balances in the elements, the engine gives an answer at every pressure; dG/dT = -S, dH/dT = Cp, G = H - TS, dG/dP = V, d ln K/dT = H/(RT^2) and d ln K/dP = -V/(RT), in both conventions for the Gibbs energy.", "quantifier": "all databases of such minerals with any number of intervals and transitions, all balanced reactions, all temperatures inside an interval, all pressures, all histories of queries", "why_tests_cant": "Covers dispatch, heat capacity integration, pressure correction, convention and summation together, for all data.", "anchors": ["ThermoFun/ThermoEngine.cpp:234-466, 777-836", "ThermoFun/Substances/Solids/EmpiricalCpIntegration.cpp", "ThermoFun/ThermoModelsSubstance.cpp: EmpiricalCpIntegration, ConMolVol"]}
{"id": "C111", "title": "At the reference pressure the pressure step of a reaction changes nothing", "statement": "A reaction with a logK(T) function has, at the reference pressure, the log K, ln K, G and H of that function, whatever its pressure method.", "quantifier": "all reactions with a logK(T) function, all pressure methods, all temperatures", "why_tests_cant": "The result of the pressure method replaces the earlier one; only a reaction with that method shows it, and no shipped test has one.", "anchors": ["ThermoFun/ThermoEngine.cpp:728-760", "ThermoFun/ThermoModelsReaction.cpp:191-200"]}
{"id": "C112", "title": "A JSON file of minerals gives consistent equilibrium constants", "statement": "A file whose substances are the solvent and minerals with tabulated heat capacities, constant volumes and data that hang together is loaded without an exception, each record as what it says. On an engine constructed from the database, every reaction between these minerals that balances in the elements has an answer, and dG/dT = -S, dH/dT = Cp, G = H - TS, dG/dP = V, d ln K/dT = H/(RT^2) and d ln K/dP = -V/(RT).", "quantifier": "all files of such records, with any number of records, intervals and units, all engines on them with any preferences, all balanced reactions, temperatures inside an interval, pressures and histories of queries", "why_tests_cant": "Reader, database, engine and numeric models together; a test compares the numbers of a few shipped records.", "anchors": ["ThermoFun/Common/ParseJsonToData.cpp: parseSubstance", "ThermoFun/Database.cpp: addRecord, fromFile", "ThermoFun/ThermoEngine.cpp:82-86, 234-466, 777-836"]}
{"id": "C113", "title": "CORK: fluids without own parameters follow one Gibbs energy", "statement": "For a fluid other than H2O and CO2, the residual Gibbs energy is RT ln(phi), its pressure derivative is the volume minus that of the ideal gas, the residual entropy is minus its temperature derivative, H = G + TS, the residual heat capacity is dH/dT, and phi tends to 1 as the pressure goes to 0.", "quantifier": "all critical temperatures and pressures, all T and P of the range in which the model is used", "why_tests_cant": "Derivative identities for all fluids at once; no shipped test computes such a fluid.", "anchors": ["ThermoFun/Substances/Gases/s_solmod2_.cpp: TCORKcalc::FugacityCorresponding, CORKCalcFugPure"]}
{"id": "C114", "title": "CORK: volume and fugacity coefficient of H2O and CO2 belong together", "statement": "The volume is a solution of the modified Redlich-Kwong equation plus the virial part, and the pressure derivative of RT ln(phi) is the volume minus that of the ideal gas, for CO2, steam, vapour and liquid; at saturation liquid and vapour have the same fugacity.", "quantifier": "all T and P", "why_tests_cant": "The fugacity of the liquid is composed of three integrals; an error in one shifts numbers smoothly.", "anchors": ["ThermoFun/Substances/Gases/s_solmod2_.cpp: TCORKcalc::FugacityH2O, FugacityCO2, VolumeFugacity, Cardano"]}
{"id": "C115", "title": "CORK: entropy, enthalpy and heat capacity of H2O and CO2 belong to their fugacity", "statement": "The residual entropy is minus the temperature derivative of the residual Gibbs energy, H = G + TS, and the residual heat capacity is dH/dT.", "quantifier": "all T and P", "why_tests_cant": "A sign error in a derivative changes entropy and enthalpy of steam at all temperatures but one, without an implausible number.", "anchors": ["ThermoFun/Substances/Gases/s_solmod2_.cpp: TCORKcalc::FugacityH2O, FugacityCO2, ResidualFunct"]}
{"id": "C116", "title": "CORK: the volume of H2O is continuous outside the saturation curve", "statement": "At fixed pressure the volume of H2O is a continuous function of temperature wherever no phase boundary is crossed.", "quantifier": "all pressures, all temperatures", "why_tests_cant": "A jump shows only between two temperatures on either side of it.", "anchors": ["ThermoFun/Substances/Gases/s_solmod2_.cpp: TCORKcalc::FugacityH2O"]}
{"id": "C117", "title": "CORK: the properties returned for the substance are consistent", "statement": "The entry point adds the residual properties to those of the ideal gas such that G = H - TS holds if it held before; pressure 0 is the limit of small pressures.", "quantifier": "all records, T, P, and properties that come in", "why_tests_cant": "The inconsistency is proportional to ln(phi), small at low pressure where gases are tested.", "anchors": ["ThermoFun/Substances/Gases/GasCORK.cpp:10-41", "ThermoFun/ThermoModelsSubstance.cpp:508-541"]}
{"id": "C118", "title": "A record gets the pressure model that it names", "statement": "For a record with heat capacity equations and one pressure method of the documented list, the engine integrates the heat capacity, then runs the model with that name with the data of the record, and converts to the convention asked for.", "quantifier": "all records, all documented names of pressure methods, all states of the engine, all T and P", "why_tests_cant": "The name passes through a table of codes in the reader and a switch in the engine; a test shows one row.", "anchors": ["ThermoFun/Common/ParseJsonToData.cpp:225-270, 329-393", "ThermoFun/GlobalVariables.h:148-190", "ThermoFun/ThermoEngine.cpp:234-466"]}
{"id": "C119", "title": "STP: the derivatives of the Helmholtz energy are right", "statement": "At every temperature and density the code admits, the first, second and third derivatives it computes are those of the Helmholtz energy of Sterner and Pitzer, and pressure and slope of the Newton iteration belong to it.", "quantifier": "both fluids, all T from 200 to 2000 K, all densities up to the limit of the code", "why_tests_cant": "Nine long expressions with ten temperature dependent coefficients each; a wrong sign in a third derivative changes no tested number visibly.", "anchors": ["ThermoFun/Substances/Gases/s_solmod2_.cpp:5220-5241, 5914-6035"]}
{"id": "C120", "title": "STP: density, fugacity and residual properties belong together", "statement": "The density has the pressure given; G is the integral of V - RT/P, S = -dG/dT, H = G + TS, Cp = dH/dT.", "quantifier": "both fluids, all T and P in the range of the code, all critical constants", "why_tests_cant": "The relations are between derivatives of an implicitly defined function; the Newton iteration stops at a tolerance.", "anchors": ["ThermoFun/Substances/Gases/s_solmod2_.cpp:5469-5732, 5844-5909"]}
{"id": "C121", "title": "STP: the properties returned for the substance are defined and consistent", "statement": "The entry point adds the residual properties such that G = H - TS holds if it held before; every record and temperature gets an answer or an error.", "quantifier": "all records, T, P, and properties that come in", "why_tests_cant": "Uninitialised variables often hold a plausible value.", "anchors": ["ThermoFun/Substances/Gases/GasSTP.cpp:9-40", "ThermoFun/Substances/Gases/s_solmod2_.cpp:5469-5511, 6251-6278", "ThermoFun/ThermoModelsSubstance.cpp:706-715"]}
{"id": "C122", "title": "CGF reads only the coefficients it was given", "statement": "The model of Churakov and Gottschalk accesses arrays within their bounds, for every record.", "quantifier": "all records, T, P", "why_tests_cant": "Reading five doubles past an array of seven on the heap rarely crashes.", "anchors": ["ThermoFun/Substances/Gases/GasCGF.cpp:9-36", "ThermoFun/Substances/Gases/s_solmod2_.cpp:2265-2285"]}
{"id": "C123", "title": "The properties of water in the gems code are those of one fluid", "statement": "Along a density that solves the pressure equation of the code, the expansivity and compressibility reported by dimHGK are the derivatives of the density, Cp is the derivative of the enthalpy along the isobar, (dH/dP) = V - T dV/dT, Cp - Cv and the speed of sound follow from the same derivatives.", "quantifier": "all temperatures, pressures and densities where the equation of state is smooth", "why_tests_cant": "Derivatives of forty residual terms with cut-offs; a wrong term shows in one region of T and P only.", "anchors": ["ThermoFun/Substances/Solvent/WaterHGK-JNgems.cpp:2615-2641", "ThermoFun/Substances/Solvent/WaterHGK-JNgems.cpp:2646-2709", "ThermoFun/Substances/Solvent/WaterHGK-JNgems.cpp:2508-2609"]}
{"id": "C124", "title": "Entropy and Gibbs energy of water in the gems code are derived from the same Helmholtz energy", "statement": "dS/dT = Cp/T, dS/dP = -dV/dT, dG/dT = -S and dG/dP = V for the entropy and Gibbs energy reported by dimHGK.", "quantifier": "all temperatures, pressures and densities where the equation of state is smooth", "why_tests_cant": "The error is of relative size 1e-10: below the tolerance of every test.", "anchors": ["ThermoFun/Substances/Solvent/WaterHGK-JNgems.cpp:2646-2709", "ThermoFun/Substances/Solvent/WaterHGK-JNgems.cpp:2136-2168"]}
{"id": "C125", "title": "dAldT is the derivative of the expansivity", "statement": "The value dalHGK of WaterHGK-JNgems.cpp is the derivative of the expansivity by temperature along the isobar, for every state.", "quantifier": "all temperatures, pressures and densities where the equation of state is smooth", "why_tests_cant": "The wrong term vanishes exactly outside 522-758 K and is negligible except near the critical density.", "anchors": ["ThermoFun/Substances/Solvent/WaterHGK-JNgems.cpp:2855-3015"]}
{"id": "C126", "title": "The Born functions of the gems water code are derivatives of the permittivity", "statement": "Along every density that solves the equation of state of WaterHGK-JNgems.cpp: Z = -1/eps, Y is the derivative of Z by temperature, Q (per bar) the derivative of Z by pressure and X the derivative of Y by temperature.", "quantifier": "all temperatures and pressures within the range of the Born functions where the equation of state is smooth", "why_tests_cant": "Y, Q and X are computed from separate formulas with alpha, beta and dAldT; an error of dAldT shows up in X only, and only between 522 and 758 K near the critical density.", "anchors": ["ThermoFun/Substances/Solvent/WaterHGK-JNgems.cpp:2281-2311", "ThermoFun/Substances/Solvent/WaterHGK-JNgems.cpp:2778-2853"]}
{"id": "C127", "title": "The density search of the gems water code returns the density of the pressure asked for", "statement": "For every pressure, temperature and guess, denHGK returns a density at which the equation of state has the pressure asked for, within the tolerance, and at which the fluid is stable.", "quantifier": "all pressures, temperatures and initial guesses", "why_tests_cant": "The loop leaves silently after 10 or 30 rounds; whether it converged is not reported, and depends on the guess and the state.", "anchors": ["ThermoFun/Substances/Solvent/WaterHGK-JNgems.cpp:2204-2243"]}
{"id": "C128", "title": "Liquid and vapour on the saturation curve of the gems water code are in equilibrium", "statement": "If pcorr ends, the two densities have the same pressure and Gibbs energies that agree within the tolerance, and the pressure returned is that of equal Gibbs energies to first order.", "quantifier": "all temperatures below the critical one and every number of rounds", "why_tests_cant": "The statement links two inner searches, two Gibbs energies and a pressure that is corrected after the last search.", "anchors": ["ThermoFun/Substances/Solvent/WaterHGK-JNgems.cpp:2492-2506", "ThermoFun/Substances/Solvent/WaterHGK-JNgems.cpp:2741-2767"]}
{"id": "C129", "title": "The state handed out by the gems water code is that of one density at the given pressure", "statement": "For every valid temperature and pressure, calculateWaterHGKgems and the readers hand out for each phase a density that has the given pressure and properties that are those of this density.", "quantifier": "all temperatures and pressures, both phases, all triple point data", "why_tests_cant": "The densities of the two phases are exchanged by index after the properties have been computed; only for one phase of one region are the wrong ones used.", "anchors": ["ThermoFun/Substances/Solvent/WaterHGK-JNgems.cpp:386-524", "ThermoFun/Substances/Solvent/WaterHGK-JNgems.cpp:1617-1766", "ThermoFun/Substances/Solvent/WaterHGK-JNgems.cpp:8-150"]}
{"id": "C130", "title": "The derivatives of the permittivity handed out by the gems water code are in SI units", "statement": "epsilonT, epsilonTT and epsilonP as handed out by electroPropertiesWaterJNgems are the derivatives of epsilon by kelvin and by pascal, and epsilonP = epsilon^2 bornQ.", "quantifier": "all states where the equation of state is smooth", "why_tests_cant": "A wrong unit gives a plausible number; the field is per pascal for another method and per bar for this one.", "anchors": ["ThermoFun/Substances/Solvent/WaterHGK-JNgems.cpp:152-216"]}
{"id": "C131", "title": "Enthalpy and volume handed out by the gems water code belong to the same amount of water", "statement": "The derivative of the enthalpy handed out by pressure is V(1 - alpha T), with the volume and expansivity handed out.", "quantifier": "all states where the equation of state is smooth", "why_tests_cant": "The two molar masses differ in the fifth digit.", "anchors": ["ThermoFun/Substances/Solvent/WaterHGK-JNgems.cpp:8-42", "ThermoFun/Substances/Solvent/WaterHGK-JNgems.cpp:2667-2709"]}
{"id": "C132", "title": "The states of saturated water handed out by the gems water code are those of the two phases", "statement": "At saturation, calculateWaterHGKgems and the readers hand out for liquid and vapour the density of the phase, the properties of this density, and the pressure that is handed back to the caller.", "quantifier": "all temperatures below the near-critical region, both phases, all triple point data", "why_tests_cant": "The saturation pressure comes from a fit and is then refined; which of the two is handed back differs in the seventh digit.", "anchors": ["ThermoFun/Substances/Solvent/WaterHGK-JNgems.cpp:386-524", "ThermoFun/Substances/Solvent/WaterHGK-JNgems.cpp:1617-1766", "ThermoFun/Substances/Solvent/WaterHGK-JNgems.cpp:8-150"]}
{"id": "C133", "title": "The viscosity of the gems water code is that of the formula it cites", "statement": "viscos is the viscosity of Watson et al. (1980): dilute-gas term, exponential of the double sum over powers of 1/T - 1 and rho - 1, and critical factor.", "quantifier": "all temperatures, pressures, densities and compressibilities of the range it accepts", "why_tests_cant": "No test of the code reads the viscosity; the number is smooth and positive everywhere.", "anchors": ["ThermoFun/Substances/Solvent/WaterHGK-JNgems.cpp:2312-2381"]}
{"id": "C134", "title": "The thermal conductivity of the gems water code is that of the formula it cites", "statement": "thcond is the thermal conductivity of Sengers et al. (1984): the dilute-gas term times the exponential of the double sum, plus the critical part.", "quantifier": "all temperatures, pressures, densities, expansivities and compressibilities of the range it accepts", "why_tests_cant": "The value is wrong by about 15 percent for liquid water, which looks plausible.", "anchors": ["ThermoFun/Substances/Solvent/WaterHGK-JNgems.cpp:2383-2476"]}
{"id": "C135", "title": "The saturation curves of water are the published ones", "statement": "waterSaturatedPressureWagnerPruss, waterSaturatedLiquidDensityWagnerPruss and waterSaturatedVapourDensityWagnerPruss return the curves of Wagner and Pruss (1993); the derivatives they carry are those of the curves; pressure and vapour density rise with temperature up to the critical values, vapour is lighter and liquid heavier than the critical density.", "quantifier": "all temperatures below the critical one (rising and order: from 255 K)", "why_tests_cant": "The powers are assembled from products of fractional powers; a slip in one exponent shows only in part of the range.", "anchors": ["ThermoFun/Substances/Solvent/Reaktoro/WaterUtils.cpp:112-179"]}
{"id": "C136", "title": "The search of the water density starts on the side of the phase that is meant, away from the singular densities", "statement": "Vapour starts below and liquid above the critical density, supercritical water at 0.99 times the critical density; the reduced density at the start is neither 0 nor 1.", "quantifier": "all temperatures from 255 K, all pressures and requested states", "why_tests_cant": "The singular start arises at a single temperature or for an unusual request.", "anchors": ["ThermoFun/Substances/Solvent/Reaktoro/WaterUtils.cpp:31-59"]}
{"id": "C137", "title": "Reactions with minerals, aqueous species and water obey the laws of equilibrium", "statement": "For a balanced reaction between minerals, aqueous species (HKF), the hydrogen ion and water, the answers of the engine satisfy dG/dT = -S, dH/dT = Cp, G = H - T S, d ln K/dT = H/(R T^2), dG/dP = V and d ln K/dP = -V/(R T), whatever was asked before.", "quantifier": "all reactions of such species, all smooth water models, all T and P, all histories of queries", "why_tests_cant": "Derivatives of answers with respect to T and P over all parameter sets and histories; the deviation in dG/dP is one part in a million.", "anchors": ["ThermoFun/ThermoEngine.cpp:234-466, 777-836", "ThermoFun/ThermoModelsSubstance.cpp:185-235", "ThermoFun/Substances/Solute/SoluteHKFreaktoro.cpp", "ThermoFun/ThermoEngine.cpp: reaction properties from reactants"]}
{"id": "C138", "title": "The Wagner-Pruss and Johnson-Norton models provide a solvent and a species that fit together", "statement": "If the density solves the Wagner-Pruss equation, the solvent properties, the Born functions and the molar properties of water are differentiable in T and P with the reported derivatives, so that the laws of C137 hold for reactions in that water.", "quantifier": "all T and D of water with dP/dD and dD/dT not 0, all triple-point data, all engines with these models", "why_tests_cant": "Derivatives of an implicitly defined density through four layers of code.", "anchors": ["ThermoFun/Substances/Solvent/WaterWP95reaktoro.cpp", "ThermoFun/Substances/Solvent/Reaktoro/WaterHelmholtzStateWagnerPruss.cpp:146-395", "ThermoFun/Substances/Solvent/Reaktoro/WaterElectroStateJohnsonNorton.cpp", "ThermoFun/Substances/Solvent/Reaktoro/WaterThermoStateUtils.cpp:48-96"]}
{"id": "C139", "title": "The derivatives carried by the computed water density are the derivatives of the computed density", "statement": "Wherever the Newton search ends without a test being on its edge, the density it returns is a differentiable function of T and P near by, and the derivatives propagated through the iteration are its partial derivatives.", "quantifier": "all equations of state, all numbers of iterations, all T and P; Wagner-Pruss with the program's start", "why_tests_cant": "Derivative of the outcome of an iteration with data-dependent branches and length.", "anchors": ["ThermoFun/Substances/Solvent/Reaktoro/WaterUtils.cpp:31-84"]}
{"id": "C140", "title": "Ending the density search before the root costs exactly the missing pressure", "statement": "At a density that misses the pressure by e the reported water state violates dG = -S dT + V dP by e/D^2 times the slope of the density, and dH/dT = Cp by that and by T f_TD times the distance of the slope from the reported one; by nothing else.", "quantifier": "all equations of state, all differentiable densities, all searches that end", "why_tests_cant": "Exact error terms of derivative relations; a test sees a number close to 0.", "anchors": ["ThermoFun/Substances/Solvent/Reaktoro/WaterUtils.cpp:31-84", "ThermoFun/Substances/Solvent/Reaktoro/WaterThermoStateUtils.cpp:48-96"]}
{"id": "C141", "title": "Near-critical water: the state handed out is the state found", "statement": "In the near-critical region the gems water code hands out, for both values of the requested phase, the one state it has found: its density, its volume and its energies, at the pressure asked for.", "quantifier": "all temperatures and pressures of the region with one phase", "why_tests_cant": "The region is 50 K by a few MPa out of the whole range, and the wrong values are zeros, which a test on other points never shows.", "anchors": ["ThermoFun/Substances/Solvent/WaterHGK-JNgems.cpp:475-494", "ThermoFun/Substances/Solvent/WaterHGK-JNgems.cpp:1539-1597", "ThermoFun/Substances/Solvent/WaterHGK-JNgems.cpp:10-42"]}
{"id": "C142", "title": "The near-critical calculation for saturated water ends", "statement": "Asked for saturated water from 643 K to the critical temperature, the gems water code comes to an end and hands out two phases, the liquid the denser, at the saturation pressure of the near-critical equation of state.", "quantifier": "all temperatures of the interval, all bounds on the number of rounds", "why_tests_cant": "Termination of two nested loops, one of which has no bound; a test sees the points it tries, and a test that hangs is removed.", "anchors": ["ThermoFun/Substances/Solvent/WaterHGK-JNgems.cpp:1088-1105", "ThermoFun/Substances/Solvent/WaterHGK-JNgems.cpp:1161-1188", "ThermoFun/Substances/Solvent/WaterHGK-JNgems.cpp:1539-1597"]}
{"id": "C143", "title": "The phases of near-critical saturated water are in equilibrium", "statement": "The two phases handed out for saturated water from 643 K on have the same Gibbs energy, and the differences of their entropies and volumes satisfy the relation of Clausius and Clapeyron with the slope of the saturation pressure the code uses.", "quantifier": "all temperatures from 643 K to the critical one", "why_tests_cant": "A relation between two phases and the derivative of a curve; the code computes them in different functions with different temperatures.", "anchors": ["ThermoFun/Substances/Solvent/WaterHGK-JNgems.cpp:637-726", "ThermoFun/Substances/Solvent/WaterHGK-JNgems.cpp:854-864", "ThermoFun/Substances/Solvent/WaterHGK-JNgems.cpp:1193-1277"]}
{"id": "C144", "title": "A value in an output file is in the unit of its heading", "statement": "In a file written by a batch calculation every number is the quantity the engine has at the temperature and pressure of its line, in the unit its heading names; every symbol and every pair of temperature and pressure has its line; and the same units hold for the values handed out as numbers.", "quantifier": "all batch objects, units, lists of pairs, symbols and properties, engines, and programs of requests, settings and writings", "why_tests_cant": "A file is checked for one choice of units; whether the number and the heading agree depends on what was set when, over all sequences of calls.", "anchors": ["ThermoFun/Batch/ThermoBatch.cpp:247-305", "ThermoFun/Batch/OutputBatch.cpp:44-53", "ThermoFun/Batch/OutputBatch.cpp:108-121", "ThermoFun/Batch/OutputBatch.cpp:174-230", "ThermoFun/Batch/ThermoBatch.h:85-92", "ThermoFun/Batch/ThermoBatch.h:268-320"]}
{"id": "C145", "title": "When a result file is reported written it has been written", "statement": "Whenever a call that writes results to a file returns without an exception, the file holds the headings and a line for every symbol and pair of the last request, whatever calls, failed or not, came before.", "quantifier": "all programs of requests, settings and writings on a batch object and its outputs", "why_tests_cant": "The state of a stream left by an exception shows only in a later call; a test of a failing call ends with the exception.", "anchors": ["ThermoFun/Batch/OutputBatch.cpp:12-53", "ThermoFun/Batch/OutputBatch.cpp:108-121", "ThermoFun/Batch/OutputBatch.cpp:174-230", "ThermoFun/Batch/ThermoBatch.cpp:522-537"]}
{"id": "C146", "title": "Every cell of a table written by OutputToCSV belongs to its heading", "statement": "A file written by OutputToCSV is a table with one line of headings and one line for each record written, in their order; every line has as many cells as there are headings, and each cell is the value its heading names.", "quantifier": "all programs that open, write and close the three files, all records, symbols and number formats", "why_tests_cant": "Three writers with long hand-written lists of headings and fields; state of the streams and header flags over all sequences of calls.", "anchors": ["ThermoFun/Common/OutputToCSV.cpp:47-155", "ThermoFun/Common/OutputToCSV.h:15-45"]}
{"id": "C147", "title": "The methods and properties a program is offered can be used as offered", "statement": "Each line of availableSubstanceTPMethods and availableReactionTPMethods is an entry of a record for one documented method, with the parameters the method needs; values filled in are read into these parameters. The lists of properties hold each property a batch can return, with its unit.", "quantifier": "all documented methods, all values filled in, all parameters read before", "why_tests_cant": "Four tables and a parser keep the keys separately, as strings; a key misspelt in one of them raises no error, the values are passed over.", "anchors": ["ThermoFun/GlobalFunctions.cpp:6-60", "ThermoFun/GlobalVariables.h:148-266", "ThermoFun/Common/ParseJsonToData.cpp:358-408", "ThermoFun/Batch/ThermoBatch.h:169-214"]}
{"id": "C148", "title": "Requests one after another are all answered", "statement": "Every request of a sequence, each with a pressure variable that lives during the request (batch calculations, calls from Python), is answered with the values of the calculation without cache.", "quantifier": "all calculations, with or without a pressure written back, all sequences of requests, all queries in them", "why_tests_cant": "The keys of the caches hold references to variables of requests that are over; whether reading them is noticed depends on the compiler and the stack, in tests it mostly is not.", "anchors": ["ThermoFun/OptimizationUtils.h:52-80", "ThermoFun/ThermoEngine.cpp:91-126", "ThermoFun/Batch/ThermoBatch.cpp:247-305", "python/src/thermofun/pyThermoEngine.cpp:43-111"]}
{"id": "C149", "title": "Every named unit has its accepted value and dimension", "statement": "For every name of the unit table and every number x, converting x from that name to the name's SI expression gives x times the accepted value of the unit (SI brochure, NIST SP 811, CODATA) to one part in ten million.", "quantifier": "all 243 names of the unit table, all real numbers", "why_tests_cant": "Tests convert between a few units the authors had in mind; a table entry nobody converts in a test, such as the tesla, can have the wrong dimension for ever.", "anchors": ["ThermoFun/Common/Units.cpp:97-403"]}
{"id": "C150", "title": "A range gives the points asked for in the arithmetic of the machine", "statement": "Asked for the points from min to min + n*step, the loop over temperatures or pressures gives the n + 1 numbers min + k*step, in double precision.", "quantifier": "all minima, maxima and steps, all numbers of points", "why_tests_cant": "Tests use whole steps, which are exact in binary; a step of 0.1 accumulates rounding errors and decides differently whether the end is reached.", "anchors": ["ThermoFun/Batch/ThermoBatch.cpp:146-169"]}
{"id": "C151", "title": "The symbols of a batch are computed at the pressure asked for, in the arithmetic of the machine", "statement": "Every row of a batch is the answer of the engine at the pressure asked for, converted to its unit, whatever symbols come before it in the batch; and the batch reports the pressure that was asked for.", "quantifier": "all pressures, units, lists of symbols, T-P pairs", "why_tests_cant": "The pressure is converted to Pa and back for every symbol; for most numbers the rounding errors cancel, for some they do not, and a printed table does not show it.", "anchors": ["ThermoFun/Batch/ThermoBatch.cpp:247-305", "ThermoFun/Common/Units.cpp:623-633"]}
{"id": "C152", "title": "A number read from a result file is the number calculated", "statement": "The text written for a number, read as a decimal number, is the calculated number to the digits set, with a relative error that leaves it usable.", "quantifier": "all numbers, all numbers of digits", "why_tests_cant": "Tests compare files with stored files; that a volume in cubic metres is always written as 0.000 is a fact about all volumes.", "anchors": ["ThermoFun/Batch/OutputBatch.cpp:161-230", "ThermoFun/Batch/ThermoBatch.h:33-39", "ThermoFun/Batch/ThermoBatch.h:295-320"]}
{"id": "C153", "title": "Answers do not depend on the order in which the arguments of a call are evaluated", "statement": "The models of solutes and reactions are called with the pressure and with solvent properties whose calculation writes the same pressure variable; whatever order the compiler chooses for these arguments, a query has the same answer and hands back the same pressure.", "quantifier": "all databases, all queries, all temperatures and pressures, all orders of evaluation", "why_tests_cant": "A test runs on one compiler; another compiler, or another optimisation level, may evaluate the arguments in another order.", "anchors": ["ThermoFun/ThermoEngine.cpp:269-292", "ThermoFun/ThermoEngine.cpp:322-333", "ThermoFun/ThermoEngine.cpp:704-718", "ThermoFun/ThermoModelsSolvent.cpp:113-190"]}
{"id": "C154", "title": "The answer at the saturation pressure is the answer at the pressure handed back", "statement": "A pressure of 0 asks for the saturation pressure of water, which is handed back: the answer to the query is the answer to the same query at the pressure handed back.", "quantifier": "all databases, all queries, all temperatures", "why_tests_cant": "Tests of saturated conditions query single solutes or reactions with stored values; which parts of a reaction were calculated at pressure 0 does not show in the result.", "anchors": ["ThermoFun/ThermoEngine.cpp:229-466", "ThermoFun/ThermoEngine.cpp:777-836", "ThermoFun/ThermoModelsSolvent.cpp:113-190"]}
{"id": "C155", "title": "At its reference temperature and pressure every substance has its recorded properties", "statement": "Asked for at the reference temperature and pressure of its record, a substance is answered with the G, H, S and V recorded there, whichever of the models of its pressure dependence it uses and however many temperature intervals it has.", "quantifier": "all records of solids, solutes and gases, all models for them, all parameters, all databases", "why_tests_cant": "Test records keep their reference temperature in the first interval, and tests compare with tables that start away from the reference state.", "anchors": ["ThermoFun/Substances/EmpiricalCpIntegration.cpp lines 45-174", "ThermoFun/Substances/Solids/SolidBMGottschalk.cpp lines 154-188", "ThermoFun/Substances/Solids/SolidBerman88.cpp", "ThermoFun/Substances/Solids/SolidMurnaghanHP98.cpp", "ThermoFun/Substances/Solute/SoluteHollandPowell98.cpp lines 10-74", "ThermoFun/Substances/Gases/GasPR78.cpp lines 9-36"]}
{"id": "C156", "title": "Adding records to a database does not change the answers about the others, and the order of records does not matter", "statement": "A query an engine answers is answered the same, and leaves the engine in the same state, by an engine whose database has further records of substances and reactions besides. Two databases with the same records give the same answers. A file with its records in another order leaves the same database.", "quantifier": "all databases and additions, all queries, all states of the engine, all nesting depths, all JSON files with distinct symbols", "why_tests_cant": "A test uses one database in one order; which other records are in it, and where, is a combination no test varies.", "anchors": ["ThermoFun/ThermoEngine.cpp lines 187-224", "ThermoFun/Database.cpp lines 284-371"]}
{"id": "C157", "title": "A reaction asked for by its equation has the properties its equation says", "statement": "Asked for a reaction by the text of its equation, the engine answers with the properties of the products minus those of the reactants, each times the coefficient that stands in the text; another spelling of the equation gives the same answer, its reverse the negative and a multiple the multiple.", "quantifier": "all equations of any number of species with any coefficients and blanks, all databases, temperatures, pressures and histories of queries", "why_tests_cant": "Tests ask for a few equations with simple coefficients; the spellings of an equation and the queries before it are unlimited.", "anchors": ["ThermoFun/ThermoEngine.cpp lines 657-668", "ThermoFun/ThermoEngine.cpp lines 777-836", "ThermoFun/Reaction.cpp lines 101-146"]}
{"id": "C158", "title": "The properties of a dissolved species do not jump", "statement": "The properties of a dissolved species vary continuously with temperature and pressure, also where the model of its g function changes its equation (155 degC, 1000 bar) and where it is cut off (1000 kg/m3).", "quantifier": "all species of any charge with any seven parameters, all solvents with continuous density and Born functions, all temperatures above 228 K and all pressures", "why_tests_cant": "A jump lies on a line of the temperature-pressure plane, which a table of tested states misses or straddles without noticing.", "anchors": ["ThermoFun/Substances/Solute/SoluteHKFreaktoro.cpp lines 150-290", "ThermoFun/Substances/Solute/SoluteHKFgems.cpp lines 148-330", "ThermoFun/Substances/Solvent/WaterHGK-JNgems.cpp lines 2281-2311"]}
{"id": "C159", "title": "A model of water answers within its range, with a state of its equation, and refuses outside", "statement": "The gems code and the Zhang-Duan model answer for the temperatures and pressures in the range they state and refuse the others with an error; the volume that the Zhang-Duan model answers with is positive and its equation of state gives the pressure asked for.", "quantifier": "all temperatures and pressures", "why_tests_cant": "Tests run at states that are known to work; the range ends along curves, and Newton's method leaves the physical root on thin strips of states.", "anchors": ["ThermoFun/ThermoModelsSolvent.cpp lines 17-47", "ThermoFun/ThermoModelsSolvent.cpp lines 217-244", "ThermoFun/Substances/Solvent/WaterZhangDuan2005.cpp lines 34-80", "ThermoFun/Substances/Solvent/WaterHGK-JNgems.cpp lines 386-470", "ThermoFun/Substances/Solvent/WaterHGK-JNgems.cpp lines 552-607", "ThermoFun/Substances/Solvent/WaterHGK-JNgems.cpp lines 954-984"]}
{"id": "C160", "title": "A query leaves the caller's pressure as it was", "statement": "The pressure is passed by reference to every query.  If it is not 0, a query answers as if the pressure had been passed by value, and the caller's variable holds the same pressure afterwards, whether the query answers or raises.", "quantifier": "all databases, kinds of queries, temperatures, pressures other than 0 and sequences of queries that share one variable", "why_tests_cant": "Tests pass a new variable to each query and do not look at it afterwards; that it is changed shows only in what is calculated next.", "anchors": ["ThermoFun/ThermoEngine.cpp lines 229-250", "ThermoFun/ThermoEngine.cpp lines 494-581", "ThermoFun/ThermoEngine.cpp lines 657-670", "ThermoFun/ThermoEngine.cpp lines 856-909", "ThermoFun/ThermoModelsSolvent.cpp lines 72-91", "ThermoFun/ThermoModelsSolvent.cpp lines 113-137", "ThermoFun/ThermoModelsSolvent.cpp lines 164-190"]}
{"id": "C161", "title": "What the Python module offers can be called as described", "statement": "Every function and attribute of the Python module can be called with some arguments and hands its result over; a call reaches the function whose argument types it has, whatever the order of the definitions; functions that are described with default values have them; and an object a Python program holds is valid as long as it is held.", "quantifier": "all exported functions and attributes, all Python arguments given by position, all orders of definition and all sequences of making, taking, forgetting and using objects", "why_tests_cant": "The Python tests call a handful of the 442 exported functions; a type that is not registered shows only when the function is called, and a dangling reference usually still reads the old memory.", "anchors": ["python/src/thermofun/PyThermoFun.cpp lines 23-57", "python/src/thermofun/pyThermoEngine.cpp lines 36-134", "python/src/thermofun/pyDatabase.cpp lines 37-107", "python/src/thermofun/pySubstance.cpp lines 35-84", "python/src/thermofun/pyReaction.cpp lines 36-75", "python/src/thermofun/Batch/pyThermoBatch.cpp lines 41-125", "python/src/thermofun/Common/pyThermoScalar.cpp lines 34-79"]}
{"id": "C162", "title": "Cycles of reactions close", "statement": "If reactions computed from their species, each taken a number of times, cancel species by species, then so do their properties: the sum of G, H, S, Cp, V, U, A, ln K and log K around any cycle of reactions is zero, however each reaction was asked for and whatever was asked before.", "quantifier": "all databases, all cycles of any number of reactions of any number of species with any multiples, all temperatures, pressures and histories of queries", "why_tests_cant": "Tests compare single reactions with reference values; that no combination of reactions creates energy concerns unboundedly many cycles.", "anchors": ["ThermoFun/ThermoEngine.cpp lines 583-668", "ThermoFun/ThermoEngine.cpp lines 777-836"]}
{"id": "C163", "title": "The text a record hands out describes it", "statement": "Reading the JSON text that an element, substance or reaction hands out gives the record; a database written out as the texts of its records and read into an empty one is the same.", "quantifier": "all databases filled by any sequence of files, lists of texts and records, all setters with all values", "why_tests_cant": "Tests look at the text of a record just read; sequences of reading, setting and writing are unlimited, and losses show only on reading again.", "anchors": ["ThermoFun/Substance.cpp lines 88-94, 108-212, 319-322", "ThermoFun/Reaction.cpp lines 153-159, 174-252, 335-338", "ThermoFun/Element.cpp lines 48-54, 85-138, 190-193", "ThermoFun/Database.cpp lines 282-388"]}
{"id": "C164", "title": "Recomputing charges from formulas sets the charges and nothing else", "statement": "After setSubstancesChargeFromFromula every substance has the charge of its formula and is otherwise unchanged; the warnings name the substances whose charge was another with the old and the new charge; a second call changes nothing; a failure changes nothing.", "quantifier": "all databases of any number of substances, all charges, all formulas", "why_tests_cant": "Tests call it on one database whose charges are already right and do not read the warnings.", "anchors": ["ThermoFun/Database.cpp lines 654-684", "ThermoFun/Substance.cpp lines 169-172"]}
{"id": "C165", "title": "A real gas becomes ideal at low pressure, and only there", "statement": "With the cubic equations of state PRSV, SRK and PR78 the volume approaches RT/P and the fugacity coefficient 1 as the pressure goes down, with deviations bounded by a multiple of A + B, A = aP/(RT)^2, B = bP/(RT); the residual Gibbs energy, enthalpy, entropy and heat capacity vanish in proportion to the pressure; where the liquid also is a root it is not taken; the switch to the ideal gas below 1e-5 bar makes no jump beyond the bound; a dense gas is never returned as ideal.", "quantifier": "all critical parameters, all temperatures, all pressures", "why_tests_cant": "Tests compare gases at one or two pressures of hundreds of bar; no test goes near 1e-5 or 1e5 bar or below the lower temperature of a record.", "anchors": ["ThermoFun/Substances/Gases/s_solmod2_.cpp lines 413-581, 586-613, 826-850, 2825-2971, 3220-3244, 3629-3786, 4034-4058"]}
{"id": "C166", "title": "The volume returned is positive and shrinks under pressure", "statement": "The state of a gas or mineral returned by its equation of state is mechanically stable: the volume is positive and at it the pressure of the equation falls with the volume; of three roots of a cubic equation the middle, unstable one is never taken; the volume of a mineral decreases with the pressure at every temperature.", "quantifier": "all parameters, all temperatures, all pressures", "why_tests_cant": "An unstable root looks like any other number; tests compare single states and never the change from one pressure to the next, and not above 5 kbar.", "anchors": ["ThermoFun/Substances/Gases/s_solmod2_.cpp lines 487-581, 2884-2971, 3692-3786, 4425-4835", "ThermoFun/Substances/Solids/SolidMurnaghanHP98.cpp", "ThermoFun/Substances/Solids/SolidBerman88.cpp"]}
{"id": "C167", "title": "The uncertainty of a reaction follows from those of its species", "statement": "The uncertainty reported for Cp, G, H, S and V of a reaction computed from its species is the root of the sum of the squares of coefficient times the uncertainty of the species; that of ln K is that of G over RT, and that of log K follows from it; the uncertainty of a substance defined by a reaction combines that of the reaction with those of the other species; the defining reaction computed back from its species has the uncertainty of its record.", "quantifier": "all databases, all reactions with any number of species, all values and uncertainties, all temperatures and pressures", "why_tests_cant": "Tests compare values only; wrong uncertainties are plausible numbers, and exact zeros of the value appear rarely in test data.", "anchors": ["ThermoFun/ThermoEngine.cpp lines 583-655, 777-836", "ThermoFun/Common/ThermoScalar.hpp lines 105-138, 351-366, 383-398"]}
{"id": "C168", "title": "An error says what went wrong and where; the log goes where it was asked to go", "statement": "The text of every error can be read back to the error, its reason, and the file and line where it was raised, the record in the log names the same place, and after update_loggers the records of at least the level asked for, and no others, reach the console if it was asked for and the file if one was named. This holds for errors raised with a short path and one-line texts; it fails for longer paths, for names with line breaks, for lookups of missing records (no file), for water of Zhang and Duan out of range (no line at all), for every record in the log, and when console and file are both asked for.", "quantifier": "all errors, reasons, paths and lines; all names; all temperatures and pressures; all registries of loggers, all arguments of update_loggers and clear_loggers", "why_tests_cant": "Tests of errors check that one is thrown, not that its text identifies the place; an unset line prints some number, and a log that went nowhere shows no failure.", "anchors": ["ThermoFun/Common/Exception.cpp:18-104", "ThermoFun/Common/Exception.cpp:155-229", "ThermoFun/Common/Exception.h:21-51", "ThermoFun/Database.cpp:18-25", "ThermoFun/Database.cpp:175-197", "ThermoFun/ThermoModelsSolvent.cpp:17-46", "ThermoFun/ThermoModelsSolvent.cpp:217-240", "ThermoFun/Substances/Solute/SoluteHKFgems.cpp:29-36", "ThermoFun/Substances/Solute/SoluteHollandPowell98.cpp:36-44"]}
{"id": "C169", "title": "Minerals with a transition are consistent from the record to the answer", "statement": "The answers for a mineral with a table of heat capacities, a Landau transition and the Murnaghan equation of state obey dG/dT = -S, dH/dT = Cp, G = H - T S up to the entropy of the elements, and dG/dP = V, below and above the transition.", "quantifier": "all such records whose data hang together, all transition parameters, all temperatures and pressures of the models, all databases", "why_tests_cant": "Tests compare single values with tables to a few digits; the excess volume of a transition is smaller than the tolerances, and no test differentiates the reported Gibbs energy.", "anchors": ["ThermoFun/Substances/Solids/SolidHPLandau.cpp lines 9-91", "ThermoFun/Substances/Solids/SolidMurnaghanHP98.cpp lines 9-80", "ThermoFun/Substances/EmpiricalCpIntegration.cpp lines 45-174", "ThermoFun/ThermoEngine.cpp"]}
{"id": "C170", "title": "A setter sets its property and nothing else; the equation of a reaction is the equation of its reactants", "statement": "After any sequence of setters each getter of a substance, a reaction or an element returns what the last setter of its name was given, or what it returned before. A reaction made from an equation, whether it is new or had another equation before, has the species and coefficients of that equation and no others, and a reaction whose equation is set is calculated with that equation.", "quantifier": "For all sequences of setters of any length, all records and getters; for all well-formed equations and all reactions they are read into.", "why_tests_cant": "The sequences of setters and the equations are unbounded; a test sets each property once on a new record, where a setter that also changes a neighbour, or an equation that leaves old reactants behind, is not seen.", "anchors": ["ThermoFun/Substance.cpp", "ThermoFun/Reaction.cpp", "ThermoFun/Element.cpp"]}
{"id": "C171", "title": "The critical temperature of a gas record is that of its equation of state", "statement": "Above the critical temperature of its record a gas has exactly one molar volume above its covolume at every pressure, the volume the program returns is that one, and the other properties it returns belong to it; below it there is a pressure at which the equation has three volumes, a liquid, a vapour and one between.", "quantifier": "For PRSV, PR78 and SRK, all critical temperatures and pressures, all acentric factors in a range, all temperatures above or below and all positive pressures.", "why_tests_cant": "Whether some pressure has a second volume is a question about all pressures at once; a test compares volumes at chosen states, where a wrong constant or temperature function gives plausible numbers.", "anchors": ["ThermoFun/Substances/Gases/s_solmod2_.cpp"]}
{"id": "C172", "title": "The properties of a gas have no jump in temperature where its equation of state has a single volume", "statement": "At a pressure and temperature where the equation of state of a gas has a single volume, the residual Gibbs energy, enthalpy, entropy and volume the three cubic gas models return are continuous functions of temperature, the critical temperature and the lower temperature limit of the record included.", "quantifier": "all three models, all critical parameters and coefficients, all temperatures and pressures with a single volume", "why_tests_cant": "A jump shows only when two temperatures on both sides of the critical one are compared ever closer, with a record that has the coefficient k1; tables step over it.", "anchors": ["ThermoFun/Substances/Gases/s_solmod2_.cpp lines 453-482", "ThermoFun/Substances/Gases/s_solmod2_.cpp lines 487-581", "ThermoFun/Substances/Gases/s_solmod2_.cpp lines 2884-2971"]}
