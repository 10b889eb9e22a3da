import Verif.Model.Json
import Verif.Model.BatchFile

/-!
# Model of `ThermoFun/GlobalFunctions.cpp`

The lists of methods and properties a program can ask for: texts put together from tables of `GlobalVariables.h` and `ThermoBatch.h`.  A
`std::map` is the list of its entries in the order of its keys.
-/

namespace ThermoFun
namespace Templates

/-- `enum_method_substance`, GlobalVariables.h:148-193. -/
def substMethods : List (Nat × String) := [
  (0, "cp_ft_equation"), (1, "cp_ft_equation_saxena86"), (2, "solute_hkf88_gems"), (3, "solute_hkf88_reaktoro"), (4, "solute_aknifiev_diamond03"),
  (5, "landau_holland_powell98"), (6, "landau_berman88"), (8, "fug_critical_param"), (9, "fluid_prsv"), (10, "fluid_churakov_gottschalk"),
  (11, "fluid_soave_redlich_kwong"), (12, "fluid_sterner_pitzer"), (13, "fluid_peng_robinson78"), (14, "fluid_comp_redlich_kwong_hp91"),
  (25, "water_diel_jnort91_reaktoro"), (26, "water_diel_jnort91_gems"), (27, "water_diel_sverj14"), (28, "water_diel_fern97"),
  (29, "water_eos_hgk84_lvs83_gems"), (30, "water_eos_iapws95_gems"), (31, "water_eos_hgk84_reaktoro"), (32, "water_eos_iapws95_reaktoro"),
  (33, "water_pvt_zhang_duan05"), (34, "mv_constant"), (35, "mv_equation_dorogokupets88"), (36, "mv_equation_berman88"),
  (37, "mv_eos_birch_murnaghan_gott97"), (38, "mv_eos_murnaghan_hp98"), (39, "mv_eos_tait_hp11"), (40, "mv_pvnrt"), (41, "solute_holland_powell98"),
  (42, "solute_anderson91"), (43, "standard_entropy_cp_integration")]

/-- `enum_method_reaction`, GlobalVariables.h:195-211. -/
def reacMethods : List (Nat × String) := [
  (0, "logk_fpt_function"), (3, "logk_nordstrom_munoz88"), (4, "logk_1_term_extrap0"), (5, "logk_1_term_extrap1"), (6, "logk_2_term_extrap"),
  (7, "logk_3_term_extrap"), (8, "logk_lagrange_interp"), (9, "logk_marshall_frank78"), (10, "solute_eos_ryzhenko_gems"), (11, "dr_heat_capacity_ft"),
  (12, "dr_volume_fpt"), (13, "dr_volume_constant"), (14, "logk_dolejs_manning10")]

/-- `substance_method_parameters`, GlobalVariables.h:232-266, by the codes of `SubstanceTPMethodType` (83-128). -/
def substParams : List (Nat × List String) := [
  (0, ["m_heat_capacity_ft_coeffs"]), (1, ["m_heat_capacity_ft_coeffs"]), (2, ["eos_hkf_coeffs"]), (3, ["eos_hkf_coeffs"]),
  (4, ["eos_akinfiev_diamond_coeffs"]), (5, ["m_landau_phase_trans_props"]), (6, ["m_berman_phase_trans_props"]), (8, ["eos_gas_crit_props"]), (9, [""]),
  (10, ["eos_churakov_gottschalk_coeffs"]), (11, [""]), (12, [""]), (13, [""]), (14, [""]), (25, [""]), (26, [""]), (27, [""]), (28, [""]), (29, [""]),
  (30, [""]), (31, [""]), (32, [""]), (33, [""]), (34, [""]), (35, ["m_volume_fpt_coeffs"]), (36, ["m_volume_fpt_coeffs"]),
  (37, ["eos_birch_murnaghan_coeffs"]), (38, ["eos_birch_murnaghan_coeffs"]), (39, [""]), (40, [""]), (41, ["solute_holland_powell98_coeffs"]),
  (42, ["solute_anderson91_coeffs"]), (43, [""])]

/-- `reaction_method_parameters`, GlobalVariables.h:213-229, by the codes of `ReactionTPMethodType` (130-146). -/
def reacParams : List (Nat × List String) := [
  (0, ["logk_ft_coeffs"]), (1, [""]), (2, [""]), (3, ["logk_ft_coeffs"]), (4, ["logk_ft_coeffs"]), (5, ["logk_ft_coeffs"]), (6, ["logk_ft_coeffs"]),
  (7, ["logk_ft_coeffs"]), (8, [""]), (9, ["dr_marshall_franck_coeffs"]), (10, ["dr_ryzhenko_coeffs"]), (11, ["dr_heat_capacity_ft_coeffs"]),
  (12, ["dr_volume_fpt_coeffs"]), (13, [""]), (14, ["dr_dolejs_manning10_coeffs"])]

/-- `std::map::at` on a table by codes: `std::out_of_range` for a key that is missing. -/
def codeAt {α : Type} (k : Nat) : List (Nat × α) → Res α
  | [] => .throw
  | (a, v) :: l => if a = k then .ok v else codeAt k l

/-- One line, GlobalFunctions.cpp:11-17, 51-57, without its line feed. -/
def line (code : Nat) (name : String) (params : List String) : List Char :=
  "{\"method\": {\"".toList ++ Nat.toDigits 10 code ++ "\": \"".toList ++ name.toList ++ "\"}".toList ++
    match params with
    | [p] => if p ≠ "" then ", \"".toList ++ p.toList ++ "\" : { \"values\": []}}".toList else ['}']
    | _ => ['}']

/-- `availableSubstanceTPMethods` and `availableReactionTPMethods`, GlobalFunctions.cpp:6-20, 46-60. -/
def available (params : List (Nat × List String)) : List (Nat × String) → Res (List Char)
  | [] => .ok []
  | (code, name) :: l => do
    let ps ← codeAt code params
    let r ← available params l
    .ok (line code name ps ++ '\n' :: r)

/-- The names of properties of substances and reactions with what they belong to, in the order of `std::map`: `defaultPropertyNames`,
ThermoBatch.h:169-214; the entries for the solvent are left out (they are passed over). -/
def propertyNames : List (String × String) := [
  ("enthalpy", "substance"), ("entropy", "substance"), ("gibbs_energy", "substance"), ("heat_capacity_cp", "substance"), ("heat_capacity_cv", "substance"),
  ("helmholtz_energy", "substance"), ("internal_energy", "substance"), ("lnKr", "reaction"), ("logKr", "reaction"), ("reaction_enthalpy", "reaction"),
  ("reaction_entropy", "reaction"), ("reaction_gibbs_energy", "reaction"), ("reaction_heat_capacity_cp", "reaction"), ("reaction_heat_capacity_cv", "reaction"),
  ("reaction_helmholtz_energy", "reaction"), ("reaction_internal_energy", "reaction"), ("reaction_volume", "reaction"), ("volume", "substance")]

/-- The lines of `scanProperties`, GlobalFunctions.cpp:22-34 (called in 36-44), after the two lines of its head. -/
def scan (what : String) : List (String × String) → Res (List String)
  | [] => .ok []
  | (p, w) :: l =>
    if w = what then do
      let u ← Batch.mapAt p Batch.defaultUnits
      let r ← scan what l
      .ok ((p ++ " (" ++ u ++ ")") :: r)
    else scan what l

end Templates
end ThermoFun
