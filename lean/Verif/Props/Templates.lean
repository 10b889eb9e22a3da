import Verif.Model.Templates
import Verif.Props.ParseFaithful
import Verif.Model.Gas
import Mathlib.Data.List.Perm.Basic

/-! Lists of methods and properties offered to programs: C147. -/

set_option linter.unusedSimpArgs false
set_option linter.unusedVariables false

namespace ThermoFun.Templates

open Js

/-! ### Specification -/

/-- JSON texts without numbers, escapes, `true`, `false` and `null`: after the white space, a value and what is left.  `fuel` bounds the depth
and the number of members. -/
def skip : List Char → List Char
  | c :: s => if c = ' ' ∨ c = '\n' ∨ c = '\t' ∨ c = '\r' then skip s else c :: s
  | [] => []

/-- The rest of a string, up to its closing quote. -/
def quoted : List Char → Option (List Char × List Char)
  | [] => none
  | '"' :: s => some ([], s)
  | '\\' :: _ => none
  | c :: s => match quoted s with
    | some (a, r) => some (c :: a, r)
    | none => none

mutual
/-- A value. -/
def value : Nat → List Char → Option (Json × List Char)
  | 0, _ => none
  | n + 1, s => match skip s with
    | '"' :: s => match quoted s with
      | some (a, r) => some (.str (String.ofList a), r)
      | none => none
    | '{' :: s => match skip s with
      | '}' :: s => some (.obj [], s)
      | s => match members n s with
        | some (l, r) => some (.obj l, r)
        | none => none
    | '[' :: s => match skip s with
      | ']' :: s => some (.arr [], s)
      | s => match elements n s with
        | some (l, r) => some (.arr l, r)
        | none => none
    | _ => none
/-- The members of an object up to the closing brace. -/
def members : Nat → List Char → Option (List (String × Json) × List Char)
  | 0, _ => none
  | n + 1, s => match skip s with
    | '"' :: s => match quoted s with
      | some (k, r) => match skip r with
        | ':' :: r => match value n r with
          | some (v, r) => match skip r with
            | ',' :: r => match members n r with
              | some (l, r) => some ((String.ofList k, v) :: l, r)
              | none => none
            | '}' :: r => some ([(String.ofList k, v)], r)
            | _ => none
          | none => none
        | _ => none
      | none => none
    | _ => none
/-- The elements of an array up to the closing bracket. -/
def elements : Nat → List Char → Option (List Json × List Char)
  | 0, _ => none
  | n + 1, s => match value n s with
    | some (v, r) => match skip r with
      | ',' :: r => match elements n r with
        | some (l, r) => some (v :: l, r)
        | none => none
      | ']' :: r => some ([v], r)
      | _ => none
    | none => none
end

/-- The value a text stands for. -/
def fromText (s : List Char) : Option Json := match value 10 s with
  | some (j, r) => if skip r = [] then some j else none
  | none => none

/-- An entry for a method with this code and name: without parameters, or with values for the parameters of this key. -/
def entry (code : Nat) (name : String) (params : Option (String × List ℚ)) : Json :=
  .obj (("method", .obj [(String.ofList (Nat.toDigits 10 code), .str name)]) :: match params with
    | none => []
    | some (key, qs) => [(key, plainList qs)])

/-- The methods for substances: code, name, key of the parameters. -/
def substList : List (Nat × String × Option String) := [
  (0, "cp_ft_equation", some "m_heat_capacity_ft_coeffs"), (1, "cp_ft_equation_saxena86", some "m_heat_capacity_ft_coeffs"),
  (2, "solute_hkf88_gems", some "eos_hkf_coeffs"), (3, "solute_hkf88_reaktoro", some "eos_hkf_coeffs"),
  (4, "solute_aknifiev_diamond03", some "eos_akinfiev_diamond_coeffs"), (5, "landau_holland_powell98", some "m_landau_phase_trans_props"),
  (6, "landau_berman88", some "m_berman_phase_trans_props"), (8, "fug_critical_param", some "eos_gas_crit_props"), (9, "fluid_prsv", none),
  (10, "fluid_churakov_gottschalk", some "eos_churakov_gottschalk_coeffs"), (11, "fluid_soave_redlich_kwong", none), (12, "fluid_sterner_pitzer", none),
  (13, "fluid_peng_robinson78", none), (14, "fluid_comp_redlich_kwong_hp91", none), (25, "water_diel_jnort91_reaktoro", none),
  (26, "water_diel_jnort91_gems", none), (27, "water_diel_sverj14", none), (28, "water_diel_fern97", none), (29, "water_eos_hgk84_lvs83_gems", none),
  (30, "water_eos_iapws95_gems", none), (31, "water_eos_hgk84_reaktoro", none), (32, "water_eos_iapws95_reaktoro", none),
  (33, "water_pvt_zhang_duan05", none), (34, "mv_constant", none), (35, "mv_equation_dorogokupets88", some "m_volume_fpt_coeffs"),
  (36, "mv_equation_berman88", some "m_volume_fpt_coeffs"), (37, "mv_eos_birch_murnaghan_gott97", some "eos_birch_murnaghan_coeffs"),
  (38, "mv_eos_murnaghan_hp98", some "eos_birch_murnaghan_coeffs"), (39, "mv_eos_tait_hp11", none), (40, "mv_pvnrt", none),
  (41, "solute_holland_powell98", some "solute_holland_powell98_coeffs"), (42, "solute_anderson91", some "solute_anderson91_coeffs"),
  (43, "standard_entropy_cp_integration", none)]

/-- The methods for reactions. -/
def reacList : List (Nat × String × Option String) := [
  (0, "logk_fpt_function", some "logk_ft_coeffs"), (3, "logk_nordstrom_munoz88", some "logk_ft_coeffs"),
  (4, "logk_1_term_extrap0", some "logk_ft_coeffs"), (5, "logk_1_term_extrap1", some "logk_ft_coeffs"), (6, "logk_2_term_extrap", some "logk_ft_coeffs"),
  (7, "logk_3_term_extrap", some "logk_ft_coeffs"), (8, "logk_lagrange_interp", none), (9, "logk_marshall_frank78", some "dr_marshall_franck_coeffs"),
  (10, "solute_eos_ryzhenko_gems", some "dr_ryzhenko_coeffs"), (11, "dr_heat_capacity_ft", some "dr_heat_capacity_ft_coeffs"),
  (12, "dr_volume_fpt", some "dr_volume_fpt_coeffs"), (13, "dr_volume_constant", none), (14, "logk_dolejs_manning10", some "dr_dolejs_manning10_coeffs")]

/-- What values `xs` for a key are for in a record of a substance. -/
def intoS (key : String) (xs : List ℝ) (ps : ParamS) : Option ParamS :=
  if key = "m_heat_capacity_ft_coeffs" then some { ps with cpCoeffs := ps.cpCoeffs ++ [xs] }
  else if key = "eos_hkf_coeffs" then some { ps with hkf := xs }
  else if key = "eos_akinfiev_diamond_coeffs" then some { ps with akinfiev := xs }
  else if key = "m_landau_phase_trans_props" then some { ps with landau := xs }
  else if key = "eos_gas_crit_props" then some { ps with critical := xs }
  else if key = "solute_holland_powell98_coeffs" then some { ps with holland := xs }
  else if key = "m_volume_fpt_coeffs" then some { ps with volume := xs }
  else if key = "eos_birch_murnaghan_coeffs" then some { ps with birch := xs }
  else none

/-- What values `xs` for a key are for in a record of a reaction. -/
def intoR (key : String) (xs : List ℝ) (pr : ParamR) : Option ParamR :=
  if key = "logk_ft_coeffs" then some { pr with logK := xs }
  else if key = "dr_heat_capacity_ft_coeffs" then some { pr with cp := xs }
  else if key = "dr_volume_fpt_coeffs" then some { pr with vol := xs }
  else if key = "dr_ryzhenko_coeffs" then some { pr with rb := xs }
  else if key = "dr_marshall_franck_coeffs" then some { pr with fm := xs }
  else if key = "dr_dolejs_manning10_coeffs" then some { pr with dm := xs }
  else none

/-- `text` has one line for each method of `l`; each of the lines is a JSON text, an entry for this method with an empty list for its parameters. -/
def Lists (text : List Char) (l : List (Nat × String × Option String)) : Prop :=
  ∃ ls, text = (ls.map (· ++ ['\n'])).flatten ∧
    List.Forall₂ (fun (m : Nat × String × Option String) (s : List Char) => '\n' ∉ s ∧ fromText s = some (entry m.1 m.2.1 (m.2.2.map fun k => (k, [])))) l ls

/-- The keys of which the values of a record of a substance are passed over. -/
def unreadKeys : List String := ["m_berman_phase_trans_props", "m_volume_fpt_coeffs", "eos_birch_murnaghan_coeffs", "eos_churakov_gottschalk_coeffs",
  "solute_holland_powell98_coeffs", "solute_anderson91_coeffs"]

/-! ### Lemmas -/

mutual
/-- Equality of values without numbers. -/
def same : Json → Json → Bool
  | .str a, .str b => a == b
  | .arr l, .arr m => sameL l m
  | .obj l, .obj m => sameO l m
  | _, _ => false
/-- Equality of lists of values. -/
def sameL : List Json → List Json → Bool
  | [], [] => true
  | a :: l, b :: m => same a b && sameL l m
  | _, _ => false
/-- Equality of members. -/
def sameO : List (String × Json) → List (String × Json) → Bool
  | [], [] => true
  | (k, a) :: l, (h, b) :: m => k == h && same a b && sameO l m
  | _, _ => false
end

mutual
theorem same_eq : ∀ a b : Json, same a b = true → a = b
  | .str a, b, h => by cases b <;> simp [same] at h; rw [h]
  | .arr l, b, h => by
    cases b with
    | arr m => rw [sameL_eq l m (by simpa [same] using h)]
    | _ => simp [same] at h
  | .obj l, b, h => by
    cases b with
    | obj m => rw [sameO_eq l m (by simpa [same] using h)]
    | _ => simp [same] at h
  | .null, b, h => by simp [same] at h
  | .bool _, b, h => by simp [same] at h
  | .num _, b, h => by simp [same] at h
theorem sameL_eq : ∀ l m : List Json, sameL l m = true → l = m
  | [], m, h => by cases m <;> simp [sameL] at h; rfl
  | a :: l, m, h => by
    cases m with
    | nil => simp [sameL] at h
    | cons b m =>
      simp only [sameL, Bool.and_eq_true] at h
      rw [same_eq a b h.1, sameL_eq l m h.2]
theorem sameO_eq : ∀ l m : List (String × Json), sameO l m = true → l = m
  | [], m, h => by cases m <;> simp [sameO] at h; rfl
  | (k, a) :: l, m, h => by
    cases m with
    | nil => simp [sameO] at h
    | cons b m =>
      simp only [sameO, Bool.and_eq_true, beq_iff_eq] at h
      rw [h.1.1, same_eq a b.2 h.1.2, sameO_eq l m h.2]
end

/-- The text of a value is this value. -/
def readsAs (s : List Char) (j : Json) : Bool := match fromText s with
  | some x => same x j
  | none => false

lemma readsAs_eq {s : List Char} {j : Json} (h : readsAs s j = true) : fromText s = some j := by
  unfold readsAs at h
  cases hx : fromText s with
  | none => rw [hx] at h; exact absurd h (by simp)
  | some x => rw [hx] at h; rw [same_eq _ _ h]

/-- One method of the list against one line. -/
def okLine (params : List (Nat × List String)) (m : Nat × String × Option String) : Bool := match codeAt m.1 params with
  | .ok ps => !(line m.1 m.2.1 ps).contains '\n' && readsAs (line m.1 m.2.1 ps) (entry m.1 m.2.1 (m.2.2.map fun k => (k, [])))
  | _ => false

lemma lists_of {params : List (Nat × List String)} : ∀ {l : List (Nat × String × Option String)}, (∀ m ∈ l, okLine params m = true) →
    ∃ text, available params (l.map fun m => (m.1, m.2.1)) = .ok text ∧ Lists text l
  | [], _ => ⟨[], rfl, [], rfl, List.Forall₂.nil⟩
  | m :: l, h => by
    obtain ⟨t, h2, ls, h3, h4⟩ := lists_of (l := l) fun m hm => h m (by simp [hm])
    have h1 := h m (by simp)
    unfold okLine at h1
    cases hc : codeAt m.1 params with
    | throw => rw [hc] at h1; exact absurd h1 (by simp)
    | ub => rw [hc] at h1; exact absurd h1 (by simp)
    | ok ps =>
      rw [hc] at h1
      simp only [Bool.and_eq_true, Bool.not_eq_true', List.contains_eq_mem, decide_eq_false_iff_not] at h1
      refine ⟨line m.1 m.2.1 ps ++ '\n' :: t, ?_, line m.1 m.2.1 ps :: ls, by simp [h3], List.Forall₂.cons ⟨h1.1, readsAs_eq h1.2⟩ h4⟩
      rw [List.map_cons]
      unfold available
      rw [hc, h2]; rfl

lemma subst_ok : ∀ m ∈ substList, okLine substParams m = true := by decide +kernel

lemma reac_ok : ∀ m ∈ reacList, okLine reacParams m = true := by decide +kernel

/-- The keys of lists the parser of a substance asks for. -/
def askedS : List String := ["eos_akinfiev_diamond_coeffs", "eos_gas_crit_props", "eos_hkf_coeffs", "m_heat_capacity_ft_coeffs", "m_phase_trans_props",
  "m_landau_phase_trans_props", "solute_holland_powell98_coeff"]

lemma get_entry {code : Nat} {name key k : String} {qs : List ℚ} (h1 : k ≠ "method") :
    (entry code name (some (key, qs))).get? k = if key = k then some (plainList qs) else none := by
  show find k (("method", _) :: [(key, plainList qs)]) = _
  simp only [find, if_neg (Ne.symm h1)]

lemma get_bare {code : Nat} {name k : String} (h1 : k ≠ "method") : (entry code name none).get? k = none := by
  show find k (("method", _) :: []) = _
  simp only [find, if_neg (Ne.symm h1)]

lemma says_entry {code : Nat} {name key k : String} {qs : List ℚ} (h1 : k ≠ "method") :
    SaysList (entry code name (some (key, qs))) k (if key = k then some qs else none) := by
  unfold SaysList
  rw [get_entry h1]
  split <;> rfl

/-- What the parser makes of the entry of a method. -/
lemma read_entry {code : Nat} {name : String} {params : Option (String × List ℚ)} (hl : (params.map Prod.fst) ≠ some "limitsTP") (v : String → Option (List ℚ))
    (hv : ∀ k ∈ askedS, SaysList (entry code name params) k (v k)) (ps : ParamS) : thermoParamSubst (entry code name params) name ps = .ok { ps with
      akinfiev := ((v "eos_akinfiev_diamond_coeffs").map reals).getD ps.akinfiev, critical := ((v "eos_gas_crit_props").map reals).getD ps.critical,
      hkf := ((v "eos_hkf_coeffs").map reals).getD ps.hkf, intervals := ps.intervals ++ (if name = "cp_ft_equation" then [[]] else []),
      cpCoeffs := ps.cpCoeffs ++ ((v "m_heat_capacity_ft_coeffs").map reals).toList.filter fun x => !x.isEmpty,
      transitions := ps.transitions ++ ((v "m_phase_trans_props").map reals).toList.filter fun x => !x.isEmpty,
      landau := ((v "m_landau_phase_trans_props").map reals).getD ps.landau, holland := ((v "solute_holland_powell98_coeff").map reals).getD ps.holland } := by
  have h1 := list_says (p := ("eos_akinfiev_diamond_coeffs", ["1", "(cm^3)/g", "(cm^3*K^0.5)/g"])) (by simp [listUnits]) (hv _ (by simp [askedS]))
  have h2 := list_says (p := ("eos_gas_crit_props", ["K", "bar", "1", "1"])) (by simp [listUnits]) (hv _ (by simp [askedS]))
  have h3 := list_says (p := ("eos_hkf_coeffs", ["cal/(mol*bar)", "cal/mol", "(cal*K)/(mol*bar)", "(cal*K)/mol", "cal/(mol*K)", "(cal*K)/mol", "cal/mol"])) (by simp [listUnits])
    (hv _ (by simp [askedS]))
  have h4 := list_says (p := ("m_heat_capacity_ft_coeffs", ["J/(mol*K)", "J/(mol*K^2)", "(J*K)/mol", "J/(mol*K^0.5)", "J/(mol*K^3)",
    "J/(mol*K^4)", "J/(mol*K^5)", "(J*K^2)/mol", "J/mol", "J/(mol*K^1.5)", "J/(mol*K)"])) (by simp [listUnits]) (hv _ (by simp [askedS]))
  have h5 := list_says (p := ("m_phase_trans_props", ["K", "J/(mol*K)", "J/mol", "J/bar", "K/bar"])) (by simp [listUnits]) (hv _ (by simp [askedS]))
  have h6 := list_says (p := ("m_landau_phase_trans_props", ["degC", "J/(mol*K)", "J/bar"])) (by simp [listUnits]) (hv _ (by simp [askedS]))
  have h7 := list_says (p := ("solute_holland_powell98_coeff", ["kJ/(mol*K^2)"])) (by simp [listUnits]) (hv _ (by simp [askedS]))
  have h8 : limitsOf (entry code name params) = .ok [] := by
    have : (entry code name params).get? "limitsTP" = (none : Option (Option ℚ × Option ℚ)).map limitsJson := by
      rcases params with _ | ⟨k, qs⟩
      · exact get_bare (by decide)
      · rw [get_entry (by decide), if_neg (by simpa using hl)]; rfl
    exact limits_says this
  simp only at h1 h2 h3 h4 h5 h6 h7
  have e : ∀ (o : Option (List ℝ)) (L : List (List ℝ)), (if (orOld o []).isEmpty then L else L ++ [orOld o []]) = L ++ o.toList.filter fun x => !x.isEmpty := by
    intro o L
    cases o with
    | none => simp [orOld]
    | some x => cases x <;> simp [orOld]
  unfold thermoParamSubst
  rw [h1, h2, h3, h4, h5, h6, h7, h8]
  by_cases hc : name = "cp_ft_equation"
  · simp only [if_pos hc, ← e]; rfl
  · simp only [if_neg hc, List.append_nil, ← e]; rfl

lemma read_r {code : Nat} {name key : String} {qs : List ℚ} (pr : ParamR) : thermoParamReac (entry code name (some (key, qs))) pr = .ok {
    logK := ((if key = "logk_ft_coeffs" then some qs else none).map reals).getD pr.logK, cp := ((if key = "dr_heat_capacity_ft_coeffs" then some qs else none).map reals).getD pr.cp,
    vol := ((if key = "dr_volume_fpt_coeffs" then some qs else none).map reals).getD pr.vol, rb := ((if key = "dr_ryzhenko_coeffs" then some qs else none).map reals).getD pr.rb,
    fm := ((if key = "dr_marshall_franck_coeffs" then some qs else none).map reals).getD pr.fm,
    dm := ((if key = "dr_dolejs_manning10_coeffs" then some qs else none).map reals).getD pr.dm } := by
  have sj := fun {k : String} (h1 : k ≠ "method") => says_entry (code := code) (name := name) (key := key) (qs := qs) h1
  have h1 := list_says (p := ("logk_ft_coeffs", ["1", "1/K", "K", "1", "K^2", "1/K^2", "K^0.5"])) (by simp [listUnits]) (sj (by decide))
  have h2 := list_says (p := ("dr_heat_capacity_ft_coeffs", ["J/(mol*K)", "J/(mol*K^2)", "(J*K)/mol", "J/(mol*K^0.5)", "J/(mol*K^3)"])) (by simp [listUnits]) (sj (by decide))
  have h3 := list_says (p := ("dr_volume_fpt_coeffs", ["1/K", "1/K^2", "1/K^3", "1/bar", "1/bar^2"])) (by simp [listUnits]) (sj (by decide))
  have h4 := list_says (p := ("dr_ryzhenko_coeffs", ["1", "1", "1"])) (by simp [listUnits]) (sj (by decide))
  have h5 := list_says (p := ("dr_marshall_franck_coeffs", ["1", "K", "K^2", "K^3", "1", "K", "K^2"])) (by simp [listUnits]) (sj (by decide))
  have h6 := list_says (p := ("dr_dolejs_manning10_coeffs", ["kJ/mol", "J/(mol*K)", "J/(mol*K)", "J/(mol*K^2)", "J/(mol*K)"])) (by simp [listUnits]) (sj (by decide))
  simp only at h1 h2 h3 h4 h5 h6
  unfold thermoParamReac
  rw [h1, h2, h3, h4, h5, h6]; rfl

/-! ### C147 -/

/-- **C147 (part).** The lists of methods can always be made: they have one line for each documented method, in order, and each line is a JSON text, an entry
for the method with an empty list for its parameters.  With the list filled in, for reactions always and for substances unless the key is one of six,
the parser takes the values into the parameters they are for and changes no others (`cp_ft_equation` also adds its temperature interval, without limits).

Missing from the full statement: the six keys (`C147_unread_refuted`), and that the lines name all parameters the method needs (`C147_missing_refuted`). -/
theorem C147_partial :
    (substList.map fun m => ((m.1 : Int), m.2.1)) = (documentedS.map fun m => (m.1, m.2.1)) ∧ (reacList.map fun m => ((m.1 : Int), m.2.1)) = (documentedR.map fun m => (m.1, m.2.1)) ∧
    (∃ text, available substParams substMethods = .ok text ∧ Lists text substList) ∧ (∃ text, available reacParams reacMethods = .ok text ∧ Lists text reacList) ∧
    (∀ m ∈ substList, ∀ k, m.2.2 = some k → k ∉ unreadKeys → ∀ (qs : List ℚ) (ps : ParamS), qs ≠ [] →
      ∃ ps', intoS k (reals qs) { ps with intervals := ps.intervals ++ if m.2.1 = "cp_ft_equation" then [[]] else [] } = some ps' ∧
        thermoParamSubst (entry m.1 m.2.1 (some (k, qs))) m.2.1 ps = .ok ps') ∧
    ∀ m ∈ reacList, ∀ k, m.2.2 = some k → ∀ (qs : List ℚ) (pr : ParamR),
      ∃ pr', intoR k (reals qs) pr = some pr' ∧ thermoParamReac (entry m.1 m.2.1 (some (k, qs))) pr = .ok pr' := by
  refine ⟨by decide, by decide, lists_of subst_ok, lists_of reac_ok, ?_, ?_⟩
  · intro m hm k hk hu qs ps hq
    have hkey : k ∈ ["m_heat_capacity_ft_coeffs", "eos_hkf_coeffs", "eos_akinfiev_diamond_coeffs", "m_landau_phase_trans_props", "eos_gas_crit_props"] := by
      have : ∀ m ∈ substList, ∀ k ∈ m.2.2, k ∉ unreadKeys → k ∈ ["m_heat_capacity_ft_coeffs", "eos_hkf_coeffs", "eos_akinfiev_diamond_coeffs", "m_landau_phase_trans_props", "eos_gas_crit_props"] := by
        decide
      exact this m hm k hk hu
    have hr : (reals qs).isEmpty = false := by
      cases qs with
      | nil => exact absurd rfl hq
      | cons a l => rfl
    have hmth : ∀ q ∈ askedS, q ≠ "method" := by decide
    simp only [List.mem_cons, List.not_mem_nil, or_false] at hkey
    rcases hkey with rfl | rfl | rfl | rfl | rfl
    all_goals
      refine ⟨_, rfl, ?_⟩
      rw [read_entry (by simp) (fun q => if _ = q then some qs else none) (fun q hq => says_entry (hmth q hq))]
      simp [hr]
  · intro m hm k hk qs pr
    have hkey : k ∈ ["logk_ft_coeffs", "dr_heat_capacity_ft_coeffs", "dr_volume_fpt_coeffs", "dr_ryzhenko_coeffs", "dr_marshall_franck_coeffs", "dr_dolejs_manning10_coeffs"] := by
      have : ∀ m ∈ reacList, ∀ k ∈ m.2.2, k ∈ ["logk_ft_coeffs", "dr_heat_capacity_ft_coeffs", "dr_volume_fpt_coeffs", "dr_ryzhenko_coeffs", "dr_marshall_franck_coeffs", "dr_dolejs_manning10_coeffs"] := by
        decide
      exact this m hm k hk
    simp only [List.mem_cons, List.not_mem_nil, or_false] at hkey
    rcases hkey with rfl | rfl | rfl | rfl | rfl | rfl
    all_goals
      refine ⟨_, rfl, ?_⟩
      rw [read_r]
      simp

example : (2, "solute_hkf88_gems", some "eos_hkf_coeffs") ∈ substList ∧ "eos_hkf_coeffs" ∉ unreadKeys ∧ ([1, 2, 3] : List ℚ) ≠ [] ∧
    (14, "logk_dolejs_manning10", some "dr_dolejs_manning10_coeffs") ∈ reacList := by
  refine ⟨by decide, by decide, by simp, by decide⟩

example : fromText "{\"method\": {\"2\": \"solute_hkf88_gems\"}, \"eos_hkf_coeffs\" : { \"values\": []}}".toList = some (entry 2 "solute_hkf88_gems" (some ("eos_hkf_coeffs", []))) :=
  readsAs_eq (by decide +kernel)

/-- **C147, violation.** Eight of the lines for substances ask for parameters under a key the parser does not know: whatever is filled in, reading the entry
changes no parameter.  For `solute_holland_powell98` the parser knows the key without the last letter. -/
theorem C147_unread_refuted :
    (substList.filter fun m => m.2.2.any unreadKeys.contains).map (fun m => m.2.1) = ["landau_berman88", "fluid_churakov_gottschalk", "mv_equation_dorogokupets88",
      "mv_equation_berman88", "mv_eos_birch_murnaghan_gott97", "mv_eos_murnaghan_hp98", "solute_holland_powell98", "solute_anderson91"] ∧
    (∀ m ∈ substList, ∀ k ∈ unreadKeys, m.2.2 = some k → ∀ (qs : List ℚ) (ps : ParamS), thermoParamSubst (entry m.1 m.2.1 (some (k, qs))) m.2.1 ps = .ok ps) ∧
    ∀ (qs : List ℚ) (ps : ParamS), thermoParamSubst (entry 41 "solute_holland_powell98" (some ("solute_holland_powell98_coeff", qs))) "solute_holland_powell98" ps =
      .ok { ps with holland := reals qs } := by
  have hmth : ∀ q ∈ askedS, q ≠ "method" := by decide
  refine ⟨by decide, ?_, ?_⟩
  · intro m hm k hk hmk qs ps
    have hn : m.2.1 ≠ "cp_ft_equation" := by
      have : ∀ m ∈ substList, ∀ k ∈ m.2.2, k ∈ unreadKeys → m.2.1 ≠ "cp_ft_equation" := by decide
      exact this m hm k hmk hk
    have h1 : ∀ q ∈ askedS, k ≠ q := by
      have : ∀ k ∈ unreadKeys, ∀ q ∈ askedS, k ≠ q := by decide
      exact this k hk
    have h2 : k ≠ "limitsTP" := by
      have : ∀ k ∈ unreadKeys, k ≠ "limitsTP" := by decide
      exact this k hk
    rw [read_entry (by simpa using h2) (fun _ => none) fun q hq => by
      have := says_entry (code := m.1) (name := m.2.1) (key := k) (qs := qs) (hmth q hq)
      rwa [if_neg (h1 q hq)] at this]
    simp [hn]
  · intro qs ps
    rw [read_entry (by simp) (fun q => if "solute_holland_powell98_coeff" = q then some qs else none) (fun q hq => says_entry (hmth q hq))]
    simp

/-- **C147, violation.** The lines for three equations of state of gases ask for no parameters, though the equations read seven critical parameters: a record
made from the line has none, and calculating with it reads beyond the end of an empty vector. -/
theorem C147_missing_refuted : ∀ m ∈ [(9, "fluid_prsv", Gas.Eos.PRSV), (11, "fluid_soave_redlich_kwong", Gas.Eos.SRK), (13, "fluid_peng_robinson78", Gas.Eos.PR78)],
    (m.1, m.2.1, none) ∈ substList ∧ ∃ ps, thermoParamSubst (entry m.1 m.2.1 none) m.2.1 {} = .ok ps ∧ ps.critical = [] ∧
      ∀ (T P Pr : ℝ) (intervals : List (List ℝ)) (tps : TPS) (a : Bool), Gas.gasEntry m.2.2 T P intervals ps.critical Pr tps a = .ub := by
  have hmth : ∀ q ∈ askedS, q ≠ "method" := by decide
  have ub : ∀ (m : Gas.Eos) (T P Pr : ℝ) (intervals : List (List ℝ)) (tps : TPS) (a : Bool), Gas.gasEntry m T P intervals [] Pr tps a = .ub := by
    intro m T P Pr intervals tps a
    have : Gas.gasProps m (TS.temperature T) (pbar P) intervals [] tps = .ub := by
      unfold Gas.gasProps
      rcases intervals with _ | ⟨_ | ⟨x, l⟩, L⟩ <;> simp
    unfold Gas.gasEntry
    rw [this]; rfl
  intro m hm
  have key : (m.1, m.2.1, (none : Option String)) ∈ substList := by
    simp only [List.mem_cons, List.not_mem_nil, or_false] at hm
    rcases hm with rfl | rfl | rfl <;> decide
  refine ⟨key, _, read_entry (params := none) (by simp) (fun _ => none) (fun q hq => get_bare (hmth q hq)) {}, rfl, ?_⟩
  exact ub m.2.2

/-- The lists of properties, of substances and of reactions: each property the results of a batch can be asked for (those `selectResultsSubst` and
`selectResultsReact` know), once, with the unit the program takes it in. -/
theorem C147_properties :
    (∃ l : List (String × String), scan "substance" propertyNames = .ok (l.map fun n => n.1 ++ " (" ++ n.2 ++ ")") ∧ (l.map Prod.fst).Perm Batch.substNames ∧
      ∀ n ∈ l, n ∈ Batch.defaultUnits) ∧
    ∃ l : List (String × String), scan "reaction" propertyNames = .ok (l.map fun n => n.1 ++ " (" ++ n.2 ++ ")") ∧ (l.map Prod.fst).Perm Batch.reactNames ∧
      ∀ n ∈ l, n ∈ Batch.defaultUnits := by
  refine ⟨⟨[("enthalpy", "J/mol"), ("entropy", "J/K/mol"), ("gibbs_energy", "J/mol"), ("heat_capacity_cp", "J/K/mol"), ("heat_capacity_cv", "J/K/mol"),
    ("helmholtz_energy", "J/mol"), ("internal_energy", "J/mol"), ("volume", "J/bar")], by decide +kernel, by decide, by decide⟩,
    [("lnKr", "1"), ("logKr", "1"), ("reaction_enthalpy", "J/mol"), ("reaction_entropy", "J/K/mol"), ("reaction_gibbs_energy", "J/mol"),
    ("reaction_heat_capacity_cp", "J/K/mol"), ("reaction_heat_capacity_cv", "J/K/mol"), ("reaction_helmholtz_energy", "J/mol"),
    ("reaction_internal_energy", "J/mol"), ("reaction_volume", "J/bar")], by decide +kernel, by decide, by decide⟩

end ThermoFun.Templates
