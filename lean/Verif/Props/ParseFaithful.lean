import Verif.Props.ParseJson

/-!
# C92: a record is read as what it says
-/

namespace ThermoFun.Js

/-! ### What a record says -/

/-- The record has the text `v` under the key, or no such key. -/
def SaysText (j : Json) (k : String) (v : Option String) : Prop := j.get? k = v.map .str

/-- The record has the number `v` under the key, or no such key. -/
def SaysNum (j : Json) (k : String) (v : Option ℚ) : Prop := j.get? k = v.map .num

/-- The record has a code with its name under the key, as `{"3": "AS_AQUEOUS"}`, or no such key. -/
def SaysCode (j : Json) (k : String) (v : Option (Fin 100 × String)) : Prop := j.get? k = v.map fun c => .obj [(toString c.1.1, .str c.2)]

/-- The record has a list of numbers in the units of the program under the key, or no such key. -/
def SaysList (j : Json) (k : String) (v : Option (List ℚ)) : Prop := j.get? k = v.map plainList

/-- Temperature limits. -/
def limitsJson (l : Option ℚ × Option ℚ) : Json :=
  .obj ((match l.1 with | some x => [("lowerT", .num x)] | none => []) ++ match l.2 with | some x => [("upperT", .num x)] | none => [])

/-- A quantity with its error and unit. -/
structure Quantity where
  value : ℚ
  err : Option ℚ := none
  unit : Option String := none

/-- How a quantity is written. -/
def Quantity.json (q : Quantity) : Json :=
  .obj ((match q.err with | some x => [("errors", .arr [.num x])] | none => []) ++ (match q.unit with | some u => [("units", .arr [.str u])] | none => []) ++
    [("values", .arr [.num q.value])])

/-- `x` and `e` are value and error of the quantity in the unit of the program. -/
def Quantity.Is (q : Quantity) (unit : String) (x e : ℝ) : Prop :=
  Units.convert (q.value : ℝ) (q.unit.getD unit).toList unit.toList = .ok x ∧
    match q.err with
    | none => e = 0
    | some d => Units.convert (d : ℝ) (q.unit.getD unit).toList unit.toList = .ok e

/-- The property a record gives: value, error, no derivatives, status "read"; the default if the record has no such quantity. -/
def IsProp (q : Option Quantity) (unit : String) (t : TS) : Prop :=
  match q with
  | none => t = TS.default
  | some q => ∃ x e, q.Is unit x e ∧ t = { TS.default with val := x, err := e, sta := .read }

/-- The record has the quantity under the key, or no such key. -/
def SaysQuantity (j : Json) (k : String) (q : Option Quantity) : Prop := j.get? k = q.map Quantity.json

/-- What an entry of the list of methods says. -/
structure MethodData where
  method : Int × String × Slot × Nat
  limits : Option (Option ℚ × Option ℚ) := none
  akinfiev : Option (List ℚ) := none
  critical : Option (List ℚ) := none
  hkf : Option (List ℚ) := none
  cp : Option (List ℚ) := none
  transition : Option (List ℚ) := none
  landau : Option (List ℚ) := none
  holland : Option (List ℚ) := none

/-- An entry of the list of methods says `m`. -/
structure SaysMethod (j : Json) (m : MethodData) : Prop where
  method : j.get? "method" = some (.obj [(toString m.method.1, .str m.method.2.1)])
  limits : j.get? "limitsTP" = m.limits.map limitsJson
  akinfiev : SaysList j "eos_akinfiev_diamond_coeffs" m.akinfiev
  critical : SaysList j "eos_gas_crit_props" m.critical
  hkf : SaysList j "eos_hkf_coeffs" m.hkf
  cp : SaysList j "m_heat_capacity_ft_coeffs" m.cp
  transition : SaysList j "m_phase_trans_props" m.transition
  landau : SaysList j "m_landau_phase_trans_props" m.landau
  holland : SaysList j "solute_holland_powell98_coeff" m.holland

/-- What a substance record says. -/
structure SubData where
  name : Option String := none
  symbol : Option String := none
  formula : Option String := none
  charge : Option Int := none
  reaction : Option String := none
  mass : Option ℚ := none
  state : Option (Fin 100 × String) := none
  cls : Option (Fin 100 × String) := none
  limits : Option (Option ℚ × Option ℚ) := none
  Tst : Option ℚ := none
  Pst : Option ℚ := none
  methods : Option (List MethodData) := none
  expansivity : Option ℚ := none
  compressibility : Option ℚ := none
  Cp : Option Quantity := none
  G : Option Quantity := none
  H : Option Quantity := none
  S : Option Quantity := none
  V : Option Quantity := none

/-- A substance record says `d`. -/
structure SaysSub (j : Json) (d : SubData) : Prop where
  name : SaysText j "name" d.name
  symbol : SaysText j "symbol" d.symbol
  formula : SaysText j "formula" d.formula
  charge : SaysNum j "formula_charge" (d.charge.map fun z : Int => (z : ℚ))
  reaction : SaysText j "reaction" d.reaction
  mass : Given j "mass_per_mole" d.mass
  state : SaysCode j "aggregate_state" d.state
  cls : SaysCode j "class_" d.cls
  limits : j.get? "limitsTP" = d.limits.map limitsJson
  Tst : SaysNum j "Tst" d.Tst
  Pst : SaysNum j "Pst" d.Pst
  methods : match d.methods with
    | none => j.get? "TPMethods" = none
    | some l => ∃ ms, j.get? "TPMethods" = some (.arr ms) ∧ List.Forall₂ SaysMethod ms l
  expansivity : Given j "m_expansivity" d.expansivity
  compressibility : Given j "m_compressibility" d.compressibility
  Cp : SaysQuantity j "sm_heat_capacity_p" d.Cp
  G : SaysQuantity j "sm_gibbs_energy" d.G
  H : SaysQuantity j "sm_enthalpy" d.H
  S : SaysQuantity j "sm_entropy_abs" d.S
  V : SaysQuantity j "sm_volume" d.V

/-- Numbers of a list as real numbers. -/
def reals (l : List ℚ) : List ℝ := l.map fun q : ℚ => (q : ℝ)

/-- The last list given by a list of methods, the empty list if there is none. -/
def lastGiven (f : MethodData → Option (List ℚ)) (l : List MethodData) : List ℝ := l.foldl (fun a m => ((f m).map reals).getD a) []

/-- The temperature limits as a list. -/
def limitsList : Option (Option ℚ × Option ℚ) → List ℝ
  | none => []
  | some (a, b) => reals (a.toList ++ b.toList)

/-- The parameters a list of methods gives. -/
def paramsOf (d : SubData) (l : List MethodData) : ParamS where
  compressibility := d.compressibility.map fun q : ℚ => (q : ℝ)
  expansivity := d.expansivity.map fun q : ℚ => (q : ℝ)
  intervals := (l.filter fun m => m.method.2.1 = "cp_ft_equation").map fun m => limitsList m.limits
  cpCoeffs := (l.filterMap fun m => m.cp.map reals).filter fun x => !x.isEmpty
  akinfiev := lastGiven MethodData.akinfiev l
  transitions := (l.filterMap fun m => m.transition.map reals).filter fun x => !x.isEmpty
  landau := lastGiven MethodData.landau l
  hkf := lastGiven MethodData.hkf l
  critical := lastGiven MethodData.critical l
  holland := lastGiven MethodData.holland l

/-- The substance is what the record says. -/
structure IsSub (d : SubData) (s : Sub) : Prop where
  name : s.name = d.name.getD ""
  symbol : s.symbol = d.symbol.getD ""
  formula : s.formula = d.formula.getD ""
  charge : s.charge = d.charge.getD 0
  reaction : s.reactionSymbol = d.reaction.getD ""
  mass : s.molarMass = d.mass.map fun q : ℚ => (q : ℝ)
  state : s.state = (d.state.map fun c => (c.1.1 : Int)).getD 0
  cls : s.cls = (d.cls.map fun c => (c.1.1 : Int)).getD 0
  lowerT : s.lowerT = ((d.limits.bind (·.1)).map fun q : ℚ => (q : ℝ)).getD 0
  upperT : s.upperT = ((d.limits.bind (·.2)).map fun q : ℚ => (q : ℝ)).getD 0
  refT : s.refT = (d.Tst.map fun q : ℚ => (q : ℝ)).getD 298.15
  refP : s.refP = (d.Pst.map fun q : ℚ => (q : ℝ)).getD 1e5
  methods : s.methods = (d.methods.getD []).foldl (fun m e => withMethod m e.method.2.2.1 e.method.2.2.2) {}
  params : ∀ l, d.methods = some l → s.params = paramsOf d l
  reacdc : s.reacdc = (d.methods.isNone && d.reaction.isSome)
  Cp : IsProp d.Cp "J/K/mol" s.ref.Cp
  G : IsProp d.G "J/mol" s.ref.G
  H : IsProp d.H "J/mol" s.ref.H
  S : IsProp d.S "J/K/mol" s.ref.S
  V : IsProp d.V "J/bar" s.ref.V
  lowerP : s.lowerP = 0
  upperP : s.upperP = 0

/-- The quantities of a record can be expressed in the units of the program. -/
def Convertible (q : Option Quantity) (unit : String) : Prop := ∀ x, q = some x → ∃ v e, x.Is unit v e

/-! ### Lemmas -/

lemma stoi_code : ∀ n : Fin 100, stoi (toString n.1) = .ok (n.1 : Int) := by
  have h : (List.finRange 100).all (fun n : Fin 100 => match stoi (toString n.1) with | .ok k => k = (n.1 : Int) | .error _ => false) = true := by decide +kernel
  intro n
  have := List.all_eq_true.1 h n (List.mem_finRange n)
  cases hc : stoi (toString n.1) with
  | ok c => rw [hc] at this; simp at this; rw [this]
  | error e => rw [hc] at this; simp at this

lemma fieldText {σ : Type} {j : Json} {k : String} {v : Option String} (h : SaysText j k v) (set : σ → String → σ) (s : σ) :
    fieldStep j k Json.getStr set s = .ok (v.elim s (set s)) := by
  unfold fieldStep Json.field
  rw [h]
  cases v <;> rfl

lemma fieldNum {σ : Type} {j : Json} {k : String} {v : Option ℚ} (h : SaysNum j k v) (set : σ → ℝ → σ) (s : σ) :
    fieldStep j k Json.getDouble set s = .ok (v.elim s fun x => set s (x : ℝ)) := by
  unfold fieldStep Json.field
  rw [h]
  cases v <;> rfl

lemma fieldInt {σ : Type} {j : Json} {k : String} {v : Option Int} (h : SaysNum j k (v.map fun z : Int => (z : ℚ))) (set : σ → Int → σ) (s : σ) :
    fieldStep j k Json.getInt set s = .ok (v.elim s (set s)) := by
  unfold fieldStep Json.field
  rw [h]
  cases v with
  | none => rfl
  | some z =>
    show (Except.ok ((z : ℚ).num.tdiv ((z : ℚ).den : Int))).bind _ = _
    rw [Rat.num_intCast, Rat.den_intCast]
    show Except.ok (set s (z.tdiv 1)) = _
    rw [Int.tdiv_one]; rfl

lemma codeSays {σ : Type} {j : Json} {k : String} {v : Option (Fin 100 × String)} (h : SaysCode j k v) (set : σ → Int → σ) (s : σ) :
    codeStep j k set s = .ok (v.elim s fun x => set s (x.1.1 : Int)) := by
  unfold codeStep Json.field
  rw [h]
  cases v with
  | none => rfl
  | some c =>
    show (stoi (toString c.1.1)).bind _ = _
    rw [stoi_code]; rfl

lemma lower_says {j : Json} {l : Option (Option ℚ × Option ℚ)} (h : j.get? "limitsTP" = l.map limitsJson) : SaysNum ((j.field "limitsTP").getD .null) "lowerT" (l.bind (·.1)) := by
  unfold SaysNum Json.field
  rw [h]
  rcases l with _ | ⟨_ | a, _ | b⟩ <;> rfl

lemma upper_says {j : Json} {l : Option (Option ℚ × Option ℚ)} (h : j.get? "limitsTP" = l.map limitsJson) : SaysNum ((j.field "limitsTP").getD .null) "upperT" (l.bind (·.2)) := by
  unfold SaysNum Json.field
  rw [h]
  rcases l with _ | ⟨_ | a, _ | b⟩ <;> rfl

lemma limits_says {j : Json} {l : Option (Option ℚ × Option ℚ)} (h : j.get? "limitsTP" = l.map limitsJson) : limitsOf j = .ok (limitsList l) := by
  unfold limitsOf
  rw [h]
  rcases l with _ | ⟨_ | a, _ | b⟩ <;> rfl

lemma list_says {p : String × List String} (hp : p ∈ listUnits) {j : Json} {v : Option (List ℚ)} (h : SaysList j p.1 v) : readValuesUnits j p.1 p.2 = .ok (v.map reals) := by
  cases v with
  | none => unfold readValuesUnits; rw [h]; rfl
  | some qs => exact C91_default_units p hp j qs h

lemma params_says {j : Json} {m : MethodData} (h : SaysMethod j m) (ps : ParamS) : thermoParamSubst j m.method.2.1 ps = .ok { ps with
    akinfiev := (m.akinfiev.map reals).getD ps.akinfiev, critical := (m.critical.map reals).getD ps.critical, hkf := (m.hkf.map reals).getD ps.hkf,
    intervals := ps.intervals ++ (if m.method.2.1 = "cp_ft_equation" then [limitsList m.limits] else []),
    cpCoeffs := ps.cpCoeffs ++ (m.cp.map reals).toList.filter fun x => !x.isEmpty,
    transitions := ps.transitions ++ (m.transition.map reals).toList.filter fun x => !x.isEmpty,
    landau := (m.landau.map reals).getD ps.landau, holland := (m.holland.map reals).getD ps.holland } := by
  have h1 := list_says (p := ("eos_akinfiev_diamond_coeffs", ["1", "(cm^3)/g", "(cm^3*K^0.5)/g"])) (by simp [listUnits]) h.akinfiev
  have h2 := list_says (p := ("eos_gas_crit_props", ["K", "bar", "1", "1"])) (by simp [listUnits]) h.critical
  have h3 := list_says (p := ("eos_hkf_coeffs", ["cal/(mol*bar)", "cal/mol", "(cal*K)/(mol*bar)", "(cal*K)/mol", "cal/(mol*K)", "(cal*K)/mol", "cal/mol"])) (by simp [listUnits]) h.hkf
  have h4 := list_says (p := ("m_heat_capacity_ft_coeffs", ["J/(mol*K)", "J/(mol*K^2)", "(J*K)/mol", "J/(mol*K^0.5)", "J/(mol*K^3)",
    "J/(mol*K^4)", "J/(mol*K^5)", "(J*K^2)/mol", "J/mol", "J/(mol*K^1.5)", "J/(mol*K)"])) (by simp [listUnits]) h.cp
  have h5 := list_says (p := ("m_phase_trans_props", ["K", "J/(mol*K)", "J/mol", "J/bar", "K/bar"])) (by simp [listUnits]) h.transition
  have h6 := list_says (p := ("m_landau_phase_trans_props", ["degC", "J/(mol*K)", "J/bar"])) (by simp [listUnits]) h.landau
  have h7 := list_says (p := ("solute_holland_powell98_coeff", ["kJ/(mol*K^2)"])) (by simp [listUnits]) h.holland
  simp only at h1 h2 h3 h4 h5 h6 h7
  have e : ∀ (o : Option (List ℝ)) (L : List (List ℝ)), (if (orOld o []).isEmpty then L else L ++ [orOld o []]) = L ++ o.toList.filter fun x => !x.isEmpty := by
    intro o L
    cases o with
    | none => simp [orOld]
    | some x => cases x <;> simp [orOld]
  unfold thermoParamSubst
  rw [h1, h2, h3, h4, h5, h6, h7, limits_says h.limits]
  by_cases hc : m.method.2.1 = "cp_ft_equation"
  · simp only [if_pos hc, ← e]; rfl
  · simp only [if_neg hc, List.append_nil, ← e]; rfl

lemma method_says {j : Json} {m : MethodData} (h : SaysMethod j m) (hd : honoured substSlot substCodes m.method = true) : methodOf j = .ok (some (m.method.1, m.method.2.1)) := by
  obtain ⟨_, h2⟩ := setMethods_honoured hd
  unfold methodOf
  rw [h.method]
  simp only [Json.isNull, h2, Json.getStr]
  rfl

/-- The parameters after a list of methods, from those before. -/
def paramsFrom (ps : ParamS) (l : List MethodData) : ParamS := { ps with
  intervals := ps.intervals ++ (l.filter fun m => m.method.2.1 = "cp_ft_equation").map fun m => limitsList m.limits
  cpCoeffs := ps.cpCoeffs ++ (l.filterMap fun m => m.cp.map reals).filter fun x => !x.isEmpty
  akinfiev := l.foldl (fun a m => (m.akinfiev.map reals).getD a) ps.akinfiev
  transitions := ps.transitions ++ (l.filterMap fun m => m.transition.map reals).filter fun x => !x.isEmpty
  landau := l.foldl (fun a m => (m.landau.map reals).getD a) ps.landau
  hkf := l.foldl (fun a m => (m.hkf.map reals).getD a) ps.hkf
  critical := l.foldl (fun a m => (m.critical.map reals).getD a) ps.critical
  holland := l.foldl (fun a m => (m.holland.map reals).getD a) ps.holland }

lemma exec_says {ms : List Json} {l : List MethodData} (h : List.Forall₂ SaysMethod ms l) (hd : ∀ m ∈ l, honoured substSlot substCodes m.method = true) (w : SubW) (rest : List (Step SubW)) :
    exec (ms.flatMap substMethodSteps ++ rest) w = exec rest
      { s := { w.s with methods := l.foldl (fun m e => withMethod m e.method.2.2.1 e.method.2.2.2) w.s.methods }, ps := paramsFrom w.ps l } := by
  induction h generalizing w with
  | nil => simp [paramsFrom]
  | @cons j m ms l hj hl ih =>
    obtain ⟨h1, h2⟩ := setMethods_honoured (hd m (by simp))
    have hm := method_says hj (hd m (by simp))
    rw [List.flatMap_cons, List.append_assoc]
    refine Eq.trans (exec_ok (t := { w with s := { w.s with methods := withMethod w.s.methods m.method.2.2.1 m.method.2.2.2 } }) ?_) ?_
    · rw [hm]
      show (setMethods substSlot substCodes m.method.1 w.s.methods).bind _ = _
      rw [h1]; rfl
    · refine Eq.trans (exec_ok (t := { s := { w.s with methods := withMethod w.s.methods m.method.2.2.1 m.method.2.2.2 }, ps := paramsFrom w.ps [m] }) ?_) ?_
      · rw [hm]
        show (thermoParamSubst j m.method.2.1 w.ps).bind _ = _
        rw [params_says hj]
        show Except.ok _ = _
        congr 2
        simp only [paramsFrom, List.foldl_cons, List.foldl_nil, List.filter_cons, List.filter_nil, List.filterMap_cons, List.filterMap_nil]
        congr 1
        · by_cases hc : m.method.2.1 = "cp_ft_equation" <;> simp [hc]
      · refine (ih (fun d hd' => hd d (by simp [hd'])) _).trans ?_
        congr 2
        simp only [paramsFrom, List.foldl_cons, List.foldl_nil, List.append_assoc]
        congr 2
        · rw [← List.map_append, ← List.filter_append]; rfl
        · rw [← List.filter_append, ← List.filterMap_append]; rfl
        · rw [← List.filter_append, ← List.filterMap_append]; rfl

lemma quantity_says {j : Json} {k unit : String} {q : Option Quantity} (h : SaysQuantity j k q) (hc : Convertible q unit) : ∃ t, readProp j k unit = .ok t ∧ IsProp q unit t := by
  cases q with
  | none => exact ⟨TS.default, by unfold readProp; rw [h]; rfl, rfl⟩
  | some q =>
    obtain ⟨x, e, h1, h2⟩ := hc q rfl
    refine ⟨{ TS.default with val := x, err := e, sta := .read }, ?_, x, e, ⟨h1, h2⟩, rfl⟩
    unfold readProp
    rw [h]
    obtain ⟨v, err, u⟩ := q
    cases u with
    | none =>
      have c1 : convert (v : ℝ) unit unit = .ok x := by unfold convert; simp only [Option.getD] at h1; rw [h1]; rfl
      cases err with
      | none =>
        simp only at h2; subst h2
        show (convert (v : ℝ) unit unit).bind _ = _
        rw [c1]; rfl
      | some d =>
        have c2 : convert (d : ℝ) unit unit = .ok e := by unfold convert; simp only [Option.getD] at h2; rw [h2]; rfl
        show (convert (v : ℝ) unit unit).bind _ = _
        rw [c1]
        show (convert (d : ℝ) unit unit).bind _ = _
        rw [c2]; rfl
    | some u =>
      have c1 : convert (v : ℝ) u unit = .ok x := by unfold convert; simp only [Option.getD] at h1; rw [h1]; rfl
      cases err with
      | none =>
        simp only at h2; subst h2
        show (convert (v : ℝ) u unit).bind _ = _
        rw [c1]; rfl
      | some d =>
        have c2 : convert (d : ℝ) u unit = .ok e := by unfold convert; simp only [Option.getD] at h2; rw [h2]; rfl
        show (convert (v : ℝ) u unit).bind _ = _
        rw [c1]
        show (convert (d : ℝ) u unit).bind _ = _
        rw [c2]; rfl

/-- **C92 (substances).** A substance record whose methods are documented (other than 41 and 42, see `C62_ignored_refuted`) and whose
quantities have convertible units is read without an exception, and the substance is what the record says, whatever other keys the record
has. -/
theorem C92_substances (j : Json) (d : SubData) (h : SaysSub j d) (hp : j.get? "properties" = none)
    (hm : ∀ l, d.methods = some l → ∀ m ∈ l, m.method ∈ documentedS ∧ m.method.1 ≠ 41 ∧ m.method.1 ≠ 42)
    (hCp : Convertible d.Cp "J/K/mol") (hG : Convertible d.G "J/mol") (hH : Convertible d.H "J/mol") (hS : Convertible d.S "J/K/mol")
    (hV : Convertible d.V "J/bar") : ∃ s, parseSubstance j = .ok s ∧ IsSub d s := by
  have hi : inner j = j := by unfold inner Json.field; rw [hp]; rfl
  have u := List.all_eq_true.1 readable_units
  obtain ⟨cp, r1, p1⟩ := quantity_says h.Cp hCp
  obtain ⟨g, r2, p2⟩ := quantity_says h.G hG
  obtain ⟨hh, r3, p3⟩ := quantity_says h.H hH
  obtain ⟨ss, r4, p4⟩ := quantity_says h.S hS
  obtain ⟨v, r5, p5⟩ := quantity_says h.V hV
  have href : refPropSubst j = .ok { TPS.default with Cp := cp, G := g, H := hh, S := ss, V := v } := by
    unfold refPropSubst
    rw [r1, r2, r3, r4, r5]; rfl
  have hmass := read_given h.mass (u "g/mol" (by simp)) (by decide) (by decide)
  have plainFix : ∀ (key unit : String) (v : Option ℚ), Given j key v → readable unit = true → fixUnit key unit = (unit, 1) → readValueUnit j key unit = .ok (v.map fun q : ℚ => (q : ℝ)) := by
    intro key unit v hg hu hf
    unfold readValueUnit
    rw [hg]
    cases v with
    | none => rfl
    | some q =>
      show (convert ((q : ℝ) * ((fixUnit key unit).2 : ℝ)) (fixUnit key unit).1 unit).bind _ = _
      rw [hf, Rat.cast_one, mul_one, convert_readable hu]; rfl
  have hexp := plainFix _ "1/K" _ h.expansivity (u _ (by simp)) (by decide)
  have hcom := plainFix _ "kbar" _ h.compressibility (u _ (by simp)) (by decide)
  have hw : ∃ w, exec (substanceSteps j) {} = (w, none) ∧ IsSub d w.s := by
    have s1 : ∀ w : SubW, fieldStep j "name" Json.getStr (fun w x => { w with s := { w.s with name := x } }) w = .ok { w with s := { w.s with name := d.name.getD w.s.name } } := fun w => by rw [fieldText h.name]; cases d.name <;> rfl
    have s2 : ∀ w : SubW, fieldStep j "symbol" Json.getStr (fun w x => { w with s := { w.s with symbol := x } }) w = .ok { w with s := { w.s with symbol := d.symbol.getD w.s.symbol } } := fun w => by rw [fieldText h.symbol]; cases d.symbol <;> rfl
    have s3 : ∀ w : SubW, fieldStep j "formula" Json.getStr (fun w x => { w with s := { w.s with formula := x } }) w = .ok { w with s := { w.s with formula := d.formula.getD w.s.formula } } := fun w => by rw [fieldText h.formula]; cases d.formula <;> rfl
    have s4 : ∀ w : SubW, fieldStep j "formula_charge" Json.getInt (fun w x => { w with s := { w.s with charge := x } }) w = .ok { w with s := { w.s with charge := d.charge.getD w.s.charge } } := fun w => by rw [fieldInt h.charge]; cases d.charge <;> rfl
    have s5 : ∀ w : SubW, fieldStep j "reaction" Json.getStr (fun w x => { w with s := { w.s with reactionSymbol := x } }) w = .ok { w with s := { w.s with reactionSymbol := d.reaction.getD w.s.reactionSymbol } } := fun w => by rw [fieldText h.reaction]; cases d.reaction <;> rfl
    have s7 : ∀ w : SubW, codeStep j "aggregate_state" (fun w n => { w with s := { w.s with state := n } }) w = .ok { w with s := { w.s with state := (d.state.map fun c => (c.1.1 : Int)).getD w.s.state } } := fun w => by rw [codeSays h.state]; cases d.state <;> rfl
    have s8 : ∀ w : SubW, codeStep j "class_" (fun w n => { w with s := { w.s with cls := n } }) w = .ok { w with s := { w.s with cls := (d.cls.map fun c => (c.1.1 : Int)).getD w.s.cls } } := fun w => by rw [codeSays h.cls]; cases d.cls <;> rfl
    have s9 : ∀ w : SubW, fieldStep ((j.field "limitsTP").getD .null) "lowerT" Json.getDouble (fun w x => { w with s := { w.s with lowerT := x } }) w = .ok { w with s := { w.s with lowerT := ((d.limits.bind (·.1)).map fun q : ℚ => (q : ℝ)).getD w.s.lowerT } } := fun w => by rw [fieldNum (lower_says h.limits)]; cases (d.limits.bind (·.1)) <;> rfl
    have s10 : ∀ w : SubW, fieldStep ((j.field "limitsTP").getD .null) "upperT" Json.getDouble (fun w x => { w with s := { w.s with upperT := x } }) w = .ok { w with s := { w.s with upperT := ((d.limits.bind (·.2)).map fun q : ℚ => (q : ℝ)).getD w.s.upperT } } := fun w => by rw [fieldNum (upper_says h.limits)]; cases (d.limits.bind (·.2)) <;> rfl
    have s11 : ∀ w : SubW, fieldStep j "Tst" Json.getDouble (fun w x => { w with s := { w.s with refT := x } }) w = .ok { w with s := { w.s with refT := (d.Tst.map fun q : ℚ => (q : ℝ)).getD w.s.refT } } := fun w => by rw [fieldNum (h.Tst)]; cases d.Tst <;> rfl
    have s12 : ∀ w : SubW, fieldStep j "Pst" Json.getDouble (fun w x => { w with s := { w.s with refP := x } }) w = .ok { w with s := { w.s with refP := (d.Pst.map fun q : ℚ => (q : ℝ)).getD w.s.refP } } := fun w => by rw [fieldNum (h.Pst)]; cases d.Pst <;> rfl
    have tail : ∀ (o : Option (List MethodData)), d.methods = o → ∀ w : SubW, w.s.methods = {} → w.s.reacdc = false → w.ps = {} → ∃ w', exec (substMethodsSteps j ++ [
        fun w => .ok (if (j.get? "TPMethods").isNone ∧ (j.field "reaction").isSome then { w with s := { w.s with reacdc := true } } else w),
        fun w => do
          let r ← refPropSubst j
          .ok { w with s := { w.s with ref := r } }]) w = (w', none) ∧ ∃ ps, w'.s = { w.s with
            methods := (d.methods.getD []).foldl (fun m e => withMethod m e.method.2.2.1 e.method.2.2.2) {}, params := ps, reacdc := (d.methods.isNone && d.reaction.isSome),
            ref := { TPS.default with Cp := cp, G := g, H := hh, S := ss, V := v } } ∧ ∀ l, d.methods = some l → ps = paramsOf d l := by
      have hr : (j.field "reaction").isSome = d.reaction.isSome := by
        unfold Json.field
        rw [h.reaction]
        cases d.reaction <;> rfl
      intro o ho w hw0 hw1 hw2
      have hms := h.methods
      rw [ho] at hms
      cases o with
      | none =>
        simp only at hms
        have he : substMethodsSteps j = [] := by unfold substMethodsSteps Json.field; rw [hms]
        rw [he, ho, hms, hr]
        refine ⟨?w1, ?a1, w.s.params, ?b1, fun l hl => by cases hl⟩
        case a1 =>
          refine Eq.trans (exec_ok (by rfl)) ?_
          refine Eq.trans (exec_ok (by rw [href]; rfl)) ?_
          exact rfl
        case b1 =>
          obtain ⟨s, ps⟩ := w
          simp only at hw0 hw1
          cases d.reaction with
          | none => simp [hw0, hw1]
          | some r => simp [hw0]
      | some l =>
        obtain ⟨ms, e1, e2⟩ := hms
        have hd : ∀ m ∈ l, honoured substSlot substCodes m.method = true := by
          intro m hml
          obtain ⟨a, b⟩ := hm l ho m hml
          exact List.all_eq_true.1 substances_honoured _ (List.mem_filter.2 ⟨a, by simpa using b⟩)
        have he : substMethodsSteps j = ms.flatMap substMethodSteps ++ [
            fun w => do
              let r ← readValueUnit j "m_expansivity" "1/K"
              .ok { w with ps := { w.ps with expansivity := match r with | some x => some x | none => w.ps.expansivity } },
            fun w => do
              let r ← readValueUnit j "m_compressibility" "kbar"
              .ok { w with ps := { w.ps with compressibility := match r with | some x => some x | none => w.ps.compressibility } },
            fun w => .ok { w with s := { w.s with params := w.ps } }] := by unfold substMethodsSteps Json.field; rw [e1]; rfl
        rw [he, ho, e1, hr, List.append_assoc]
        refine ⟨?w2, ?a2, paramsOf d l, ?b2, fun l' hl => by injection hl with hl; rw [hl]⟩
        case a2 =>
          refine (exec_says e2 hd _ _).trans ?_
          refine Eq.trans (exec_ok (by rw [hexp]; rfl)) ?_
          refine Eq.trans (exec_ok (by rw [hcom]; rfl)) ?_
          refine Eq.trans (exec_ok (by rfl)) ?_
          refine Eq.trans (exec_ok (by rfl)) ?_
          refine Eq.trans (exec_ok (by rw [href]; rfl)) ?_
          exact rfl
        case b2 =>
          obtain ⟨s, ps⟩ := w
          simp only at hw0 hw1 hw2
          subst hw2
          simp [hw0, hw1, paramsFrom, paramsOf, lastGiven]
          refine ⟨?_, ?_⟩ <;> split <;> simp_all
    have pre : ∃ w0, exec (substanceSteps j) {} = exec (substMethodsSteps j ++ [
        fun w => .ok (if (j.get? "TPMethods").isNone ∧ (j.field "reaction").isSome then { w with s := { w.s with reacdc := true } } else w),
        fun w => do
          let r ← refPropSubst j
          .ok { w with s := { w.s with ref := r } }]) w0 ∧ w0.ps = {} ∧ w0.s = {
        name := d.name.getD "", symbol := d.symbol.getD "", formula := d.formula.getD "", charge := d.charge.getD 0, reactionSymbol := d.reaction.getD "",
        molarMass := d.mass.map fun q : ℚ => (q : ℝ), state := (d.state.map fun c => (c.1.1 : Int)).getD 0, cls := (d.cls.map fun c => (c.1.1 : Int)).getD 0,
        lowerT := ((d.limits.bind (·.1)).map fun q : ℚ => (q : ℝ)).getD 0, upperT := ((d.limits.bind (·.2)).map fun q : ℚ => (q : ℝ)).getD 0,
        refT := (d.Tst.map fun q : ℚ => (q : ℝ)).getD 298.15, refP := (d.Pst.map fun q : ℚ => (q : ℝ)).getD 1e5 } := by
      refine ⟨?w3, ?a3, ?b3, ?c3⟩
      case a3 =>
        unfold substanceSteps
        rw [List.append_assoc]
        refine Eq.trans (exec_ok (s1 _)) ?_
        refine Eq.trans (exec_ok (s2 _)) ?_
        refine Eq.trans (exec_ok (s3 _)) ?_
        refine Eq.trans (exec_ok (s4 _)) ?_
        refine Eq.trans (exec_ok (s5 _)) ?_
        refine Eq.trans (exec_ok (by rw [hmass]; rfl)) ?_
        refine Eq.trans (exec_ok (s7 _)) ?_
        refine Eq.trans (exec_ok (s8 _)) ?_
        refine Eq.trans (exec_ok (s9 _)) ?_
        refine Eq.trans (exec_ok (s10 _)) ?_
        refine Eq.trans (exec_ok (s11 _)) ?_
        refine Eq.trans (exec_ok (s12 _)) ?_
        exact rfl
      case b3 => rfl
      case c3 => rfl
    obtain ⟨w0, a1, a2, a3⟩ := pre
    obtain ⟨w, b1, ps, b2, b3⟩ := tail d.methods rfl w0 (by rw [a3]) (by rw [a3]) a2
    refine ⟨w, a1.trans b1, ?_⟩
    rw [b2, a3]
    exact ⟨rfl, rfl, rfl, rfl, rfl, rfl, rfl, rfl, rfl, rfl, rfl, rfl, rfl, b3, rfl, p1, p2, p3, p4, p5, rfl, rfl⟩
  obtain ⟨w, h1, h2⟩ := hw
  refine ⟨w.s, ?_, h2⟩
  unfold parseSubstance
  rw [hi]
  show (caught (exec (substanceSteps j) {})).bind _ = _
  rw [h1]; rfl

/-- A record of an aqueous ion: two methods, quantities with and without unit and error. -/
def ionJson : Json := .obj [
  ("TPMethods", .arr [
    .obj [("eos_hkf_coeffs", plainList [1, 2, 3, 4, 5, 6, 7]), ("method", .obj [("3", .str "solute_hkf88_reaktoro")])],
    .obj [("limitsTP", .obj [("lowerT", .num 273), ("upperT", .num 500)]), ("m_heat_capacity_ft_coeffs", plainList [10, 20]), ("method", .obj [("0", .str "cp_ft_equation")])]]),
  ("Tst", .num 300), ("aggregate_state", .obj [("4", .str "AS_AQUEOUS")]), ("formula_charge", .num (-1)), ("mass_per_mole", plain 35), ("name", .str "Cl-"),
  ("sm_enthalpy", .obj [("errors", .arr [.num 10]), ("values", .arr [.num (-167080)])]),
  ("sm_entropy_abs", .obj [("units", .arr [.str "J/K/mol"]), ("values", .arr [.num 56])]), ("symbol", .str "Cl-")]

/-- What it says. -/
def ionData : SubData where
  name := some "Cl-"
  symbol := some "Cl-"
  charge := some (-1)
  mass := some 35
  state := some (4, "AS_AQUEOUS")
  Tst := some 300
  methods := some [{ method := (3, "solute_hkf88_reaktoro", .gen, 119), hkf := some [1, 2, 3, 4, 5, 6, 7] },
    { method := (0, "cp_ft_equation", .gen, 100), limits := some (some 273, some 500), cp := some [10, 20] }]
  H := some { value := -167080, err := some 10 }
  S := some { value := 56, unit := some "J/K/mol" }

lemma ref_readable : (["J/K/mol", "J/mol", "J/bar", "1"].all readable) = true := by decide +kernel

lemma convert_ref {u : String} (hu : u ∈ ["J/K/mol", "J/mol", "J/bar", "1"]) (x : ℝ) : Units.convert x u.toList u.toList = .ok x := by
  have := convert_readable (List.all_eq_true.1 ref_readable u hu) x
  unfold convert at this
  cases h : Units.convert x u.toList u.toList with
  | ok y => rw [h] at this; injection this with this; rw [this]
  | throw => rw [h] at this; cases this
  | ub => rw [h] at this; cases this

/-- The record of the ion meets the hypotheses of `C92_substances`. -/
example : SaysSub ionJson ionData ∧ ionJson.get? "properties" = none ∧
    (∀ l, ionData.methods = some l → ∀ m ∈ l, m.method ∈ documentedS ∧ m.method.1 ≠ 41 ∧ m.method.1 ≠ 42) ∧
    Convertible ionData.Cp "J/K/mol" ∧ Convertible ionData.G "J/mol" ∧ Convertible ionData.H "J/mol" ∧ Convertible ionData.S "J/K/mol" ∧ Convertible ionData.V "J/bar" := by
  refine ⟨⟨rfl, rfl, rfl, rfl, rfl, rfl, rfl, rfl, rfl, rfl, rfl, ⟨_, rfl, ?_⟩, rfl, rfl, rfl, rfl, rfl, rfl, rfl⟩, rfl, ?_, ?_, ?_, ?_, ?_, ?_⟩
  · exact .cons ⟨rfl, rfl, rfl, rfl, rfl, rfl, rfl, rfl, rfl⟩ (.cons ⟨rfl, rfl, rfl, rfl, rfl, rfl, rfl, rfl, rfl⟩ .nil)
  · intro l hl
    injection hl with hl
    subst hl
    simp only [List.mem_cons, List.not_mem_nil, or_false]
    rintro m (rfl | rfl)
    · show ((3 : Int), "solute_hkf88_reaktoro", Slot.gen, 119) ∈ documentedS ∧ (3 : Int) ≠ 41 ∧ (3 : Int) ≠ 42; decide
    · show ((0 : Int), "cp_ft_equation", Slot.gen, 100) ∈ documentedS ∧ (0 : Int) ≠ 41 ∧ (0 : Int) ≠ 42; decide
  · intro x hx; cases hx
  · intro x hx; cases hx
  · intro x hx
    injection hx with hx; subst hx
    exact ⟨_, _, convert_ref (by simp) _, convert_ref (by simp) _⟩
  · intro x hx
    injection hx with hx; subst hx
    exact ⟨_, _, convert_ref (by simp) _, rfl⟩
  · intro x hx; cases hx

/-- **C92 (wrapped records).** A record whose content is under the key `properties`, as in exports of the database, is read as its content. -/
theorem C92_wrapped (j p : Json) (h : j.get? "properties" = some p) (hn : p.get? "properties" = none) (ho : p.isNull = false) :
    parseSubstance j = parseSubstance p ∧ parseReaction j = parseReaction p ∧ parseElement j = parseElement p := by
  have h1 : inner j = p := by unfold inner Json.field; rw [h]; simp [ho]
  have h2 : inner p = p := by unfold inner Json.field; rw [hn]; rfl
  unfold parseSubstance parseReaction parseElement
  rw [h1, h2]
  exact ⟨rfl, rfl, rfl⟩

example : ∃ j p : Json, j.get? "properties" = some p ∧ p.get? "properties" = none ∧ p.isNull = false :=
  ⟨.obj [("_id", .str "1"), ("properties", ionJson)], ionJson, rfl, rfl, rfl⟩

/-! ### Reactions -/

/-- What an entry of the list of methods of a reaction says. -/
structure RMethodData where
  method : Int × String × Slot × Nat
  logK : Option (List ℚ) := none
  cp : Option (List ℚ) := none
  vol : Option (List ℚ) := none
  rb : Option (List ℚ) := none
  fm : Option (List ℚ) := none
  dm : Option (List ℚ) := none

/-- An entry of the list of methods of a reaction says `m`. -/
structure SaysRMethod (j : Json) (m : RMethodData) : Prop where
  method : j.get? "method" = some (.obj [(toString m.method.1, .str m.method.2.1)])
  logK : SaysList j "logk_ft_coeffs" m.logK
  cp : SaysList j "dr_heat_capacity_ft_coeffs" m.cp
  vol : SaysList j "dr_volume_fpt_coeffs" m.vol
  rb : SaysList j "dr_ryzhenko_coeffs" m.rb
  fm : SaysList j "dr_marshall_franck_coeffs" m.fm
  dm : SaysList j "dr_dolejs_manning10_coeffs" m.dm

/-- What a reaction record says. -/
structure ReaData where
  name : Option String := none
  symbol : Option String := none
  equation : Option String := none
  limits : Option (Option ℚ × Option ℚ) := none
  Tst : Option ℚ := none
  Pst : Option ℚ := none
  reactants : Option (List (String × ℚ)) := none
  methods : Option (List RMethodData) := none
  logK : Option Quantity := none
  Cp : Option Quantity := none
  G : Option Quantity := none
  H : Option Quantity := none
  S : Option Quantity := none
  V : Option Quantity := none

/-- An entry of the list of reactants says a species and its coefficient. -/
def SaysReactant (j : Json) (c : String × ℚ) : Prop := SaysText j "symbol" (some c.1) ∧ SaysNum j "coefficient" (some c.2)

/-- A reaction record says `d`. -/
structure SaysRea (j : Json) (d : ReaData) : Prop where
  name : SaysText j "name" d.name
  symbol : SaysText j "symbol" d.symbol
  equation : SaysText j "equation" d.equation
  limits : j.get? "limitsTP" = d.limits.map limitsJson
  Tst : SaysNum j "Tst" d.Tst
  Pst : SaysNum j "Pst" d.Pst
  reactants : match d.reactants with
    | none => j.get? "reactants" = none
    | some l => ∃ ms, j.get? "reactants" = some (.arr ms) ∧ List.Forall₂ SaysReactant ms l
  methods : match d.methods with
    | none => j.get? "TPMethods" = none
    | some l => ∃ ms, j.get? "TPMethods" = some (.arr ms) ∧ List.Forall₂ SaysRMethod ms l
  logK : SaysQuantity j "logKr" d.logK
  Cp : SaysQuantity j "drsm_heat_capacity_p" d.Cp
  G : SaysQuantity j "drsm_gibbs_energy" d.G
  H : SaysQuantity j "drsm_enthalpy" d.H
  S : SaysQuantity j "drsm_entropy" d.S
  V : SaysQuantity j "drsm_volume" d.V

/-- The last list given by a list of methods, the empty list if there is none. -/
def lastGivenR (f : RMethodData → Option (List ℚ)) (l : List RMethodData) : List ℝ := l.foldl (fun a m => ((f m).map reals).getD a) []

/-- The parameters a list of methods gives. -/
def paramsOfR (l : List RMethodData) : ParamR where
  logK := lastGivenR RMethodData.logK l
  cp := lastGivenR RMethodData.cp l
  vol := lastGivenR RMethodData.vol l
  rb := lastGivenR RMethodData.rb l
  fm := lastGivenR RMethodData.fm l
  dm := lastGivenR RMethodData.dm l

/-- The coefficient of a species in a list of reactants: the last one given. -/
def coefficientIn (l : List (String × ℚ)) (k : String) : Option ℚ := (l.reverse.find? fun c => c.1 = k).map (·.2)

/-- The reaction is what the record says. -/
structure IsRea (d : ReaData) (r : Rea) : Prop where
  name : r.name = d.name.getD ""
  symbol : r.symbol = if d.symbol.getD "" = "" then d.equation.getD "" else d.symbol.getD ""
  equation : r.equation = d.equation.getD ""
  lowerT : r.lowerT = ((d.limits.bind (·.1)).map fun q : ℚ => (q : ℝ)).getD 0
  upperT : r.upperT = ((d.limits.bind (·.2)).map fun q : ℚ => (q : ℝ)).getD 0
  refT : r.refT = (d.Tst.map fun q : ℚ => (q : ℝ)).getD 298.15
  refP : r.refP = (d.Pst.map fun q : ℚ => (q : ℝ)).getD 1e5
  reactants : ∀ l, d.reactants = some l → ∀ k, find k r.reactants = coefficientIn l k
  fromEquation : ∀ t m, d.reactants = none → d.equation = some t → Equation.fromEquation t.toList [] = .ok m → r.reactants = m.map fun p => (String.ofList p.1, p.2)
  methods : r.methods = (d.methods.getD []).foldl (fun m e => withMethod m e.method.2.2.1 e.method.2.2.2) {}
  params : r.params = paramsOfR (d.methods.getD [])
  logK : IsProp d.logK "1" r.ref.logK
  Cp : IsProp d.Cp "J/K/mol" r.ref.Cp
  G : IsProp d.G "J/mol" r.ref.G
  H : IsProp d.H "J/mol" r.ref.H
  S : IsProp d.S "J/K/mol" r.ref.S
  V : IsProp d.V "J/bar" r.ref.V
  lowerP : r.lowerP = 0
  upperP : r.upperP = 0

lemma find_assign' {α : Type} (m : List (String × α)) (k k' : String) (x : α) : find k' (assign m k x) = if k' = k then some x else find k' m := by
  induction m with
  | nil =>
    by_cases h : k' = k
    · simp [assign, find, h]
    · have : k ≠ k' := fun e => h e.symm
      simp [assign, find, h, this]
  | cons p m ih =>
    obtain ⟨a, y⟩ := p
    unfold assign
    by_cases ha : a = k
    · rw [if_pos ha]
      subst ha
      by_cases h : k' = a
      · simp [find, h]
      · have : a ≠ k' := fun e => h e.symm
        simp [find, h, this]
    · rw [if_neg ha]
      by_cases hlt : k < a
      · rw [if_pos hlt]
        simp only [find]
        by_cases h : k' = k
        · simp [h]
        · rw [if_neg h, if_neg (Ne.symm h)]
      rw [if_neg hlt]
      by_cases h : a = k'
      · subst h
        simp [find, ha]
      · simp only [find, if_neg h, ih]

lemma getReactants_says {ms : List Json} {l : List (String × ℚ)} (h : List.Forall₂ SaysReactant ms l) (m : List (String × ℚ)) :
    getReactants ms m = .ok (l.foldl (fun m c => assign m c.1 c.2) m) := by
  induction h generalizing m with
  | nil => rfl
  | @cons j c ms l hj hl ih =>
    have e1 : j.field "symbol" = some (.str c.1) := by unfold Json.field; rw [hj.1]; rfl
    have e2 : j.field "coefficient" = some (.num c.2) := by unfold Json.field; rw [hj.2]; rfl
    unfold getReactants
    rw [e1, e2]
    exact ih _

lemma find_foldl (l : List (String × ℚ)) (m : List (String × ℚ)) (k : String) : find k (l.foldl (fun m c => assign m c.1 c.2) m) = (coefficientIn l k).or (find k m) := by
  induction l generalizing m with
  | nil => rfl
  | cons c l ih =>
    rw [List.foldl_cons, ih, find_assign']
    unfold coefficientIn
    rw [List.reverse_cons, List.find?_append]
    cases hf : l.reverse.find? (fun c => c.1 = k) with
    | some x => simp
    | none =>
      by_cases hc : c.1 = k
      · simp [hc]
      · have : ¬ k = c.1 := fun e => hc e.symm
        simp [hc, this]

lemma params_says_r {j : Json} {m : RMethodData} (h : SaysRMethod j m) (pr : ParamR) : thermoParamReac j pr = .ok {
    logK := (m.logK.map reals).getD pr.logK, cp := (m.cp.map reals).getD pr.cp, vol := (m.vol.map reals).getD pr.vol,
    rb := (m.rb.map reals).getD pr.rb, fm := (m.fm.map reals).getD pr.fm, dm := (m.dm.map reals).getD pr.dm } := by
  have h1 := list_says (p := ("logk_ft_coeffs", ["1", "1/K", "K", "1", "K^2", "1/K^2", "K^0.5"])) (by simp [listUnits]) h.logK
  have h2 := list_says (p := ("dr_heat_capacity_ft_coeffs", ["J/(mol*K)", "J/(mol*K^2)", "(J*K)/mol", "J/(mol*K^0.5)", "J/(mol*K^3)"])) (by simp [listUnits]) h.cp
  have h3 := list_says (p := ("dr_volume_fpt_coeffs", ["1/K", "1/K^2", "1/K^3", "1/bar", "1/bar^2"])) (by simp [listUnits]) h.vol
  have h4 := list_says (p := ("dr_ryzhenko_coeffs", ["1", "1", "1"])) (by simp [listUnits]) h.rb
  have h5 := list_says (p := ("dr_marshall_franck_coeffs", ["1", "K", "K^2", "K^3", "1", "K", "K^2"])) (by simp [listUnits]) h.fm
  have h6 := list_says (p := ("dr_dolejs_manning10_coeffs", ["kJ/mol", "J/(mol*K)", "J/(mol*K)", "J/(mol*K^2)", "J/(mol*K)"])) (by simp [listUnits]) h.dm
  simp only at h1 h2 h3 h4 h5 h6
  unfold thermoParamReac
  rw [h1, h2, h3, h4, h5, h6]; rfl

lemma exec_says_r {ms : List Json} {l : List RMethodData} (h : List.Forall₂ SaysRMethod ms l) (hd : ∀ m ∈ l, honoured reacSlot reacCodes m.method = true) (w : ReaW) (rest : List (Step ReaW)) :
    exec (ms.flatMap reacMethodSteps ++ rest) w = exec rest
      { r := { w.r with methods := l.foldl (fun m e => withMethod m e.method.2.2.1 e.method.2.2.2) w.r.methods },
        pr := { logK := l.foldl (fun a m => (m.logK.map reals).getD a) w.pr.logK, cp := l.foldl (fun a m => (m.cp.map reals).getD a) w.pr.cp,
                vol := l.foldl (fun a m => (m.vol.map reals).getD a) w.pr.vol, rb := l.foldl (fun a m => (m.rb.map reals).getD a) w.pr.rb,
                fm := l.foldl (fun a m => (m.fm.map reals).getD a) w.pr.fm, dm := l.foldl (fun a m => (m.dm.map reals).getD a) w.pr.dm } } := by
  induction h generalizing w with
  | nil => simp
  | @cons j m ms l hj hl ih =>
    obtain ⟨h1, h2⟩ := setMethods_honoured (hd m (by simp))
    have hm : methodOf j = .ok (some (m.method.1, m.method.2.1)) := by
      unfold methodOf
      rw [hj.method]
      simp only [Json.isNull, h2, Json.getStr]
      rfl
    rw [List.flatMap_cons, List.append_assoc]
    refine Eq.trans (exec_ok (t := { w with r := { w.r with methods := withMethod w.r.methods m.method.2.2.1 m.method.2.2.2 } }) ?_) ?_
    · rw [hm]
      show (setMethods reacSlot reacCodes m.method.1 w.r.methods).bind _ = _
      rw [h1]; rfl
    · refine Eq.trans (exec_ok (by
        rw [hm]
        show (thermoParamReac j w.pr).bind _ = _
        rw [params_says_r hj]; rfl)) ?_
      exact (ih (fun d hd' => hd d (by simp [hd'])) _).trans rfl

/-- **C92 (reactions).** A reaction record whose methods are documented, whose quantities have convertible units and whose equation can be
read is read without an exception, and the reaction is what the record says. -/
theorem C92_reactions (j : Json) (d : ReaData) (h : SaysRea j d) (hp : j.get? "properties" = none)
    (hm : ∀ l, d.methods = some l → ∀ m ∈ l, m.method ∈ documentedR)
    (heq : ∀ t, d.equation = some t → ∃ m, Equation.fromEquation t.toList [] = .ok m)
    (hK : Convertible d.logK "1") (hCp : Convertible d.Cp "J/K/mol") (hG : Convertible d.G "J/mol") (hH : Convertible d.H "J/mol")
    (hS : Convertible d.S "J/K/mol") (hV : Convertible d.V "J/bar") : ∃ r, parseReaction j = .ok r ∧ IsRea d r := by
  have hi : inner j = j := by unfold inner Json.field; rw [hp]; rfl
  obtain ⟨k, r0, p0⟩ := quantity_says h.logK hK
  obtain ⟨cp, r1, p1⟩ := quantity_says h.Cp hCp
  obtain ⟨g, r2, p2⟩ := quantity_says h.G hG
  obtain ⟨hh, r3, p3⟩ := quantity_says h.H hH
  obtain ⟨ss, r4, p4⟩ := quantity_says h.S hS
  obtain ⟨v, r5, p5⟩ := quantity_says h.V hV
  have href : refPropReac j = .ok { TPR.default with logK := k, Cp := cp, G := g, H := hh, S := ss, V := v } := by
    unfold refPropReac
    rw [r0, r1, r2, r3, r4, r5]; rfl
  have s1 : ∀ w : ReaW, fieldStep j "name" Json.getStr (fun w x => { w with r := { w.r with name := x } }) w = .ok { w with r := { w.r with name := d.name.getD w.r.name } } :=
    fun w => by rw [fieldText h.name]; cases d.name <;> rfl
  have s2 : ∀ w : ReaW, fieldStep j "symbol" Json.getStr (fun w x => { w with r := { w.r with symbol := x } }) w = .ok { w with r := { w.r with symbol := d.symbol.getD w.r.symbol } } :=
    fun w => by rw [fieldText h.symbol]; cases d.symbol <;> rfl
  have s3 : ∀ w : ReaW, w.r.equation = "" → ∃ m, equationStep j w = .ok { w with r := { w.r with equation := d.equation.getD "", symbol := if w.r.symbol = "" then d.equation.getD w.r.symbol else w.r.symbol, reactants := m } } ∧
      ∀ t m', d.equation = some t → Equation.fromEquation t.toList [] = .ok m' → m = m'.map fun p => (String.ofList p.1, p.2) := by
    intro w hw
    unfold equationStep fieldStep Json.field
    rw [h.equation]
    cases ht : d.equation with
    | none =>
      refine ⟨w.r.reactants, ?_, fun t m ht => by cases ht⟩
      show Except.ok w = _
      simp [← hw]
    | some t =>
      obtain ⟨m, he⟩ := heq t ht
      refine ⟨m.map fun p => (String.ofList p.1, p.2), ?_, fun t' m' ht' hm' => by injection ht' with ht'; subst ht'; rw [he] at hm'; injection hm' with hm'; rw [hm']⟩
      show ((ofRes (Equation.fromEquation t.toList [])).bind _ : J _).bind _ = _
      rw [he]
      show Except.ok _ = _
      congr 3
      simp [String.isEmpty_iff]
  have s4 : ∀ w : ReaW, fieldStep ((j.field "limitsTP").getD .null) "lowerT" Json.getDouble (fun w x => { w with r := { w.r with lowerT := x } }) w =
      .ok { w with r := { w.r with lowerT := ((d.limits.bind (·.1)).map fun q : ℚ => (q : ℝ)).getD w.r.lowerT } } :=
    fun w => by rw [fieldNum (lower_says h.limits)]; cases d.limits.bind (·.1) <;> rfl
  have s5 : ∀ w : ReaW, fieldStep ((j.field "limitsTP").getD .null) "upperT" Json.getDouble (fun w x => { w with r := { w.r with upperT := x } }) w =
      .ok { w with r := { w.r with upperT := ((d.limits.bind (·.2)).map fun q : ℚ => (q : ℝ)).getD w.r.upperT } } :=
    fun w => by rw [fieldNum (upper_says h.limits)]; cases d.limits.bind (·.2) <;> rfl
  have s6 : ∀ w : ReaW, fieldStep j "Tst" Json.getDouble (fun w x => { w with r := { w.r with refT := x } }) w = .ok { w with r := { w.r with refT := (d.Tst.map fun q : ℚ => (q : ℝ)).getD w.r.refT } } :=
    fun w => by rw [fieldNum h.Tst]; cases d.Tst <;> rfl
  have s7 : ∀ w : ReaW, fieldStep j "Pst" Json.getDouble (fun w x => { w with r := { w.r with refP := x } }) w = .ok { w with r := { w.r with refP := (d.Pst.map fun q : ℚ => (q : ℝ)).getD w.r.refP } } :=
    fun w => by rw [fieldNum h.Pst]; cases d.Pst <;> rfl
  have s8 : ∀ w : ReaW, ∃ m, fieldStep j "reactants" (fun v => getReactants v.elems []) (fun w x => { w with r := { w.r with reactants := x } }) w = .ok { w with r := { w.r with reactants := m } } ∧
      (∀ l, d.reactants = some l → ∀ k, find k m = coefficientIn l k) ∧ (d.reactants = none → m = w.r.reactants) := by
    intro w
    have hr := h.reactants
    unfold fieldStep Json.field
    cases ht : d.reactants with
    | none =>
      rw [ht] at hr
      simp only at hr
      rw [hr]
      exact ⟨w.r.reactants, rfl, fun l hl => (by cases hl), fun _ => rfl⟩
    | some l =>
      rw [ht] at hr
      obtain ⟨ms, e1, e2⟩ := hr
      rw [e1]
      refine ⟨l.foldl (fun m c => assign m c.1 c.2) [], ?_, ?_, fun h => by cases h⟩
      · show (getReactants ms []).bind _ = _
        rw [getReactants_says e2]; rfl
      · intro l' hl k
        injection hl with hl
        subst hl
        rw [find_foldl]
        cases coefficientIn l k <;> rfl
  have tail : ∀ w : ReaW, w.r.methods = {} → w.r.params = {} → w.pr = {} → ∃ w', exec (reacMethodsSteps j ++ [
      fun w => do
        let r ← refPropReac j
        .ok { w with r := { w.r with ref := r } }]) w = (w', none) ∧ w'.r = { w.r with
          methods := (d.methods.getD []).foldl (fun m e => withMethod m e.method.2.2.1 e.method.2.2.2) {}, params := paramsOfR (d.methods.getD []),
          ref := { TPR.default with logK := k, Cp := cp, G := g, H := hh, S := ss, V := v } } := by
    intro w hw0 hw1 hw2
    have hms := h.methods
    cases ho : d.methods with
    | none =>
      rw [ho] at hms
      simp only at hms
      have he : reacMethodsSteps j = [] := by unfold reacMethodsSteps Json.field; rw [hms]
      rw [he]
      refine ⟨?w1, ?a1, ?b1⟩
      case a1 =>
        refine Eq.trans (exec_ok (by rw [href]; rfl)) ?_
        exact rfl
      case b1 => simp [hw0, hw1, paramsOfR, lastGivenR]
    | some l =>
      rw [ho] at hms
      obtain ⟨ms, e1, e2⟩ := hms
      have he : reacMethodsSteps j = ms.flatMap reacMethodSteps ++ [fun w => .ok { w with r := { w.r with params := w.pr } }] := by unfold reacMethodsSteps Json.field; rw [e1]; rfl
      rw [he, List.append_assoc]
      refine ⟨?w2, ?a2, ?b2⟩
      case a2 =>
        refine (exec_says_r e2 (fun m hml => List.all_eq_true.1 reactions_honoured _ (hm l ho m hml)) _ _).trans ?_
        refine Eq.trans (exec_ok (by rfl)) ?_
        refine Eq.trans (exec_ok (by rw [href]; rfl)) ?_
        exact rfl
      case b2 => simp [hw0, hw2, paramsOfR, lastGivenR]
  obtain ⟨m1, q1, q1'⟩ := s3 { r := { name := d.name.getD "", symbol := d.symbol.getD "" } } rfl
  have pre : ∃ w0, exec (reactionSteps j) {} = exec (reacMethodsSteps j ++ [
      fun w => do
        let r ← refPropReac j
        .ok { w with r := { w.r with ref := r } }]) w0 ∧ w0.pr = {} ∧ ∃ m, w0.r = {
        name := d.name.getD "", symbol := if d.symbol.getD "" = "" then d.equation.getD (d.symbol.getD "") else d.symbol.getD "", equation := d.equation.getD "",
        lowerT := ((d.limits.bind (·.1)).map fun q : ℚ => (q : ℝ)).getD 0, upperT := ((d.limits.bind (·.2)).map fun q : ℚ => (q : ℝ)).getD 0,
        refT := (d.Tst.map fun q : ℚ => (q : ℝ)).getD 298.15, refP := (d.Pst.map fun q : ℚ => (q : ℝ)).getD 1e5, reactants := m } ∧
        (∀ l, d.reactants = some l → ∀ k, find k m = coefficientIn l k) ∧ (d.reactants = none → m = m1) := by
    obtain ⟨m2, q2, q3⟩ := s8 { r := {
        name := d.name.getD "", symbol := if d.symbol.getD "" = "" then d.equation.getD (d.symbol.getD "") else d.symbol.getD "", equation := d.equation.getD "",
        lowerT := ((d.limits.bind (·.1)).map fun q : ℚ => (q : ℝ)).getD 0, upperT := ((d.limits.bind (·.2)).map fun q : ℚ => (q : ℝ)).getD 0,
        refT := (d.Tst.map fun q : ℚ => (q : ℝ)).getD 298.15, refP := (d.Pst.map fun q : ℚ => (q : ℝ)).getD 1e5, reactants := m1 } }
    refine ⟨?w3, ?a3, ?b3, m2, ?c3, q3⟩
    case a3 =>
      unfold reactionSteps
      rw [List.append_assoc]
      refine Eq.trans (exec_ok (s1 _)) ?_
      refine Eq.trans (exec_ok (s2 _)) ?_
      refine Eq.trans (exec_ok q1) ?_
      refine Eq.trans (exec_ok (s4 _)) ?_
      refine Eq.trans (exec_ok (s5 _)) ?_
      refine Eq.trans (exec_ok (s6 _)) ?_
      refine Eq.trans (exec_ok (s7 _)) ?_
      refine Eq.trans (exec_ok q2) ?_
      exact rfl
    case b3 => rfl
    case c3 => rfl
  obtain ⟨w0, a1, a2, m, a3, a4, a5⟩ := pre
  obtain ⟨w, b1, b2⟩ := tail w0 (by rw [a3]) (by rw [a3]) a2
  refine ⟨w.r, ?_, ?_⟩
  · unfold parseReaction
    rw [hi]
    show (caught (exec (reactionSteps j) {})).bind _ = _
    rw [a1, b1]; rfl
  · rw [b2, a3]
    refine ⟨rfl, ?_, rfl, rfl, rfl, rfl, rfl, a4, fun t m' h1 h2 h3 => (a5 h1).trans (q1' t m' h2 h3), rfl, rfl, p0, p1, p2, p3, p4, p5, rfl, rfl⟩
    show (if d.symbol.getD "" = "" then d.equation.getD (d.symbol.getD "") else d.symbol.getD "") = _
    by_cases hs : d.symbol.getD "" = ""
    · rw [if_pos hs, if_pos hs, hs]
    · rw [if_neg hs, if_neg hs]

/-- A record of a dissociation. -/
def dissociationJson : Json := .obj [
  ("TPMethods", .arr [.obj [("logk_ft_coeffs", plainList [1, 2, 3]), ("method", .obj [("0", .str "logk_fpt_function")])]]),
  ("drsm_gibbs_energy", .obj [("values", .arr [.num 5000])]), ("equation", .str "A=B"), ("limitsTP", .obj [("upperT", .num 500)]),
  ("reactants", .arr [.obj [("coefficient", .num (-1)), ("symbol", .str "A")], .obj [("coefficient", .num 2), ("symbol", .str "B")]]), ("symbol", .str "r1")]

/-- What it says. -/
def dissociationData : ReaData where
  symbol := some "r1"
  equation := some "A=B"
  limits := some (none, some 500)
  reactants := some [("A", -1), ("B", 2)]
  methods := some [{ method := (0, "logk_fpt_function", .gen, 102), logK := some [1, 2, 3] }]
  G := some { value := 5000 }

/-- The record of the dissociation meets the hypotheses of `C92_reactions`. -/
example : SaysRea dissociationJson dissociationData ∧ dissociationJson.get? "properties" = none ∧
    (∀ l, dissociationData.methods = some l → ∀ m ∈ l, m.method ∈ documentedR) ∧
    (∀ t, dissociationData.equation = some t → ∃ m, Equation.fromEquation t.toList [] = .ok m) ∧
    Convertible dissociationData.logK "1" ∧ Convertible dissociationData.Cp "J/K/mol" ∧ Convertible dissociationData.G "J/mol" ∧
    Convertible dissociationData.H "J/mol" ∧ Convertible dissociationData.S "J/K/mol" ∧ Convertible dissociationData.V "J/bar" := by
  refine ⟨⟨rfl, rfl, rfl, rfl, rfl, rfl, ⟨_, rfl, ?_⟩, ⟨_, rfl, ?_⟩, rfl, rfl, rfl, rfl, rfl, rfl⟩, rfl, ?_, ?_, ?_, ?_, ?_, ?_, ?_, ?_⟩
  · exact .cons ⟨rfl, rfl⟩ (.cons ⟨rfl, rfl⟩ .nil)
  · exact .cons ⟨rfl, rfl, rfl, rfl, rfl, rfl, rfl⟩ .nil
  · intro l hl
    injection hl with hl
    subst hl
    simp only [List.mem_cons, List.not_mem_nil, or_false]
    rintro m rfl
    show ((0 : Int), "logk_fpt_function", Slot.gen, 102) ∈ documentedR; decide
  · intro t ht
    injection ht with ht
    subst ht
    exact ⟨[(['A'], -1), (['B'], 1)], by decide +kernel⟩
  · intro x hx; cases hx
  · intro x hx; cases hx
  · intro x hx
    injection hx with hx; subst hx
    exact ⟨_, _, convert_ref (by simp) _, rfl⟩
  · intro x hx; cases hx
  · intro x hx; cases hx
  · intro x hx; cases hx

/-! ### Elements -/

/-- What an element record says. -/
structure ElemData where
  name : Option String := none
  symbol : Option String := none
  number : Option Int := none
  cls : Option (Fin 100 × String) := none
  isotope : Option Int := none
  entropy : ℚ
  heatCapacity : ℚ
  mass : ℚ
  volume : ℚ

/-- An element record says `d`. -/
structure SaysElem (j : Json) (d : ElemData) : Prop where
  name : SaysText j "name" d.name
  symbol : SaysText j "symbol" d.symbol
  number : SaysNum j "number" (d.number.map fun z : Int => (z : ℚ))
  cls : SaysCode j "class_" d.cls
  isotope : SaysNum j "isotope_mass" (d.isotope.map fun z : Int => (z : ℚ))
  entropy : Given j "entropy" (some d.entropy)
  heatCapacity : Given j "heat_capacity" (some d.heatCapacity)
  mass : Given j "atomic_mass" (some d.mass)
  volume : Given j "volume" (some d.volume)

/-- **C92 (elements, part).** An element record with all four numbers is read without an exception, and the element is what the record
says; its valence is the mark of an unknown valence.

Missing from the full statement: records that lack a number (`C63_leak_refuted`, `C63_indeterminate_refuted`). -/
theorem C92_elements_partial (j : Json) (d : ElemData) (h : SaysElem j d) (hp : j.get? "properties" = none) : parseElement j = .ok {
    name := d.name.getD "", symbol := d.symbol.getD "", number := d.number.getD 0, cls := (d.cls.map fun c => (c.1.1 : Int)).getD 0, isotope := d.isotope.getD 0,
    entropy := some d.entropy, heatCapacity := some d.heatCapacity, molarMass := some d.mass, volume := some d.volume, valence := 777 } := by
  have hi : inner j = j := by unfold inner Json.field; rw [hp]; rfl
  have u := List.all_eq_true.1 readable_units
  have s1 : ∀ w : ElemW, fieldStep j "name" Json.getStr (fun w x => { w with e := { w.e with name := x } }) w = .ok { w with e := { w.e with name := d.name.getD w.e.name } } :=
    fun w => by rw [fieldText h.name]; cases d.name <;> rfl
  have s2 : ∀ w : ElemW, fieldStep j "symbol" Json.getStr (fun w x => { w with e := { w.e with symbol := x } }) w = .ok { w with e := { w.e with symbol := d.symbol.getD w.e.symbol } } :=
    fun w => by rw [fieldText h.symbol]; cases d.symbol <;> rfl
  have s3 : ∀ w : ElemW, fieldStep j "number" Json.getInt (fun w x => { w with e := { w.e with number := x } }) w = .ok { w with e := { w.e with number := d.number.getD w.e.number } } :=
    fun w => by rw [fieldInt h.number]; cases d.number <;> rfl
  have vs : ∀ (k unit : String) (set : Elem → Option ℝ → Elem) (x : ℚ), readValueUnit j k unit = .ok (some (x : ℝ)) → ∀ w : ElemW, valStep j k unit set w = .ok { e := set w.e (some (x : ℝ)), val := some (x : ℝ) } := by
    intro k unit set x h w
    unfold valStep
    rw [h]; rfl
  have s4 := vs "entropy" "J/(mol*K)" (fun e x => { e with entropy := x }) d.entropy (read_given h.entropy (u _ (by simp)) (by decide) (by decide))
  have s5 := vs "heat_capacity" "J/(mol*K)" (fun e x => { e with heatCapacity := x }) d.heatCapacity (read_given h.heatCapacity (u _ (by simp)) (by decide) (by decide))
  have s6 := vs "atomic_mass" "g/mol" (fun e x => { e with molarMass := x }) d.mass (read_given h.mass (u _ (by simp)) (by decide) (by decide))
  have s7 := vs "volume" "J/bar" (fun e x => { e with volume := x }) d.volume (read_given h.volume (u _ (by simp)) (by decide) (by decide))
  have s8 : ∀ w : ElemW, w.e.cls = 0 → classStep j w = .ok { w with e := { w.e with cls := (d.cls.map fun c => (c.1.1 : Int)).getD 0 } } := by
    intro w hw
    have hc := h.cls
    unfold SaysCode at hc
    unfold classStep
    rw [hc]
    cases d.cls with
    | none =>
      show Except.ok w = Except.ok { w with e := { w.e with cls := 0 } }
      rw [← hw]
    | some c =>
      show (stoi (toString c.1.1)).bind _ = _
      rw [stoi_code]; rfl
  have s9 : ∀ w : ElemW, fieldStep j "isotope_mass" Json.getInt (fun w x => { w with e := { w.e with isotope := x } }) w = .ok { w with e := { w.e with isotope := d.isotope.getD w.e.isotope } } :=
    fun w => by rw [fieldInt h.isotope]; cases d.isotope <;> rfl
  unfold parseElement
  rw [hi]
  show (caught (exec (elementSteps j) {})).bind _ = _
  have : exec (elementSteps j) {} = ({ e := {
    name := d.name.getD "", symbol := d.symbol.getD "", number := d.number.getD 0, cls := (d.cls.map fun c => (c.1.1 : Int)).getD 0, isotope := d.isotope.getD 0,
    entropy := some d.entropy, heatCapacity := some d.heatCapacity, molarMass := some d.mass, volume := some d.volume, valence := 777 }, val := some (d.volume : ℝ) }, none) := by
    unfold elementSteps
    refine Eq.trans (exec_ok (s1 _)) ?_
    refine Eq.trans (exec_ok (s2 _)) ?_
    refine Eq.trans (exec_ok (s3 _)) ?_
    refine Eq.trans (exec_ok (s4 _)) ?_
    refine Eq.trans (exec_ok (s5 _)) ?_
    refine Eq.trans (exec_ok (s6 _)) ?_
    refine Eq.trans (exec_ok (s7 _)) ?_
    refine Eq.trans (exec_ok (s8 _ rfl)) ?_
    refine Eq.trans (exec_ok (s9 _)) ?_
    rfl
  rw [this]; rfl

/-- An element record. -/
example : ∃ j, SaysElem j { symbol := some "C", number := some 6, cls := some (0, "ELEMENT"), isotope := some 13, entropy := 5, heatCapacity := 8, mass := 12, volume := 1 } ∧
    j.get? "properties" = none :=
  ⟨.obj [("atomic_mass", plain 12), ("class_", .obj [("0", .str "ELEMENT")]), ("entropy", plain 5), ("heat_capacity", plain 8), ("isotope_mass", .num 13), ("number", .num 6),
    ("symbol", .str "C"), ("volume", plain 1)], ⟨rfl, rfl, rfl, rfl, rfl, rfl, rfl, rfl, rfl⟩, rfl⟩

/-! ### C89 Expansivity and compressibility -/

/-- A quantity with its unit. -/
def unitValue (q : ℚ) (u : String) : Json := .obj [("units", .arr [.str u]), ("values", .arr [.num q])]

lemma read_unit {j : Json} {data u unit : String} {q : ℚ} (h : j.get? data = some (unitValue q u)) (hf : (fixUnit data u).1 = unit) (hu : readable unit = true) :
    readValueUnit j data unit = .ok (some ((q : ℝ) * ((fixUnit data u).2 : ℝ))) := by
  unfold readValueUnit
  rw [h]
  show (convert ((q : ℝ) * ((fixUnit data u).2 : ℝ)) (fixUnit data u).1 unit).bind _ = _
  rw [hf, convert_readable hu]; rfl

/-- **C89 (part).** A record whose expansivity `q` (in 1/K) has the mistaken unit `kbar` and whose compressibility `k` (in kbar) has the
mistaken unit `1e-05/K`, as in all shipped databases, is read so that the solid models, which multiply the expansivity by 1e-5, use `q` and
`k`; and so is a compressibility with its right unit.

Missing from the full statement: an expansivity with its right unit (`C89_expansivity_refuted`). -/
theorem C89_mistaken_units_partial (j : Json) (q k : ℚ) (h1 : j.get? "m_expansivity" = some (unitValue q "kbar")) (u : String) (hu : u = "1e-05/K" ∨ u = "kbar")
    (h2 : j.get? "m_compressibility" = some (unitValue k u)) :
    ∃ a, readValueUnit j "m_expansivity" "1/K" = .ok (some a) ∧ a * 1e-5 = q ∧ readValueUnit j "m_compressibility" "kbar" = .ok (some (k : ℝ)) := by
  have r := List.all_eq_true.1 readable_units
  refine ⟨(q : ℝ) * 100000, ?_, by norm_num; ring, ?_⟩
  · have := read_unit h1 (unit := "1/K") (by decide) (r _ (by simp))
    rw [this]
    have : (fixUnit "m_expansivity" "kbar").2 = 100000 := by decide
    rw [this]; norm_num
  · rcases hu with rfl | rfl
    · rw [read_unit h2 (unit := "kbar") (by decide) (r _ (by simp))]
      have : (fixUnit "m_compressibility" "1e-05/K").2 = 1 := by decide
      rw [this, Rat.cast_one, mul_one]
    · rw [read_unit h2 (unit := "kbar") (by decide) (r _ (by simp))]
      have : (fixUnit "m_compressibility" "kbar").2 = 1 := by decide
      rw [this, Rat.cast_one, mul_one]

example : ∃ j : Json, j.get? "m_expansivity" = some (unitValue (419 / 10000000) "kbar") ∧ j.get? "m_compressibility" = some (unitValue 2520 "1e-05/K") :=
  ⟨.obj [("m_compressibility", unitValue 2520 "1e-05/K"), ("m_expansivity", unitValue (419 / 10000000) "kbar")], rfl, rfl⟩

/-- **C89, violation.** An expansivity stated in its right unit 1/K is used a hundred thousand times too small: with any expansivity up to
1e-4 1/K (those of minerals are some 1e-5 1/K) the Murnaghan model gives, at all temperatures and pressures, what it gives for an expansivity
of 0. -/
theorem C89_expansivity_refuted (j : Json) (q : ℚ) (h1 : j.get? "m_expansivity" = some (unitValue q "1/K")) (hq : 0 < q) (hq' : q ≤ 1 / 10000) :
    ∃ a : ℝ, readValueUnit j "m_expansivity" "1/K" = .ok (some a) ∧ a * 1e-5 ≠ q ∧
      ∀ (TK Pbar : TS) (Tst Pr : ℝ) (ref : TPS) (k0 : ℝ) (tps : TPS), murnaghan TK Pbar Tst Pr ref k0 a tps = murnaghan TK Pbar Tst Pr ref k0 0 tps := by
  have r := List.all_eq_true.1 readable_units
  have hq1 : (0 : ℝ) < q := by exact_mod_cast hq
  have hq2 : (q : ℝ) ≤ 1 / 10000 := by
    have : ((q : ℚ) : ℝ) ≤ ((1 / 10000 : ℚ) : ℝ) := by exact_mod_cast hq'
    simpa using this
  refine ⟨q, ?_, ?_, ?_⟩
  · rw [read_unit h1 (unit := "1/K") (by decide) (r _ (by simp))]
    have : (fixUnit "m_expansivity" "1/K").2 = 1 := by decide
    rw [this, Rat.cast_one, mul_one]
  · intro h
    norm_num at h
    nlinarith
  · intro TK Pbar Tst Pr ref k0 tps
    have n1 : ¬ (((Pbar - Pr / 1e5).val ≠ 0 ∨ (TK - Tst).val ≠ 0) ∧ |ref.V.val| > 1e-9 ∧ |(q : ℝ) * 1e-5| > 1e-9 ∧ |k0| > 1e-9) := by
      rintro ⟨-, -, h, -⟩
      rw [abs_of_pos (by positivity)] at h
      norm_num at h
      nlinarith
    have n2 : ¬ (((Pbar - Pr / 1e5).val ≠ 0 ∨ (TK - Tst).val ≠ 0) ∧ |ref.V.val| > 1e-9 ∧ |(0 : ℝ) * 1e-5| > 1e-9 ∧ |k0| > 1e-9) := by
      rintro ⟨-, -, h, -⟩
      norm_num at h
    unfold murnaghan
    simp only
    rw [if_neg n1, if_neg n2]

example : ∃ (j : Json) (q : ℚ), j.get? "m_expansivity" = some (unitValue q "1/K") ∧ 0 < q ∧ q ≤ 1 / 10000 :=
  ⟨.obj [("m_expansivity", unitValue (419 / 10000000) "1/K")], 419 / 10000000, rfl, by norm_num, by norm_num⟩

end ThermoFun.Js
