import Verif.Lemmas.Json
import Mathlib.Tactic.FinCases
import Mathlib.Tactic.IntervalCases

/-!
# Properties of the reading of records: methods (C62), missing values (C63), units (C91)
-/

namespace ThermoFun.Js

/-! ### C62 -/

/-- Specification: the documented method codes of substances (`enum_method_substance`, GlobalVariables.h:148-193), with the kind of method
and the method of the engine the name stands for. -/
def documentedS : List (Int × String × Slot × Nat) := [
  (0, "cp_ft_equation", .gen, 100), (1, "cp_ft_equation_saxena86", .T, 203), (2, "solute_hkf88_gems", .gen, 101),
  (3, "solute_hkf88_reaktoro", .gen, 119), (4, "solute_aknifiev_diamond03", .P, 320), (5, "landau_holland_powell98", .T, 201),
  (6, "landau_berman88", .T, 202), (8, "fug_critical_param", .P, 311), (9, "fluid_prsv", .P, 312),
  (10, "fluid_churakov_gottschalk", .P, 313), (11, "fluid_soave_redlich_kwong", .P, 314), (12, "fluid_sterner_pitzer", .P, 315),
  (13, "fluid_peng_robinson78", .P, 316), (14, "fluid_comp_redlich_kwong_hp91", .P, 317), (25, "water_diel_jnort91_reaktoro", .gen, 117),
  (26, "water_diel_jnort91_gems", .gen, 118), (27, "water_diel_sverj14", .gen, 120), (28, "water_diel_fern97", .gen, 121),
  (29, "water_eos_hgk84_lvs83_gems", .T, 206), (30, "water_eos_iapws95_gems", .T, 207), (31, "water_eos_hgk84_reaktoro", .T, 221),
  (32, "water_eos_iapws95_reaktoro", .T, 222), (33, "water_pvt_zhang_duan05", .T, 223), (34, "mv_constant", .P, 305),
  (35, "mv_equation_dorogokupets88", .P, 306), (36, "mv_equation_berman88", .P, 307), (37, "mv_eos_birch_murnaghan_gott97", .P, 308),
  (38, "mv_eos_murnaghan_hp98", .P, 309), (39, "mv_eos_tait_hp11", .P, 310), (40, "mv_pvnrt", .P, 300),
  (41, "solute_holland_powell98", .gen, 122), (42, "solute_anderson91", .gen, 123), (43, "standard_entropy_cp_integration", .T, 200)]

/-- Specification: the documented method codes of reactions (`enum_method_reaction`, GlobalVariables.h:195-211). -/
def documentedR : List (Int × String × Slot × Nat) := [
  (0, "logk_fpt_function", .gen, 102), (3, "logk_nordstrom_munoz88", .T, 208), (4, "logk_1_term_extrap0", .T, 209),
  (5, "logk_1_term_extrap1", .T, 210), (6, "logk_2_term_extrap", .T, 211), (7, "logk_3_term_extrap", .T, 212),
  (8, "logk_lagrange_interp", .T, 213), (9, "logk_marshall_frank78", .T, 214), (10, "solute_eos_ryzhenko_gems", .T, 216),
  (11, "dr_heat_capacity_ft", .gen, 100), (12, "dr_volume_fpt", .P, 306), (13, "dr_volume_constant", .P, 305), (14, "logk_dolejs_manning10", .T, 224)]

/-- Specification: one method of a kind. -/
def withMethod (m : Methods) : Slot → Nat → Methods
  | .gen, c => ⟨c, m.T, m.P⟩
  | .T, c => ⟨m.gen, c, m.P⟩
  | .P, c => ⟨m.gen, m.T, c⟩

/-- An entry of the list of methods of a record, with nothing but the method. -/
def methodEntry (k : Int) (name : String) : Json := .obj [("method", .obj [(toString k, .str name)])]

lemma set_eq (m : Methods) (s : Slot) (c : Nat) : m.set s c = withMethod m s c := by cases s <;> rfl

lemma setMethods_doc {slot : Int → Option Slot} {codes : List (Int × Nat)} {k : Int} {s : Slot} {c : Nat} (h1 : slot k = some s) (h2 : codeAt k codes = .ok c) (m : Methods) :
    setMethods slot codes k m = .ok (withMethod m s c) := by
  unfold setMethods
  rw [h1]
  show (codeAt k codes).bind _ = _
  rw [h2]
  show Except.ok (m.set s c) = _
  rw [set_eq]

/-- Decidable form of what the tables say about a code. -/
def honoured (slot : Int → Option Slot) (codes : List (Int × Nat)) (d : Int × String × Slot × Nat) : Bool :=
  slot d.1 = some d.2.2.1 && (match codeAt d.1 codes with | .ok c => c = d.2.2.2 | .error _ => false) &&
    (match stoi (toString d.1) with | .ok k => k = d.1 | .error _ => false)

lemma setMethods_honoured {slot : Int → Option Slot} {codes : List (Int × Nat)} {d : Int × String × Slot × Nat} (h : honoured slot codes d = true) :
    (∀ m, setMethods slot codes d.1 m = .ok (withMethod m d.2.2.1 d.2.2.2)) ∧ stoi (toString d.1) = .ok d.1 := by
  unfold honoured at h
  simp only [Bool.and_eq_true, decide_eq_true_eq] at h
  obtain ⟨⟨h1, h2⟩, h3⟩ := h
  constructor
  · intro m
    refine setMethods_doc h1 ?_ m
    cases hc : codeAt d.1 codes with
    | ok c => rw [hc] at h2; simp at h2; rw [h2]
    | error e => rw [hc] at h2; simp at h2
  · cases hc : stoi (toString d.1) with
    | ok c => rw [hc] at h3; simp at h3; rw [h3]
    | error e => rw [hc] at h3; simp at h3

lemma substances_honoured : (documentedS.filter fun d => d.1 ≠ 41 ∧ d.1 ≠ 42).all (honoured substSlot substCodes) = true := by decide +kernel
lemma reactions_honoured : documentedR.all (honoured reacSlot reacCodes) = true := by decide +kernel

lemma exec_methods {l : List (Int × String × Slot × Nat)} (h : ∀ d ∈ l, honoured substSlot substCodes d = true) (w : SubW) (rest : List (Step SubW)) :
    exec ((l.map fun d => methodEntry d.1 d.2.1).flatMap substMethodSteps ++ rest) w = exec rest
      { s := { w.s with methods := l.foldl (fun m d => withMethod m d.2.2.1 d.2.2.2) w.s.methods },
        ps := { w.ps with intervals := w.ps.intervals ++ (l.filter fun d => d.2.1 = "cp_ft_equation").map fun _ => [] } } := by
  induction l generalizing w with
  | nil => simp
  | cons d l ih =>
    obtain ⟨h1, h2⟩ := setMethods_honoured (h d (by simp))
    have hm : methodOf (methodEntry d.1 d.2.1) = .ok (some (d.1, d.2.1)) := by
      unfold methodOf methodEntry
      simp only [Json.get?, find, if_true, Json.isNull, h2, Json.getStr]
      rfl
    have hp : ∀ ps : ParamS, thermoParamSubst (methodEntry d.1 d.2.1) d.2.1 ps = .ok { ps with intervals := ps.intervals ++ if d.2.1 = "cp_ft_equation" then [[]] else [] } := by
      intro ps
      unfold thermoParamSubst
      by_cases hc : d.2.1 = "cp_ft_equation"
      · simp only [if_pos hc]; rfl
      · simp only [if_neg hc, List.append_nil]; rfl
    rw [List.map_cons, List.flatMap_cons, List.append_assoc]
    refine Eq.trans (exec_ok (t := { w with s := { w.s with methods := withMethod w.s.methods d.2.2.1 d.2.2.2 } }) ?_) ?_
    · rw [hm]
      show (setMethods substSlot substCodes d.1 w.s.methods).bind _ = _
      rw [h1]; rfl
    · refine Eq.trans (exec_ok (t := { s := { w.s with methods := withMethod w.s.methods d.2.2.1 d.2.2.2 }, ps := { w.ps with intervals := w.ps.intervals ++ if d.2.1 = "cp_ft_equation" then [[]] else [] } }) ?_) ?_
      · rw [hm]
        show (thermoParamSubst (methodEntry d.1 d.2.1) d.2.1 w.ps).bind _ = _
        rw [hp]; rfl
      · refine (ih (fun d hd => h d (by simp [hd])) _).trans ?_
        simp only [List.foldl_cons, List.append_assoc]
        congr 4
        by_cases hc : d.2.1 = "cp_ft_equation" <;> simp [hc]

lemma exec_methods_r {l : List (Int × String × Slot × Nat)} (h : ∀ d ∈ l, honoured reacSlot reacCodes d = true) (w : ReaW) (rest : List (Step ReaW)) :
    exec ((l.map fun d => methodEntry d.1 d.2.1).flatMap reacMethodSteps ++ rest) w = exec rest
      { w with r := { w.r with methods := l.foldl (fun m d => withMethod m d.2.2.1 d.2.2.2) w.r.methods } } := by
  induction l generalizing w with
  | nil => simp
  | cons d l ih =>
    obtain ⟨h1, h2⟩ := setMethods_honoured (h d (by simp))
    have hm : methodOf (methodEntry d.1 d.2.1) = .ok (some (d.1, d.2.1)) := by
      unfold methodOf methodEntry
      simp only [Json.get?, find, if_true, Json.isNull, h2, Json.getStr]
      rfl
    rw [List.map_cons, List.flatMap_cons, List.append_assoc]
    refine Eq.trans (exec_ok (t := { w with r := { w.r with methods := withMethod w.r.methods d.2.2.1 d.2.2.2 } }) ?_) ?_
    · rw [hm]
      show (setMethods reacSlot reacCodes d.1 w.r.methods).bind _ = _
      rw [h1]; rfl
    · refine Eq.trans (exec_ok (t := { w with r := { w.r with methods := withMethod w.r.methods d.2.2.1 d.2.2.2 } }) ?_) ?_
      · rw [hm]; rfl
      · exact ih (fun d hd => h d (by simp [hd])) _

/-- A record with a list of methods. -/
def methodsRecord (l : List (Int × String × Slot × Nat)) : Json := .obj [("TPMethods", .arr (l.map fun d => methodEntry d.1 d.2.1))]

/-- **C62 (substances, part).** For every list of documented methods other than 41 and 42, reading a substance record with that list sets
exactly those methods, the last of each kind.

Missing from the full statement: the codes 41 and 42 (`C62_ignored_refuted`). -/
theorem C62_substances_partial (l : List (Int × String × Slot × Nat)) (hl : ∀ d ∈ l, d ∈ documentedS ∧ d.1 ≠ 41 ∧ d.1 ≠ 42) :
    ∃ s, parseSubstance (methodsRecord l) = .ok s ∧ s.methods = l.foldl (fun m d => withMethod m d.2.2.1 d.2.2.2) {} := by
  have h : ∀ d ∈ l, honoured substSlot substCodes d = true := by
    intro d hd
    obtain ⟨h1, h2⟩ := hl d hd
    exact List.all_eq_true.1 substances_honoured d (List.mem_filter.2 ⟨h1, by simpa using h2⟩)
  have hsteps : ∃ w, exec (substanceSteps (methodsRecord l)) {} = (w, none) ∧ w.s.methods = l.foldl (fun m d => withMethod m d.2.2.1 d.2.2.2) {} := by
    refine ⟨?w, ?_, ?_⟩
    case refine_1 =>
      unfold substanceSteps
      rw [List.append_assoc]
      refine Eq.trans (exec_ok (by rfl)) (Eq.trans (exec_ok (by rfl)) (Eq.trans (exec_ok (by rfl)) (Eq.trans (exec_ok (by rfl)) (Eq.trans (exec_ok (by rfl)) (Eq.trans (exec_ok (by rfl)) ?_)))))
      refine Eq.trans (exec_ok (by rfl)) (Eq.trans (exec_ok (by rfl)) (Eq.trans (exec_ok (by rfl)) (Eq.trans (exec_ok (by rfl)) (Eq.trans (exec_ok (by rfl)) (Eq.trans (exec_ok (by rfl)) ?_)))))
      show exec ((List.flatMap substMethodSteps (l.map fun d => methodEntry d.1 d.2.1) ++ _) ++ _) _ = _
      rw [List.append_assoc]
      refine (exec_methods h _ _).trans ?_
      rfl
    case refine_2 => rfl
  obtain ⟨w, h1, h2⟩ := hsteps
  refine ⟨w.s, ?_, h2⟩
  unfold parseSubstance
  show (caught (exec (substanceSteps (methodsRecord l)) {})).bind _ = _
  rw [h1]; rfl

example : ∀ d ∈ [((2 : Int), "solute_hkf88_gems", Slot.gen, 101), (43, "standard_entropy_cp_integration", .T, 200), (34, "mv_constant", .P, 305)],
    d ∈ documentedS ∧ d.1 ≠ 41 ∧ d.1 ≠ 42 := by decide

/-- **C62 (reactions).** For every list of documented methods, reading a reaction record with that list sets exactly those methods, the last
of each kind. -/
theorem C62_reactions (l : List (Int × String × Slot × Nat)) (hl : ∀ d ∈ l, d ∈ documentedR) :
    ∃ r, parseReaction (methodsRecord l) = .ok r ∧ r.methods = l.foldl (fun m d => withMethod m d.2.2.1 d.2.2.2) {} := by
  have h : ∀ d ∈ l, honoured reacSlot reacCodes d = true := fun d hd => List.all_eq_true.1 reactions_honoured d (hl d hd)
  have hsteps : ∃ w, exec (reactionSteps (methodsRecord l)) {} = (w, none) ∧ w.r.methods = l.foldl (fun m d => withMethod m d.2.2.1 d.2.2.2) {} := by
    refine ⟨?w, ?_, ?_⟩
    case refine_1 =>
      unfold reactionSteps
      rw [List.append_assoc]
      refine Eq.trans (exec_ok (by rfl)) (Eq.trans (exec_ok (by rfl)) (Eq.trans (exec_ok (by rfl)) (Eq.trans (exec_ok (by rfl)) (Eq.trans (exec_ok (by rfl)) (Eq.trans (exec_ok (by rfl)) (Eq.trans (exec_ok (by rfl)) (Eq.trans (exec_ok (by rfl)) ?_)))))))
      show exec ((List.flatMap reacMethodSteps (l.map fun d => methodEntry d.1 d.2.1) ++ _) ++ _) _ = _
      rw [List.append_assoc]
      refine (exec_methods_r h _ _).trans ?_
      rfl
    case refine_2 => rfl
  obtain ⟨w, h1, h2⟩ := hsteps
  refine ⟨w.r, ?_, h2⟩
  unfold parseReaction
  show (caught (exec (reactionSteps (methodsRecord l)) {})).bind _ = _
  rw [h1]; rfl

example : ∀ d ∈ [((0 : Int), "logk_fpt_function", Slot.gen, 102), (7, "logk_3_term_extrap", .T, 212), (13, "dr_volume_constant", .P, 305)], d ∈ documentedR := by decide

/-- **C62 (different methods stay different, part).** Records with different documented methods are read as records with different methods.

Missing from the full statement: the codes 41 and 42. -/
theorem C62_distinct_partial (d e : Int × String × Slot × Nat) (hd : d ∈ documentedS ∧ d.1 ≠ 41 ∧ d.1 ≠ 42) (he : e ∈ documentedS ∧ e.1 ≠ 41 ∧ e.1 ≠ 42)
    (hne : d.1 ≠ e.1) (s t : Sub) (hs : parseSubstance (methodsRecord [d]) = .ok s) (ht : parseSubstance (methodsRecord [e]) = .ok t) :
    s.methods ≠ t.methods := by
  obtain ⟨s', h1, h2⟩ := C62_substances_partial [d] (by simpa using hd)
  obtain ⟨t', h3, h4⟩ := C62_substances_partial [e] (by simpa using he)
  rw [hs] at h1; rw [ht] at h3
  injection h1 with h1; injection h3 with h3
  subst h1 h3
  rw [h2, h4]
  have all : documentedS.all (fun d => documentedS.all fun e => d.1 = e.1 || withMethod {} d.2.2.1 d.2.2.2 ≠ withMethod {} e.2.2.1 e.2.2.2) = true := by decide +kernel
  have := List.all_eq_true.1 (List.all_eq_true.1 all d hd.1) e he.1
  simpa [hne] using this

/-- The same for reactions. -/
theorem C62_distinct_reactions (d e : Int × String × Slot × Nat) (hd : d ∈ documentedR) (he : e ∈ documentedR) (hne : d.1 ≠ e.1) (s t : Rea)
    (hs : parseReaction (methodsRecord [d]) = .ok s) (ht : parseReaction (methodsRecord [e]) = .ok t) : s.methods ≠ t.methods := by
  obtain ⟨s', h1, h2⟩ := C62_reactions [d] (by simpa using hd)
  obtain ⟨t', h3, h4⟩ := C62_reactions [e] (by simpa using he)
  rw [hs] at h1; rw [ht] at h3
  injection h1 with h1; injection h3 with h3
  subst h1 h3
  rw [h2, h4]
  have all : documentedR.all (fun d => documentedR.all fun e => d.1 = e.1 || withMethod {} d.2.2.1 d.2.2.2 ≠ withMethod {} e.2.2.1 e.2.2.2) = true := by decide +kernel
  have := List.all_eq_true.1 (List.all_eq_true.1 all d hd) e he
  simpa [hne] using this

/-- **C62, violation.** The documented methods `solute_holland_powell98` and `solute_anderson91`, for which the engine has models, are
silently ignored: the record is read without an exception and has no method at all. -/
theorem C62_ignored_refuted : (41, "solute_holland_powell98", Slot.gen, 122) ∈ documentedS ∧ (42, "solute_anderson91", Slot.gen, 123) ∈ documentedS ∧
    (∃ s, parseSubstance (methodsRecord [(41, "solute_holland_powell98", .gen, 122)]) = .ok s ∧ s.methods = {}) ∧
    ∃ s, parseSubstance (methodsRecord [(42, "solute_anderson91", .gen, 123)]) = .ok s ∧ s.methods = {} :=
  ⟨by decide, by decide, ⟨_, rfl, rfl⟩, ⟨_, rfl, rfl⟩⟩

/-! ### C63 -/

/-- An entry with a value and no unit. -/
def plain (q : ℚ) : Json := .obj [("values", .arr [.num q])]

/-- The record has the value `v` under the key, as a plain entry, or nothing. -/
def Given (j : Json) (key : String) (v : Option ℚ) : Prop := j.get? key = v.map plain

lemma readable_units : (["J/(mol*K)", "g/mol", "J/bar", "1/K", "kbar"].all readable) = true := by decide +kernel

lemma read_given {j : Json} {key unit : String} {v : Option ℚ} (h : Given j key v) (hu : readable unit = true) (hk : key ≠ "m_expansivity") (hk' : key ≠ "m_compressibility") :
    readValueUnit j key unit = .ok (v.map fun q : ℚ => (q : ℝ)) := by
  unfold readValueUnit
  rw [h]
  cases v with
  | none => rfl
  | some q =>
    show (do
      let y ← convert ((q : ℝ) * ((fixUnit key unit).2 : ℝ)) (fixUnit key unit).1 unit
      Except.ok (some y) : J (Option ℝ)) = _
    have : fixUnit key unit = (unit, 1) := by unfold fixUnit; simp [hk, hk']
    rw [this, Rat.cast_one, mul_one, convert_readable hu]; rfl

/-- The steps of a list all keep a part of the state, whatever happens. -/
lemma exec_keeps {σ β : Type} (g : σ → β) {l : List (Step σ)} (h : ∀ f ∈ l, ∀ s t, f s = .ok t → g t = g s) (s : σ) : g (exec l s).1 = g s := by
  induction l generalizing s with
  | nil => rfl
  | cons f l ih =>
    unfold exec
    cases hf : f s with
    | error e => rfl
    | ok t => exact (ih (fun f hf => h f (by simp [hf])) t).trans (h f (by simp) s t hf)

lemma exec_append' {σ : Type} (l m : List (Step σ)) (s : σ) : exec (l ++ m) s = match exec l s with | (t, none) => exec m t | (t, some e) => (t, some e) := by
  induction l generalizing s with
  | nil => rfl
  | cons f l ih =>
    simp only [List.cons_append, exec]
    cases f s with
    | error e => rfl
    | ok t => exact ih t

/-- The four numbers of an element. -/
def numbers (e : Elem) : Option ℝ × Option ℝ × Option ℝ × Option ℝ := (e.entropy, e.heatCapacity, e.molarMass, e.volume)

/-- What reading does with the four numbers of an element record, for all combinations of present and missing ones: each missing one gets
the value read before it. -/
lemma element_numbers (j : Json) (hp : j.get? "properties" = none) (hn : ∀ v, j.get? "name" = some v → ∃ s, v = .str s)
    (hs : ∀ v, j.get? "symbol" = some v → ∃ s, v = .str s) (hnum : ∀ v, j.get? "number" = some v → ∃ q, v = .num q)
    (s c m v : Option ℚ) (h1 : Given j "entropy" s) (h2 : Given j "heat_capacity" c) (h3 : Given j "atomic_mass" m) (h4 : Given j "volume" v)
    (e : Elem) (he : parseElement j = .ok e) :
    let R := fun x : Option ℚ => x.map fun q : ℚ => (q : ℝ)
    numbers e = (R s, (R c).or (R s), (R m).or ((R c).or (R s)), (R v).or ((R m).or ((R c).or (R s)))) := by
  intro R
  have hi : inner j = j := by unfold inner Json.field; rw [hp]; rfl
  have ok3 : ∃ w, exec [fieldStep j "name" Json.getStr fun w x => { w with e := { w.e with name := x } },
      fieldStep j "symbol" Json.getStr fun w x => { w with e := { w.e with symbol := x } },
      fieldStep j "number" Json.getInt fun w x => { w with e := { w.e with number := x } }] ({} : ElemW) = (w, none) ∧ w.val = none := by
    have st : ∀ (k : String) (f : String → ElemW → ElemW), (∀ x w, (f x w).val = w.val) → (∀ v, j.get? k = some v → ∃ s, v = .str s) → ∀ w, ∃ w', fieldStep j k Json.getStr (fun w x => f x w) w = .ok w' ∧ w'.val = w.val := by
      intro k f hf hk w
      unfold fieldStep Json.field
      cases hv : j.get? k with
      | none => exact ⟨w, rfl, rfl⟩
      | some v =>
        obtain ⟨s, rfl⟩ := hk v hv
        exact ⟨f s w, rfl, hf _ _⟩
    obtain ⟨w1, a1, b1⟩ := st "name" (fun x w => { w with e := { w.e with name := x } }) (fun _ _ => rfl) hn {}
    obtain ⟨w2, a2, b2⟩ := st "symbol" (fun x w => { w with e := { w.e with symbol := x } }) (fun _ _ => rfl) hs w1
    have : ∃ w3, fieldStep j "number" Json.getInt (fun w x => { w with e := { w.e with number := x } }) w2 = .ok w3 ∧ w3.val = w2.val := by
      unfold fieldStep Json.field
      cases hv : j.get? "number" with
      | none => exact ⟨w2, rfl, rfl⟩
      | some v =>
        obtain ⟨q, rfl⟩ := hnum v hv
        exact ⟨_, rfl, rfl⟩
    obtain ⟨w3, a3, b3⟩ := this
    refine ⟨w3, ?_, by rw [b3, b2, b1]⟩
    rw [exec_ok a1, exec_ok a2, exec_ok a3]; rfl
  obtain ⟨w, a, b⟩ := ok3
  have vs : ∀ (k unit : String) (set : Elem → Option ℝ → Elem) (x : Option ℚ), readValueUnit j k unit = .ok (R x) → ∀ w : ElemW, valStep j k unit set w = .ok { e := set w.e ((R x).or w.val), val := (R x).or w.val } := by
    intro k unit set x h w
    unfold valStep
    rw [h]
    cases x <;> rfl
  have u := List.all_eq_true.1 readable_units
  have full : ∃ w', (exec (elementSteps j) {}).1 = w' ∧ numbers w'.e = (R s, (R c).or (R s), (R m).or ((R c).or (R s)), (R v).or ((R m).or ((R c).or (R s)))) := by
    refine ⟨_, rfl, ?_⟩
    have split : elementSteps j = [fieldStep j "name" Json.getStr fun w x => { w with e := { w.e with name := x } },
      fieldStep j "symbol" Json.getStr fun w x => { w with e := { w.e with symbol := x } },
      fieldStep j "number" Json.getInt fun w x => { w with e := { w.e with number := x } }] ++ [
      valStep j "entropy" "J/(mol*K)" fun e x => { e with entropy := x },
      valStep j "heat_capacity" "J/(mol*K)" fun e x => { e with heatCapacity := x },
      valStep j "atomic_mass" "g/mol" fun e x => { e with molarMass := x },
      valStep j "volume" "J/bar" fun e x => { e with volume := x },
      classStep j,
      fieldStep j "isotope_mass" Json.getInt fun w x => { w with e := { w.e with isotope := x } }] := rfl
    rw [split, exec_append', a]
    simp only
    rw [exec_ok (vs _ _ _ s (read_given h1 (u _ (by simp)) (by decide) (by decide)) _), exec_ok (vs _ _ _ c (read_given h2 (u _ (by simp)) (by decide) (by decide)) _),
      exec_ok (vs _ _ _ m (read_given h3 (u _ (by simp)) (by decide) (by decide)) _), exec_ok (vs _ _ _ v (read_given h4 (u _ (by simp)) (by decide) (by decide)) _)]
    rw [exec_keeps (fun w : ElemW => numbers w.e)]
    · simp [numbers, b]
    · intro f hf s t ht
      simp only [List.mem_cons, List.not_mem_nil, or_false] at hf
      rcases hf with rfl | rfl
      · unfold classStep at ht
        cases hc : j.get? "class_" with
        | none => rw [hc] at ht; injection ht with ht; rw [ht]
        | some v =>
          simp only [hc] at ht
          by_cases hcond : (!v.isNull && !v.isEmpty && v.isObj) = true
          · rw [if_pos hcond] at ht
            cases hk : v.firstKey with
            | error e => rw [hk] at ht; cases ht
            | ok k =>
              rw [hk] at ht
              cases hn : stoi k with
              | error e => change (stoi k).bind _ = _ at ht; rw [hn] at ht; cases ht
              | ok n => change (stoi k).bind _ = _ at ht; rw [hn] at ht; injection ht with ht; rw [← ht]; rfl
          · rw [if_neg hcond] at ht
            injection ht with ht; rw [← ht]; rfl
      · unfold fieldStep at ht
        cases hc : j.field "isotope_mass" with
        | none => rw [hc] at ht; injection ht with ht; rw [ht]
        | some v =>
          simp only [hc] at ht
          cases hk : v.getInt with
          | error e => rw [hk] at ht; cases ht
          | ok k => rw [hk] at ht; injection ht with ht; rw [← ht]; rfl
  obtain ⟨w', e1, e2⟩ := full
  unfold parseElement at he
  rw [hi] at he
  cases hx : exec (elementSteps j) {} with
  | mk w2 err =>
    rw [hx] at he e1
    simp only at e1
    subst e1
    cases err with
    | none => injection he with he; rw [← he]; exact e2
    | some er =>
      cases er with
      | json => injection he with he; rw [← he]; exact e2
      | other => cases he
      | ub => cases he

/-- **C63 (part).** An element record that has all four numbers (entropy, heat capacity, atomic mass, volume) is read with exactly these
numbers.

Missing from the full statement: records that lack one (`C63_leak_refuted`, `C63_indeterminate_refuted`). -/
theorem C63_complete_partial (j : Json) (hp : j.get? "properties" = none) (hn : ∀ v, j.get? "name" = some v → ∃ s, v = .str s)
    (hs : ∀ v, j.get? "symbol" = some v → ∃ s, v = .str s) (hnum : ∀ v, j.get? "number" = some v → ∃ q, v = .num q)
    (s c m v : ℚ) (h1 : Given j "entropy" (some s)) (h2 : Given j "heat_capacity" (some c)) (h3 : Given j "atomic_mass" (some m)) (h4 : Given j "volume" (some v))
    (e : Elem) (he : parseElement j = .ok e) :
    e.entropy = some (s : ℝ) ∧ e.heatCapacity = some (c : ℝ) ∧ e.molarMass = some (m : ℝ) ∧ e.volume = some (v : ℝ) := by
  have := element_numbers j hp hn hs hnum _ _ _ _ h1 h2 h3 h4 e he
  simp only [numbers, Prod.mk.injEq, Option.map_some, Option.some_or] at this
  exact this

/-- A complete record. -/
example : ∃ j, Given j "entropy" (some 51) ∧ Given j "heat_capacity" (some 28) ∧ Given j "atomic_mass" (some 23) ∧ Given j "volume" (some 2) ∧
    j.get? "properties" = none ∧ j.get? "symbol" = some (.str "Na") :=
  ⟨.obj [("symbol", .str "Na"), ("entropy", plain 51), ("heat_capacity", plain 28), ("atomic_mass", plain 23), ("volume", plain 2)], rfl, rfl, rfl, rfl, rfl, rfl⟩

/-- An element record as in the shipped databases: entropy and atomic mass, no heat capacity, no volume. -/
def shippedElement (s m : ℚ) : Json := .obj [("symbol", .str "Na"), ("entropy", plain s), ("atomic_mass", plain m)]

lemma shipped_numbers (s m : ℚ) : ∃ e, parseElement (shippedElement s m) = .ok e ∧ numbers e = (some (s : ℝ), some (s : ℝ), some (m : ℝ), some (m : ℝ)) := by
  have ex : ∃ e, parseElement (shippedElement s m) = .ok e := by
    have u := List.all_eq_true.1 readable_units
    have h1 : readValueUnit (shippedElement s m) "entropy" "J/(mol*K)" = .ok (some (s : ℝ)) := read_given (v := some s) rfl (u _ (by simp)) (by decide) (by decide)
    have h3 : readValueUnit (shippedElement s m) "atomic_mass" "g/mol" = .ok (some (m : ℝ)) := read_given (v := some m) rfl (u _ (by simp)) (by decide) (by decide)
    have : ∃ w, exec (elementSteps (shippedElement s m)) {} = (w, none) := by
      refine ⟨?w, ?h⟩
      case h =>
        unfold elementSteps
        refine Eq.trans (exec_ok (by rfl)) (Eq.trans (exec_ok (by rfl)) (Eq.trans (exec_ok (by rfl)) ?_))
        refine Eq.trans (exec_ok (by unfold valStep; rw [h1]; rfl)) (Eq.trans (exec_ok (by rfl)) ?_)
        refine Eq.trans (exec_ok (by unfold valStep; rw [h3]; rfl)) ?_
        rfl
    obtain ⟨w, hw⟩ := this
    refine ⟨w.e, ?_⟩
    unfold parseElement
    show (caught (exec (elementSteps (shippedElement s m)) {})).bind _ = _
    rw [hw]; rfl
  obtain ⟨e, he⟩ := ex
  refine ⟨e, he, ?_⟩
  have := element_numbers (shippedElement s m) rfl (fun v h => by cases h) (fun v h => by injection h with h; exact ⟨"Na", h.symm⟩) (fun v h => by cases h)
    (some s) none (some m) none rfl rfl rfl rfl e he
  rw [this]; rfl

/-- **C63, violation.** One number of a record leaks into another: an element record without heat capacity and volume, as in all shipped
databases, gets its entropy for the heat capacity and its atomic mass for the volume. -/
theorem C63_leak_refuted : ∀ s m : ℚ, ∃ e, (shippedElement s m).get? "heat_capacity" = none ∧ (shippedElement s m).get? "volume" = none ∧
    parseElement (shippedElement s m) = .ok e ∧ e.heatCapacity = some (s : ℝ) ∧ e.volume = some (m : ℝ) := by
  intro s m
  obtain ⟨e, h1, h2⟩ := shipped_numbers s m
  simp only [numbers, Prod.mk.injEq] at h2
  exact ⟨e, rfl, rfl, h1, h2.2.1, h2.2.2.2⟩

/-- **C63, violation.** An element record without entropy gets an indeterminate entropy, and a substance record without molar mass an
indeterminate molar mass, instead of the default 0. -/
theorem C63_indeterminate_refuted :
    (∃ e, parseElement (.obj [("symbol", .str "Na")]) = .ok e ∧ e.entropy = none ∧ ({} : Elem).entropy = some 0) ∧
    ∃ s, parseSubstance (.obj [("symbol", .str "A")]) = .ok s ∧ s.molarMass = none ∧ ({} : Sub).molarMass = some 0 :=
  ⟨⟨_, rfl, rfl, rfl⟩, ⟨_, rfl, rfl, rfl⟩⟩

/-! ### C91 Units of record values -/

/-- The lists of units the values of records are converted to, with the names of the lists. -/
def listUnits : List (String × List String) := [
  ("eos_akinfiev_diamond_coeffs", ["1", "(cm^3)/g", "(cm^3*K^0.5)/g"]),
  ("eos_gas_crit_props", ["K", "bar", "1", "1"]),
  ("eos_hkf_coeffs", ["cal/(mol*bar)", "cal/mol", "(cal*K)/(mol*bar)", "(cal*K)/mol", "cal/(mol*K)", "(cal*K)/mol", "cal/mol"]),
  ("m_heat_capacity_ft_coeffs", ["J/(mol*K)", "J/(mol*K^2)", "(J*K)/mol", "J/(mol*K^0.5)", "J/(mol*K^3)",
    "J/(mol*K^4)", "J/(mol*K^5)", "(J*K^2)/mol", "J/mol", "J/(mol*K^1.5)", "J/(mol*K)"]),
  ("m_phase_trans_props", ["K", "J/(mol*K)", "J/mol", "J/bar", "K/bar"]),
  ("m_landau_phase_trans_props", ["degC", "J/(mol*K)", "J/bar"]),
  ("solute_holland_powell98_coeff", ["kJ/(mol*K^2)"]),
  ("logk_ft_coeffs", ["1", "1/K", "K", "1", "K^2", "1/K^2", "K^0.5"]),
  ("dr_heat_capacity_ft_coeffs", ["J/(mol*K)", "J/(mol*K^2)", "(J*K)/mol", "J/(mol*K^0.5)", "J/(mol*K^3)"]),
  ("dr_volume_fpt_coeffs", ["1/K", "1/K^2", "1/K^3", "1/bar", "1/bar^2"]),
  ("dr_ryzhenko_coeffs", ["1", "1", "1"]),
  ("dr_marshall_franck_coeffs", ["1", "K", "K^2", "K^3", "1", "K", "K^2"]),
  ("dr_dolejs_manning10_coeffs", ["kJ/mol", "J/(mol*K)", "J/(mol*K)", "J/(mol*K^2)", "J/(mol*K)"])]

lemma listUnits_readable : (listUnits.all fun p => p.2.all readable) = true := by decide +kernel

lemma convertFrom_same {us : List String} (hu : ∀ u ∈ us, readable u = true) (i : Nat) (xs : List ℝ) : convertFrom us us i xs = .ok xs := by
  have one : readable "1" = true := by decide +kernel
  have hp : ∀ i, ∃ u, unitPair us us i = (u, u) ∧ readable u = true := by
    intro i
    have hmem : us.getD i "" = "" ∨ readable (us.getD i "") = true := by
      rw [List.getD_eq_getElem?_getD]
      cases hi : us[i]? with
      | none => left; rfl
      | some b => right; exact hu b (List.mem_of_getElem? hi)
    unfold unitPair
    generalize us.getD i "" = a at hmem
    by_cases h : a = ""
    · exact ⟨"1", by simp [h], one⟩
    · exact ⟨a, by simp [h], hmem.resolve_left h⟩
  induction xs generalizing i with
  | nil => rfl
  | cons x xs ih =>
    obtain ⟨u, h1, h2⟩ := hp i
    unfold convertFrom
    rw [h1, convert_readable h2, ih (i + 1)]
    rfl

/-- An entry with values and no units. -/
def plainList (qs : List ℚ) : Json := .obj [("values", .arr (qs.map .num))]

lemma getDoubles_num (qs : List ℚ) : Json.getDoubles (qs.map .num) = .ok (qs.map fun q : ℚ => (q : ℝ)) := by
  unfold Json.getDoubles
  induction qs with
  | nil => rfl
  | cons q qs ih =>
    rw [List.map_cons, List.mapM_cons, ih]; rfl

/-- **C91 (default units).** For each list of parameters of a record: values without units are read unchanged, however many there are; all
units the program converts to can be read by its unit parser. -/
theorem C91_default_units (p : String × List String) (hp : p ∈ listUnits) (j : Json) (qs : List ℚ) (h : j.get? p.1 = some (plainList qs)) :
    readValuesUnits j p.1 p.2 = .ok (some (qs.map fun q : ℚ => (q : ℝ))) := by
  have hu : ∀ u ∈ p.2, readable u = true := fun u hu => List.all_eq_true.1 (List.all_eq_true.1 listUnits_readable p hp) u hu
  unfold readValuesUnits
  rw [h]
  show (do
    let xs ← Json.getDoubles (qs.map .num)
    let ys ← convertFrom p.2 p.2 0 xs
    Except.ok (some ys) : J (Option (List ℝ))) = _
  rw [getDoubles_num]
  show (do
    let ys ← convertFrom p.2 p.2 0 (qs.map fun q : ℚ => (q : ℝ))
    Except.ok (some ys) : J (Option (List ℝ))) = _
  rw [convertFrom_same hu]; rfl

example : (("eos_hkf_coeffs", ["cal/(mol*bar)", "cal/mol", "(cal*K)/(mol*bar)", "(cal*K)/mol", "cal/(mol*K)", "(cal*K)/mol", "cal/mol"]) : String × List String) ∈ listUnits ∧
    (Json.obj [("eos_hkf_coeffs", plainList [1, 2, 3, 4, 5, 6, 7])]).get? "eos_hkf_coeffs" = some (plainList [1, 2, 3, 4, 5, 6, 7]) := ⟨by simp [listUnits], rfl⟩

/-- An entry with units and values. -/
def unitList (us : List String) (qs : List ℚ) : Json := .obj [("units", .arr (us.map .str)), ("values", .arr (qs.map .num))]

lemma getStrs_str (us : List String) : Json.getStrs (us.map .str) = .ok us := by
  unfold Json.getStrs
  induction us with
  | nil => rfl
  | cons q qs ih => rw [List.map_cons, List.mapM_cons, ih]; rfl

/-- The unit of value `n` of a list: the one the record states, if it states one that is not empty; otherwise that of the program. -/
def statedUnit (us ts : List String) (n : Nat) : String :=
  match us[n]? with
  | some u => if u = "" then (ts[n]?).getD "1" else u
  | none => (ts[n]?).getD "1"

lemma convertFrom_each {us ts : List String} (ht : ∀ u ∈ ts, u ≠ "") (qs ys : List ℝ) (i : Nat) (h2 : i + qs.length ≤ ts.length) (hl : ys.length = qs.length)
    (h : ∀ (n : Nat) (x y : ℝ) (t : String), qs[n]? = some x → ys[n]? = some y → ts[i + n]? = some t → Units.convert x (statedUnit us ts (i + n)).toList t.toList = .ok y) :
    convertFrom us ts i qs = .ok ys := by
  induction qs generalizing i ys with
  | nil => cases ys with
    | nil => rfl
    | cons y ys => simp at hl
  | cons x qs ih =>
    cases ys with
    | nil => simp at hl
    | cons y ys =>
      simp only [List.length_cons] at h2 hl
      have hi' : i < ts.length := by omega
      have e2 : ts.getD i "" = ts[i] := by rw [List.getD_eq_getElem?_getD, List.getElem?_eq_getElem hi']; rfl
      have n2 := ht _ (List.getElem_mem hi')
      have hp : unitPair us ts i = (statedUnit us ts i, ts[i]) := by
        unfold unitPair statedUnit
        rw [e2, List.getD_eq_getElem?_getD, List.getElem?_eq_getElem hi']
        cases us[i]? with
        | none => simp [n2]
        | some u => by_cases hu : u = "" <;> simp [n2, hu]
      unfold convertFrom
      rw [hp]
      have hc := h 0 x y ts[i] rfl rfl (by simp [hi'])
      have hc' : convert x (statedUnit us ts i) ts[i] = .ok y := by unfold convert; rw [add_zero] at hc; rw [hc]; rfl
      rw [hc']
      show (convertFrom us ts (i + 1) qs).bind _ = _
      rw [ih ys (i + 1) (by omega) (by omega) (fun n x y t a b d => by
        have e : i + 1 + n = i + (n + 1) := by omega
        rw [e] at d ⊢
        exact h (n + 1) x y t (by simpa using a) (by simpa using b) d)]
      rfl

lemma listUnits_nonempty : (listUnits.all fun p => p.2.all fun u => u ≠ "") = true := by decide +kernel

/-- **C91 (stated units, part).** For each list of parameters of a record, each value is converted from the unit the record states for it, or
that of the program if it states none, to that of the program.

Missing from the full statement: HKF coefficients whose third unit is `(cal*K)/mol` (`C91_hkf_units_refuted`). -/
theorem C91_stated_units_partial (p : String × List String) (hp : p ∈ listUnits) (j : Json) (us : List String) (qs : List ℚ) (ys : List ℝ)
    (h : j.get? p.1 = some (unitList us qs)) (hfix : p.1 ≠ "eos_hkf_coeffs" ∨ us[2]? ≠ some "(cal*K)/mol")
    (h2 : qs.length ≤ p.2.length) (hl : ys.length = qs.length)
    (hy : ∀ (n : Nat) (x : ℚ) (y : ℝ) (t : String), qs[n]? = some x → ys[n]? = some y → p.2[n]? = some t → Units.convert (x : ℝ) (statedUnit us p.2 n).toList t.toList = .ok y) :
    readValuesUnits j p.1 p.2 = .ok (some ys) := by
  have ht : ∀ u ∈ p.2, u ≠ "" := fun u hu => by simpa using List.all_eq_true.1 (List.all_eq_true.1 listUnits_nonempty p hp) u hu
  have hcond : ¬ (p.1 = "eos_hkf_coeffs" ∧ 3 ≤ us.length ∧ us.getD 2 "" = "(cal*K)/mol") := by
    rintro ⟨a, b, c⟩
    rcases hfix with f | f
    · exact f a
    · apply f
      rw [List.getD_eq_getElem?_getD, List.getElem?_eq_getElem (by omega : 2 < us.length)] at c
      rw [List.getElem?_eq_getElem (by omega : 2 < us.length)]
      exact congrArg some c
  have hus : unitsOf (unitList us qs) p.1 p.2 = .ok us := by
    show (Json.getStrs (us.map .str)).bind _ = _
    rw [getStrs_str]
    show Except.ok (if _ then _ else _) = _
    rw [if_neg hcond]
  unfold readValuesUnits
  rw [h]
  show (unitsOf (unitList us qs) p.1 p.2).bind _ = _
  rw [hus]
  show (Json.getDoubles (qs.map .num)).bind _ = _
  rw [getDoubles_num]
  show (convertFrom us p.2 0 (qs.map fun q : ℚ => (q : ℝ))).bind _ = _
  rw [convertFrom_each ht _ ys 0 (by simpa using h2) (by simpa using hl)]
  · rfl
  · intro n x y t a b d
    rw [List.getElem?_map] at a
    obtain ⟨q, hq, rfl⟩ := Option.map_eq_some_iff.1 a
    rw [zero_add] at d ⊢
    exact hy n q y t hq b d

open Units in
/-- One calorie is 4.184 joule, per whatever. -/
lemma joule_to_cal {a b : String} {la lb : List (Sym × Int)} {da db : Dims} {rest : List (Sym × Int)} (ha : parseUnit a.toList = .ok la) (hb : parseUnit b.toList = .ok lb)
    (hda : dimList la = .ok da) (hdb : dimList lb = .ok db) (hs : sameDim da db = true) (ht : isTemp a.toList = false)
    (ea : la = (['J'], 1) :: rest) (eb : lb = (['c', 'a', 'l'], 1) :: rest) (x : ℝ) :
    Units.convert x a.toList b.toList = .ok (x / 4.184) := by
  rw [convert_of (by simp [ht]) ha hb hda hdb hs]
  have f1 := fval_isFactor.derived ("cal".toList, [⟨523, 125, ['J'], 1, 1⟩]) (mem_of_lookup (by decide +kernel)) (by decide)
  simp only [List.map_cons, List.map_nil, List.prod_cons, List.prod_nil] at f1
  have ka := known_of_dimList hda
  have kb := known_of_dimList hdb
  have pr : 0 < (rest.map (fun e => fval e.1 ^ (e.2 : ℝ))).prod := factorProd_pos rest fun e he => ka e (by rw [ea]; simp [he])
  have pj : 0 < fval ['J'] := by
    have := factorProd_pos [(['J'], 1)] (fun e he => ka e (by rw [ea]; simp at he; simp [he]))
    simpa using this
  have f2 : fval ['c', 'a', 'l'] = 4.184 * fval ['J'] := by
    have : ("cal".toList) = ['c', 'a', 'l'] := by decide
    rw [← this, f1]; norm_num
  rw [ea, eb]
  simp only [List.map_cons, List.prod_cons, f2]
  generalize (rest.map (fun e => fval e.1 ^ (e.2 : ℝ))).prod = P at pr ⊢
  have : P ≠ 0 := pr.ne'
  have := pj.ne'
  norm_num
  field_simp

/-- HKF coefficients in joule, the third with the unit the program takes for a mistake. -/
def jouleRecord : Json := .obj [("eos_hkf_coeffs", unitList ["J/(mol*bar)", "J/mol", "(cal*K)/mol", "(J*K)/mol", "J/(mol*K)", "(J*K)/mol", "J/mol"] [523 / 125, 0, 0, 0, 0, 0, 0])]

/-- **C91, violation.** If the third unit of HKF coefficients is `(cal*K)/mol`, the units of all of them are disregarded: a first coefficient
of 4.184 J/(mol bar), which is 1 cal/(mol bar), is read as 4.184 cal/(mol bar). -/
theorem C91_hkf_units_refuted : Units.convert (4.184 : ℝ) "J/(mol*bar)".toList "cal/(mol*bar)".toList = .ok 1 ∧
    readValuesUnits jouleRecord "eos_hkf_coeffs" ["cal/(mol*bar)", "cal/mol", "(cal*K)/(mol*bar)", "(cal*K)/mol", "cal/(mol*K)", "(cal*K)/mol", "cal/mol"] =
      .ok (some [4.184, 0, 0, 0, 0, 0, 0]) := by
  constructor
  · rw [joule_to_cal (la := [(['J'], 1), (['m', 'o', 'l'], -1), (['b', 'a', 'r'], -1)]) (lb := [(['c', 'a', 'l'], 1), (['m', 'o', 'l'], -1), (['b', 'a', 'r'], -1)])
      (by decide +kernel) (by decide +kernel) rfl rfl (by decide +kernel) (by decide) rfl rfl]
    norm_num
  · unfold readValuesUnits
    show (do
      let xs ← Json.getDoubles ([523 / 125, 0, 0, 0, 0, 0, 0].map .num)
      let ys ← convertFrom ["cal/(mol*bar)", "cal/mol", "(cal*K)/(mol*bar)", "(cal*K)/mol", "cal/(mol*K)", "(cal*K)/mol", "cal/mol"]
        ["cal/(mol*bar)", "cal/mol", "(cal*K)/(mol*bar)", "(cal*K)/mol", "cal/(mol*K)", "(cal*K)/mol", "cal/mol"] 0 xs
      Except.ok (some ys) : J (Option (List ℝ))) = _
    rw [getDoubles_num]
    show (do
      let ys ← convertFrom ["cal/(mol*bar)", "cal/mol", "(cal*K)/(mol*bar)", "(cal*K)/mol", "cal/(mol*K)", "(cal*K)/mol", "cal/mol"]
        ["cal/(mol*bar)", "cal/mol", "(cal*K)/(mol*bar)", "(cal*K)/mol", "cal/(mol*K)", "(cal*K)/mol", "cal/mol"] 0 ([523 / 125, 0, 0, 0, 0, 0, 0].map fun q : ℚ => (q : ℝ))
      Except.ok (some ys) : J (Option (List ℝ))) = _
    rw [convertFrom_same (fun u hu => List.all_eq_true.1 (List.all_eq_true.1 listUnits_readable
      ("eos_hkf_coeffs", ["cal/(mol*bar)", "cal/mol", "(cal*K)/(mol*bar)", "(cal*K)/mol", "cal/(mol*K)", "(cal*K)/mol", "cal/mol"]) (by simp [listUnits])) u hu)]
    show Except.ok (some _) = _
    norm_num

/-- The same coefficient in joule with the right third unit is converted, and one without unit is taken as it is. -/
example : ∃ ys, ("eos_hkf_coeffs" ≠ "eos_hkf_coeffs" ∨ (["J/(mol*bar)"] : List String)[2]? ≠ some "(cal*K)/mol") ∧ ys = [(1 : ℝ), 7] ∧
    ∀ (n : Nat) (x : ℚ) (y : ℝ) (t : String), [(523 / 125 : ℚ), 7][n]? = some x → ys[n]? = some y → ["cal/(mol*bar)", "cal/mol"][n]? = some t →
      Units.convert (x : ℝ) (statedUnit ["J/(mol*bar)"] ["cal/(mol*bar)", "cal/mol"] n).toList t.toList = .ok y := by
  refine ⟨[1, 7], .inr (by decide), rfl, ?_⟩
  intro n x y t h1 h2 h4
  rcases n with _ | _ | n
  · simp only [List.getElem?_cons_zero, Option.some.injEq] at h1 h2 h4
    subst h1 h2 h4
    refine Eq.trans ?_ C91_hkf_units_refuted.1
    show Units.convert _ "J/(mol*bar)".toList _ = _
    norm_num
  · simp only [zero_add, List.getElem?_cons_succ, List.getElem?_cons_zero, Option.some.injEq] at h1 h2 h4
    subst h1 h2 h4
    have := convert_readable (List.all_eq_true.1 (List.all_eq_true.1 listUnits_readable
      ("eos_hkf_coeffs", ["cal/(mol*bar)", "cal/mol", "(cal*K)/(mol*bar)", "(cal*K)/mol", "cal/(mol*K)", "(cal*K)/mol", "cal/mol"]) (by simp [listUnits])) "cal/mol" (by simp)) 7
    unfold convert at this
    show Units.convert ((7 : ℚ) : ℝ) "cal/mol".toList "cal/mol".toList = _
    have e7 : ((7 : ℚ) : ℝ) = 7 := by norm_num
    rw [e7]
    cases h : Units.convert (7 : ℝ) "cal/mol".toList "cal/mol".toList with
    | ok y => rw [h] at this; injection this with this; rw [this]
    | throw => rw [h] at this; cases this
    | ub => rw [h] at this; cases this
  · simp at h1

end ThermoFun.Js
