import Verif.Model.Bounds
import Verif.Props.ParseFaithful

/-!
# C64: bounds violations are reported and nothing else changes
-/

namespace ThermoFun.Bounds

/-- Specification: `T` (K) and `P` (Pa) lie within the limits, the limits included. -/
def Within (l : Limits) (T P : ℝ) : Prop := l.lowerT ≤ T ∧ T ≤ l.upperT ∧ l.lowerP ≤ P ∧ P ≤ l.upperP

/-- The properties of a substance as a list. -/
def TPSM.all (t : TPSM) : List MS := [t.G, t.A, t.U, t.H, t.S, t.V, t.Cp, t.Cv]

/-- The properties of a reaction as a list. -/
def TPRM.all (t : TPRM) : List MS := [t.lnK, t.logK, t.G, t.A, t.U, t.H, t.S, t.V, t.Cp, t.Cv]

/-- Specification of a report: values, derivatives, errors and status are the same; a computed property has the message appended, the
others keep theirs. -/
def Reported (m : String) (x y : MS) : Prop := y.ts = x.ts ∧ y.msg = if x.ts.sta = .calculated then x.msg ++ m ++ "; " else x.msg

/-- The message names the model and the limits. -/
def message (fmt : ℝ → String) (model : String) (l : Limits) : String :=
  model ++ ": out of T(" ++ fmt l.lowerT ++ "-" ++ fmt l.upperT ++ " K) and P(" ++ fmt l.lowerP ++ "-" ++ fmt l.upperP ++ " Pa) bounds"

lemma reported_add (m : String) (x : MS) : Reported m x (addMessage .calculated m x) := by
  unfold Reported addMessage
  by_cases h : x.ts.sta = .calculated
  · rw [if_pos h, if_pos h]; exact ⟨rfl, (String.append_assoc ..).symm⟩
  · rw [if_neg h, if_neg h]; exact ⟨rfl, rfl⟩

lemma not_within {l : Limits} {T P : ℝ} : (l.upperP < P ∨ l.upperT < T ∨ l.lowerP > P ∨ l.lowerT > T) ↔ ¬ Within l T P := by
  unfold Within
  constructor
  · rintro h ⟨a, b, c, d⟩
    rcases h with h | h | h | h <;> linarith
  · intro h
    by_contra hc
    push Not at hc
    exact h ⟨hc.2.2.2, hc.2.1, hc.2.2.1, hc.1⟩

/-- **C64 (substances, part).** Within the limits of the substance nothing changes; outside every computed property gets a message that names
the model and the limits, and no value, derivative, error or status changes.

Missing from the full statement: the limits of pressure of a record are not read (`C64_records_refuted`), the reaktoro HKF model compares
other units (`C64_hkf_units_refuted`), and the equilibrium constant of reactions gets no message (`C64_reactions_refuted`). -/
theorem C64_substances_partial (fmt : ℝ → String) (model : String) (l : Limits) (TK Pbar : ℝ) (tps : TPSM) :
    (Within l TK (Pbar * 1e5) → modelCheck fmt model l TK Pbar tps = tps) ∧
    (¬ Within l TK (Pbar * 1e5) → List.Forall₂ (Reported (message fmt model l)) tps.all (modelCheck fmt model l TK Pbar tps).all) := by
  unfold modelCheck checkBounds
  constructor
  · intro h
    rw [if_neg (fun e => not_within.1 e h)]
  · intro h
    rw [if_pos (not_within.2 h)]
    refine .cons ?_ (.cons ?_ (.cons ?_ (.cons ?_ (.cons ?_ (.cons ?_ (.cons ?_ (.cons ?_ .nil)))))))
    all_goals exact reported_add _ _

/-- Both cases occur. -/
example : Within ⟨273, 0, 500, 1e9⟩ 298 (1 * 1e5) ∧ ¬ Within ⟨273, 0, 500, 1e9⟩ 600 (1 * 1e5) := by
  unfold Within
  norm_num

/-! ### Limits of records -/

open Js in
/-- The limits of pressure of a substance. -/
def pressures (s : Sub) : ℝ × ℝ := (s.lowerP, s.upperP)

open Js in
lemma fieldStep_keeps {σ α β : Type} (g : σ → β) {j : Json} {k : String} {f : Json → J α} {set : σ → α → σ} (h : ∀ s x, g (set s x) = g s) :
    ∀ s t, fieldStep j k f set s = .ok t → g t = g s := by
  intro s t ht
  unfold fieldStep at ht
  cases hc : j.field k with
  | none => simp only [hc] at ht; injection ht with ht; rw [ht]
  | some v =>
    simp only [hc] at ht
    cases hk : f v with
    | error e => rw [hk] at ht; cases ht
    | ok x => rw [hk] at ht; injection ht with ht; rw [← ht]; exact h s x

open Js in
lemma codeStep_keeps {σ β : Type} (g : σ → β) {j : Json} {k : String} {set : σ → Int → σ} (h : ∀ s x, g (set s x) = g s) :
    ∀ s t, codeStep j k set s = .ok t → g t = g s := by
  intro s t ht
  unfold codeStep at ht
  cases hc : j.field k with
  | none => simp only [hc] at ht; injection ht with ht; rw [ht]
  | some v =>
    simp only [hc] at ht
    by_cases he : v.isEmpty = true
    · rw [if_pos he] at ht; injection ht with ht; rw [ht]
    · rw [if_neg he] at ht
      cases hk : v.firstKey with
      | error e => rw [hk] at ht; cases ht
      | ok x =>
        rw [hk] at ht
        cases hn : stoi x with
        | error e => change (stoi x).bind _ = _ at ht; rw [hn] at ht; cases ht
        | ok n => change (stoi x).bind _ = _ at ht; rw [hn] at ht; injection ht with ht; rw [← ht]; exact h s n

open Js in
lemma bind_keeps {σ α β : Type} (g : σ → β) {r : J α} {set : σ → α → σ} (h : ∀ s x, g (set s x) = g s) : ∀ s t, (r.bind fun x => Except.ok (set s x)) = Except.ok (ε := Err) t → g t = g s := by
  intro s t ht
  cases hk : r with
  | error e => rw [hk] at ht; cases ht
  | ok x => rw [hk] at ht; injection ht with ht; rw [← ht]; exact h s x

open Js in
lemma methodSteps_keep (v : Json) : ∀ f ∈ substMethodSteps v, ∀ w t : SubW, f w = .ok t → pressures t.s = pressures w.s := by
  intro f hf w t ht
  simp only [substMethodSteps, List.mem_cons, List.not_mem_nil, or_false] at hf
  rcases hf with rfl | rfl
  · cases hm : methodOf v with
    | error e => simp only [hm] at ht; cases ht
    | ok o =>
      cases o with
      | none => simp only [hm] at ht; injection ht with ht; rw [ht]
      | some p =>
        simp only [hm] at ht
        exact bind_keeps (fun w : SubW => pressures w.s) (set := fun w ms => { w with s := { w.s with methods := ms } }) (fun _ _ => rfl) w t ht
  · cases hm : methodOf v with
    | error e => simp only [hm] at ht; cases ht
    | ok o =>
      cases o with
      | none => simp only [hm] at ht; injection ht with ht; rw [ht]
      | some p =>
        simp only [hm] at ht
        exact bind_keeps (fun w : SubW => pressures w.s) (set := fun w ps => { w with ps := ps }) (fun _ _ => rfl) w t ht

open Js in
/-- No step of reading a substance sets a limit of pressure. -/
lemma substance_noP (j : Json) (s : Sub) (h : parseSubstance j = .ok s) : pressures s = (0, 0) := by
  have key : pressures (exec (substanceSteps (inner j)) {}).1.s = (0, 0) := by
    refine exec_keeps (fun w : SubW => pressures w.s) ?_ {}
    intro f hf
    unfold substanceSteps at hf
    simp only [List.mem_append, List.mem_cons, List.not_mem_nil, or_false] at hf
    have ms : f ∈ substMethodsSteps (inner j) → ∀ w t : SubW, f w = .ok t → pressures t.s = pressures w.s := by
      intro hf
      unfold substMethodsSteps at hf
      cases hm : (inner j).field "TPMethods" with
      | none => rw [hm] at hf; cases hf
      | some ms =>
        rw [hm] at hf
        simp only [List.mem_append, List.mem_cons, List.not_mem_nil, or_false, List.mem_flatMap] at hf
        rcases hf with ⟨v, -, hv⟩ | rfl | rfl | rfl
        · exact methodSteps_keep v f hv
        · exact bind_keeps (fun w : SubW => pressures w.s) (set := fun w r => { w with ps := { w.ps with expansivity := match r with | some x => some x | none => w.ps.expansivity } }) fun _ _ => rfl
        · exact bind_keeps (fun w : SubW => pressures w.s) (set := fun w r => { w with ps := { w.ps with compressibility := match r with | some x => some x | none => w.ps.compressibility } }) fun _ _ => rfl
        · intro w t ht; injection ht with ht; rw [← ht]; rfl
    rcases hf with ((rfl | rfl | rfl | rfl | rfl | rfl | rfl | rfl | rfl | rfl | rfl | rfl) | hf) | rfl | rfl
    · exact fieldStep_keeps (fun w : SubW => pressures w.s) fun _ _ => rfl
    · exact fieldStep_keeps (fun w : SubW => pressures w.s) fun _ _ => rfl
    · exact fieldStep_keeps (fun w : SubW => pressures w.s) fun _ _ => rfl
    · exact fieldStep_keeps (fun w : SubW => pressures w.s) fun _ _ => rfl
    · exact fieldStep_keeps (fun w : SubW => pressures w.s) fun _ _ => rfl
    · exact bind_keeps (fun w : SubW => pressures w.s) (set := fun w r => { w with s := { w.s with molarMass := r } }) fun _ _ => rfl
    · exact codeStep_keeps (fun w : SubW => pressures w.s) fun _ _ => rfl
    · exact codeStep_keeps (fun w : SubW => pressures w.s) fun _ _ => rfl
    · exact fieldStep_keeps (fun w : SubW => pressures w.s) fun _ _ => rfl
    · exact fieldStep_keeps (fun w : SubW => pressures w.s) fun _ _ => rfl
    · exact fieldStep_keeps (fun w : SubW => pressures w.s) fun _ _ => rfl
    · exact fieldStep_keeps (fun w : SubW => pressures w.s) fun _ _ => rfl
    · exact ms hf
    · intro w t ht
      injection ht with ht
      rw [← ht]
      split <;> rfl
    · exact bind_keeps (fun w : SubW => pressures w.s) (set := fun w r => { w with s := { w.s with ref := r } }) fun _ _ => rfl
  unfold parseSubstance at h
  change (caught (exec (substanceSteps (inner j)) {})).bind _ = _ at h
  cases hx : exec (substanceSteps (inner j)) {} with
  | mk w2 err =>
    rw [hx] at h key
    cases err with
    | none => injection h with h; rw [← h]; exact key
    | some er =>
      cases er with
      | json => injection h with h; rw [← h]; exact key
      | other => cases h
      | ub => cases h

open Js in
/-- The limits of a substance. -/
def limitsOfSub (s : Sub) : Limits := ⟨s.lowerT, s.lowerP, s.upperT, s.upperP⟩

open Js in
/-- **C64, violation.** For a substance read from any record, whatever limits the record states, the message of limits that are exceeded is
attached at every temperature and every positive pressure: limits of pressure are not read and stay 0. -/
theorem C64_records_refuted (j : Json) (s : Sub) (h : parseSubstance j = .ok s) (fmt : ℝ → String) (model : String) (TK Pbar : ℝ) (hP : 0 < Pbar) (tps : TPSM) :
    List.Forall₂ (Reported (message fmt model (limitsOfSub s))) tps.all (modelCheck fmt model (limitsOfSub s) TK Pbar tps).all := by
  have h0 := substance_noP j s h
  simp only [pressures, Prod.mk.injEq] at h0
  refine (C64_substances_partial fmt model (limitsOfSub s) TK Pbar tps).2 ?_
  rintro ⟨-, -, -, h4⟩
  have h4 : Pbar * 1e5 ≤ s.upperP := h4
  rw [h0.2] at h4
  have : (0 : ℝ) < Pbar * 1e5 := by positivity
  linarith

open Js in
/-- A record that states limits which 298 K and 1 bar are within, and what is read of them. -/
example : ∃ (j : Json) (s : Sub), j.get? "limitsTP" = some (.obj [("lowerP", .num 0), ("lowerT", .num 273), ("upperP", .num 1000000000), ("upperT", .num 500)]) ∧
    parseSubstance j = .ok s ∧ Within ⟨s.lowerT, 0, s.upperT, 1000000000⟩ 298 (1 * 1e5) := by
  refine ⟨.obj [("limitsTP", .obj [("lowerP", .num 0), ("lowerT", .num 273), ("upperP", .num 1000000000), ("upperT", .num 500)])], _, rfl, rfl, ?_⟩
  show Within ⟨((273 : ℚ) : ℝ), 0, ((500 : ℚ) : ℝ), 1000000000⟩ 298 (1 * 1e5)
  unfold Within
  norm_num

/-! ### Units -/

/-- **C64, violation.** The reaktoro HKF model compares degrees Celsius and bar with limits in K and Pa: it reports within the limits, and
is silent outside. -/
theorem C64_hkf_units_refuted :
    (∃ (l : Limits) (TK Pbar : ℝ), Within l TK (Pbar * 1e5) ∧
      ∀ fmt tps, List.Forall₂ (Reported (message fmt "HKF model" l)) tps.all (hkfReaktoroCheck fmt l TK Pbar tps).all) ∧
    ∃ (l : Limits) (TK Pbar : ℝ), ¬ Within l TK (Pbar * 1e5) ∧ ∀ fmt tps, hkfReaktoroCheck fmt l TK Pbar tps = tps := by
  constructor
  · refine ⟨⟨273.15, 0, 623.15, 1e8⟩, 298.15, 1, by unfold Within; norm_num, fun fmt tps => ?_⟩
    unfold hkfReaktoroCheck checkBounds
    rw [if_pos (not_within.2 (by unfold Within; norm_num))]
    refine .cons ?_ (.cons ?_ (.cons ?_ (.cons ?_ (.cons ?_ (.cons ?_ (.cons ?_ (.cons ?_ .nil)))))))
    all_goals exact reported_add _ _
  · refine ⟨⟨273.15, 0, 623.15, 1e8⟩, 873.15, 1, by unfold Within; norm_num, fun fmt tps => ?_⟩
    unfold hkfReaktoroCheck checkBounds
    rw [if_neg (fun e => not_within.1 e (by unfold Within; norm_num))]

/-! ### Reactions -/

/-- **C64 (reactions, part).** The same for the properties of a reaction other than its equilibrium constant.

Missing from the full statement: `ln K` and `log K` (`C64_reactions_refuted`); and that a model of the engine calls the check: none does. -/
theorem C64_reactions_partial (fmt : ℝ → String) (model : String) (l : Limits) (T P : ℝ) (tpr : TPRM) :
    (Within l T P → checkBoundsR fmt model l T P tpr = tpr) ∧
    (¬ Within l T P → List.Forall₂ (Reported (message fmt model l)) (tpr.all.drop 2) ((checkBoundsR fmt model l T P tpr).all.drop 2)) := by
  unfold checkBoundsR
  constructor
  · intro h
    rw [if_neg (fun e => not_within.1 e h)]
  · intro h
    rw [if_pos (not_within.2 h)]
    refine .cons ?_ (.cons ?_ (.cons ?_ (.cons ?_ (.cons ?_ (.cons ?_ (.cons ?_ (.cons ?_ .nil)))))))
    all_goals exact reported_add _ _

/-- **C64, violation.** Outside the limits of a reaction its computed `log K` and `ln K` get no message. -/
theorem C64_reactions_refuted (fmt : ℝ → String) (model : String) (l : Limits) (T P : ℝ) (tpr : TPRM) (hK : tpr.logK.ts.sta = .calculated) (hl : tpr.lnK.ts.sta = .calculated) :
    ¬ Reported (message fmt model l) tpr.logK (checkBoundsR fmt model l T P tpr).logK ∧ ¬ Reported (message fmt model l) tpr.lnK (checkBoundsR fmt model l T P tpr).lnK := by
  have ne : ∀ (x y : String), x ≠ x ++ y ++ "; " := by
    intro x y h
    have := congrArg String.length h
    simp only [String.length_append] at this
    have two : "; ".length = 2 := by decide
    omega
  have e1 : (checkBoundsR fmt model l T P tpr).logK = tpr.logK := by unfold checkBoundsR; split <;> rfl
  have e2 : (checkBoundsR fmt model l T P tpr).lnK = tpr.lnK := by unfold checkBoundsR; split <;> rfl
  rw [e1, e2]
  unfold Reported
  rw [if_pos hK, if_pos hl]
  exact ⟨fun h => ne _ _ h.2, fun h => ne _ _ h.2⟩

/-- A computed equilibrium constant outside the limits. -/
example : ∃ (l : Limits) (T P : ℝ) (x : MS), ¬ Within l T P ∧ x.ts.sta = .calculated :=
  ⟨⟨273, 0, 500, 1e9⟩, 600, 1e5, ⟨⟨1, 0, 0, 0, .calculated⟩, ""⟩, by unfold Within; norm_num, rfl⟩

end ThermoFun.Bounds
