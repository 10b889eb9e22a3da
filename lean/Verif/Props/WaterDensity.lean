import Verif.Props.WaterState
import Mathlib.Analysis.Calculus.MeanValue

/-!
Properties C75 (molar properties of water), C76 (the density iteration), C77 (the pressure functions) and C78 (the derivatives the density
carries).
-/

set_option linter.unusedSimpArgs false

namespace ThermoFun

/-! ### C75 -/

/-- The energy relations between two states of water at (T, P) and (T', P'), in differences, P in Pa, V in J/bar. -/
structure DiffRel (a b : Molar) (T P T' P' : ℝ) : Prop where
  G : b.G - a.G = (b.H - a.H) - (T' * b.S - T * a.S)
  U : b.U - a.U = (b.H - a.H) - (P' * (b.V / 1e5) - P * (a.V / 1e5))
  A : b.A - a.A = (b.U - a.U) - (T' * b.S - T * a.S)

/-- **C75.**  Wherever the water state is consistent (C39), the molar properties satisfy dG = -S dT + V dP, dH/dT = Cp and dS/dT = Cp/T;
and between any two states G, U and A change as H - T S, H - P V and U - T S do; for all triple point data, in both models. -/
theorem C75_molar (F : ℝ → ℝ → Helm) (D : ℝ → ℝ → ℝ) (wtr : Triple) (Ttr : ℝ) :
    let w := fun t p => waterThermoState t p (D t p) (F t (D t p))
    let m := fun t p => molarWater Ttr t (w t p) wtr
    (∀ T P, WaterConsistent w T P →
      Grad (fun t p => (m t p).G) (-(m T P).S) ((m T P).V / 1e5) T P ∧
      HasDerivAt (fun t => (m t P).H) (m T P).Cp T ∧
      HasDerivAt (fun t => (m t P).S) ((m T P).Cp / T) T) ∧
    ∀ T P T' P', DiffRel (m T P) (m T' P') T P T' P' := by
  intro w m
  refine ⟨fun T P h => ⟨?_, ?_, ?_⟩, fun T P T' P' => ⟨?_, ?_, ?_⟩⟩
  · have hg := ((h.gibbs.const_mul waterMolarMass).sub ((Grad.fstG (x := T) (y := P)).mul_const wtr.Str)).add
      (Grad.const (Ttr * wtr.Str + wtr.Gtr))
    refine (hg.congr ?_ ?_).congr_fun fun t p => ?_
    · simp only [m, molarWater]; ring
    · simp only [m, molarWater, w, waterThermoState]; ring
    · simp only [m, molarWater, w, waterThermoState]; ring
  · refine ((h.enthalpy.const_mul waterMolarMass).add_const wtr.Htr).congr_deriv ?_
    simp only [m, molarWater]; ring
  · refine ((h.entropy.dx.const_mul waterMolarMass).add_const wtr.Str).congr_deriv ?_
    simp only [m, molarWater]; ring
  · simp only [m, molarWater, w, waterThermoState]; ring
  · simp only [m, molarWater, w, waterThermoState]; ring
  · simp only [m, molarWater, w, waterThermoState]; ring

/-- The hypothesis of `C75_molar` at 300 K and 1e5 Pa. -/
example : WaterConsistent (fun t p => waterThermoState t p (p - (t - 277) ^ 2) (sampleHelm t (p - (t - 277) ^ 2))) 300 1e5 := by
  refine C39_partial sampleHelm (fun t p => p - (t - 277) ^ 2) 300 1e5 (by norm_num) (sampleHelm_grad (by norm_num))
    (sampleHelm_solves (by norm_num)) (by norm_num) ?_ ?_ <;> norm_num [waterThermoState, sampleHelm]

/-! ### C76 -/

section
variable (P : TS) (model : TS → HelmD)

/-- The residual the iteration tests: (D² fD - P)/Pc. -/
noncomputable def residual (D : TS) : ℝ := (D.val * D.val * (model D).fD.val - P.val) / 22.064e6

open Classical in
/-- One step of the iteration. -/
noncomputable def newtonStep (D : TS) : TS :=
  let f := (D * D * (model D).fD - P) / waterCriticalPressure
  let df := ((2 : ℝ) * D * (model D).fD + D * D * (model D).fDD) / waterCriticalPressure
  if D.val > f.val / df.val then D - f / df else P / (D * (model D).fD)

/-- The iterate after `n` steps. -/
noncomputable def iterate (D : TS) : ℕ → TS
  | 0 => D
  | n + 1 => newtonStep P model (iterate D n)

lemma iterate_succ (D : TS) (n : ℕ) : iterate P model (newtonStep P model D) n = iterate P model D (n + 1) := by
  induction n with
  | zero => rfl
  | succ n ih => simp only [iterate] at ih ⊢; rw [ih]

lemma loop_eq (n : ℕ) (D : TS) : waterDensityLoop P model (n + 1) D =
    if |residual P model D| < 1.0e-08 then .ok (newtonStep P model D) else waterDensityLoop P model n (newtonStep P model D) := by
  have hr : ((D * D * (model D).fD - P) / waterCriticalPressure).val = residual P model D := by
    simp only [residual, TS.op_val_divR, TS.op_val_sub, TS.op_val_mul, waterCriticalPressure]
  conv_lhs => rw [waterDensityLoop]
  simp only [newtonStep]
  simp only [hr]

end

/-- **C76, what is guaranteed.**  The iteration returns D exactly if some iterate among the first hundred has a residual below 1e-8; the
result is then the step after the first such iterate.  Otherwise it throws. -/
theorem C76_partial (P : TS) (model : TS → HelmD) (guess D : TS) :
    (waterDensity P model guess = .ok D ↔ ∃ n < 100, |residual P model (iterate P model guess n)| < 1e-8 ∧
      (∀ m < n, ¬ |residual P model (iterate P model guess m)| < 1e-8) ∧ D = newtonStep P model (iterate P model guess n)) ∧
    (waterDensity P model guess = .throw ↔ ∀ n < 100, ¬ |residual P model (iterate P model guess n)| < 1e-8) := by
  have key : ∀ N guess, (waterDensityLoop P model N guess = .ok D ↔ ∃ n < N, |residual P model (iterate P model guess n)| < 1e-8 ∧
      (∀ m < n, ¬ |residual P model (iterate P model guess m)| < 1e-8) ∧ D = newtonStep P model (iterate P model guess n)) ∧
    (waterDensityLoop P model N guess = .throw ↔ ∀ n < N, ¬ |residual P model (iterate P model guess n)| < 1e-8) := by
    have e8 : (1.0e-08 : ℝ) = 1e-8 := by norm_num
    intro N
    induction N with
    | zero => intro g; simp [waterDensityLoop]
    | succ N ih =>
      intro g
      rw [loop_eq, e8]
      by_cases h : |residual P model g| < 1e-8
      · rw [if_pos h]
        refine ⟨⟨fun he => ⟨0, by omega, h, by simp, ?_⟩, ?_⟩, ⟨fun he => by simp at he, fun hn => absurd h (hn 0 (by omega))⟩⟩
        · simpa [iterate] using he.symm
        · rintro ⟨n, hn, h1, h2, rfl⟩
          cases n with
          | zero => rfl
          | succ n => exact absurd h (h2 0 (by omega))
      · rw [if_neg h]
        obtain ⟨i1, i2⟩ := ih (newtonStep P model g)
        refine ⟨i1.trans ⟨?_, ?_⟩, i2.trans ⟨?_, ?_⟩⟩
        · rintro ⟨n, hn, h1, h2, rfl⟩
          refine ⟨n + 1, by omega, by rw [← iterate_succ]; exact h1, fun m hm => ?_, by rw [← iterate_succ]⟩
          cases m with
          | zero => exact h
          | succ m => rw [← iterate_succ]; exact h2 m (by omega)
        · rintro ⟨n, hn, h1, h2, rfl⟩
          cases n with
          | zero => exact absurd h1 h
          | succ n =>
            refine ⟨n, by omega, by rw [iterate_succ]; exact h1, fun m hm => ?_, by rw [iterate_succ]⟩
            rw [iterate_succ]; exact h2 (m + 1) (by omega)
        · intro hn n hlt
          cases n with
          | zero => exact h
          | succ n => rw [← iterate_succ]; exact hn n (by omega)
        · intro hn n hlt
          rw [iterate_succ]; exact hn (n + 1) (by omega)
  exact key 100 guess

lemma newtonStep_val (P : TS) (model : TS → HelmD) (D : TS) :
    (newtonStep P model D).val =
      if D.val > (D.val * D.val * (model D).fD.val - P.val) / (2 * D.val * (model D).fD.val + D.val * D.val * (model D).fDD.val) then
        D.val - (D.val * D.val * (model D).fD.val - P.val) / (2 * D.val * (model D).fD.val + D.val * D.val * (model D).fDD.val)
      else P.val / (D.val * (model D).fD.val) := by
  have e : ∀ x y : ℝ, x / waterCriticalPressure / (y / waterCriticalPressure) = x / y := by
    intro x y
    have : waterCriticalPressure ≠ 0 := by norm_num [waterCriticalPressure]
    rcases eq_or_ne y 0 with rfl | hy
    · simp
    · field_simp
  have hv : ∀ (c : Prop) [Decidable c] (x y : TS), (if c then x else y).val = if c then x.val else y.val := by
    intro c _ x y; split <;> rfl
  simp only [newtonStep]
  rw [hv]
  simp only [TS.op_val_divR, TS.op_val_sub, TS.op_val_mul, TS.op_val_div, TS.op_val_add, TS.op_val_mulL, e]

/-- **C76, the error of the result.**  Let the model be given by a smooth p(x) = x² a(x), and let dp/dx vary by at most K per unit of density
between the last tested iterate D and the result.  If the step from D is a Newton step, the pressure at the result deviates from the one
asked for by at most K times the square of the step. -/
theorem C76_error_partial (P : TS) (model : TS → HelmD) (a b : ℝ → ℝ) (hm : ∀ D, (model D).fD.val = a D.val ∧ (model D).fDD.val = b D.val)
    (hab : ∀ x, HasDerivAt a (b x) x) (D : TS) (K : ℝ)
    (h0 : 2 * D.val * a D.val + D.val * D.val * b D.val ≠ 0)
    (hstep : D.val > (D.val * D.val * a D.val - P.val) / (2 * D.val * a D.val + D.val * D.val * b D.val))
    (hK : ∀ x ∈ Set.uIcc D.val (newtonStep P model D).val,
      |(2 * x * a x + x * x * b x) - (2 * D.val * a D.val + D.val * D.val * b D.val)| ≤ K * |x - D.val|) :
    let D' := (newtonStep P model D).val
    |D' * D' * a D' - P.val| ≤ K * (D' - D.val) ^ 2 := by
  intro D'
  have hv : D' = D.val - (D.val * D.val * a D.val - P.val) / (2 * D.val * a D.val + D.val * D.val * b D.val) := by
    simp only [D', newtonStep_val, (hm D).1, (hm D).2]
    rw [if_pos hstep]
  set q := 2 * D.val * a D.val + D.val * D.val * b D.val with hq
  -- the function p(x) - q x, whose derivative is small on the segment
  have hder : ∀ x, HasDerivAt (fun x => x * x * a x - q * x) (2 * x * a x + x * x * b x - q) x := by
    intro x
    have := (((hasDerivAt_id' x).fun_mul (hasDerivAt_id' x)).fun_mul (hab x)).fun_sub ((hasDerivAt_id' x).const_mul q)
    exact this.congr_deriv (by ring)
  have hK0 : 0 ≤ K ∨ D' = D.val := by
    by_cases h : D' = D.val
    · exact Or.inr h
    · left
      have h1 := hK D' Set.right_mem_uIcc
      have h2 : 0 < |D' - D.val| := abs_pos.2 (sub_ne_zero.2 h)
      by_contra hneg
      have := abs_nonneg ((2 * D' * a D' + D' * D' * b D') - q)
      nlinarith
  have hb : ∀ x ∈ Set.uIcc D.val D', ‖2 * x * a x + x * x * b x - q‖ ≤ K * |D' - D.val| := by
    intro x hx
    rcases hK0 with hK0 | hK0
    · refine (hK x hx).trans (mul_le_mul_of_nonneg_left ?_ hK0)
      exact Set.abs_sub_left_of_mem_uIcc hx
    · rw [hK0, Set.uIcc_self, Set.mem_singleton_iff] at hx
      subst hx
      rw [hK0]
      simp [hq]
  have hmv := (convex_uIcc D.val D').norm_image_sub_le_of_norm_hasDerivWithin_le
    (fun x _ => (hder x).hasDerivWithinAt) hb Set.left_mem_uIcc Set.right_mem_uIcc
  have e : D' * D' * a D' - q * D' - (D.val * D.val * a D.val - q * D.val) = D' * D' * a D' - P.val := by
    have : q * (D' - D.val) = -(D.val * D.val * a D.val - P.val) := by
      rw [hv]; field_simp; ring
    linear_combination -this
  rw [e, Real.norm_eq_abs, Real.norm_eq_abs] at hmv
  calc |D' * D' * a D' - P.val| ≤ K * |D' - D.val| * |D' - D.val| := hmv
    _ = K * (D' - D.val) ^ 2 := by rw [mul_assoc, abs_mul_abs_self]; ring

/-- A smooth model whose pressure is 1.1 + 0.2 (x - 1) + 4e6 (x - 1)²: fD = p/x², fDD = p'/x² - 2 p/x³. -/
noncomputable def steepModel (D : TS) : HelmD :=
  let x := D.val
  let p := 1.1 + 0.2 * (x - 1) + 4e6 * (x - 1) ^ 2
  ⟨.ofVal (p / x ^ 2), .ofVal ((0.2 + 8e6 * (x - 1)) / x ^ 2 - 2 * p / x ^ 3)⟩

/-- **C76 does not hold**: the result can be far from a solution.  Here the guess passes the test, the density returned is one step
further, where the pressure is off by a million Pa. -/
theorem C76_refuted : ∃ (P : TS) (model : TS → HelmD) (guess D : TS), waterDensity P model guess = .ok D ∧ 0 < D.val ∧
    ¬ |residual P model D| < 1e-8 ∧ |D.val ^ 2 * (model D).fD.val - P.val| = 1e6 := by
  have hval : (newtonStep (TS.pressure 1) steepModel (TS.ofVal 1)).val = 0.5 := by
    rw [newtonStep_val]
    norm_num [steepModel, TS.ofVal, TS.pressure, TS.mk5]
  refine ⟨TS.pressure 1, steepModel, TS.ofVal 1, newtonStep (TS.pressure 1) steepModel (TS.ofVal 1), ?_, ?_, ?_, ?_⟩
  · refine ((C76_partial _ _ _ _).1).2 ⟨0, by norm_num, ?_, by simp, rfl⟩
    norm_num [residual, iterate, steepModel, TS.ofVal, TS.pressure, TS.mk5, abs_lt]
  · rw [hval]; norm_num
  · simp only [residual, steepModel, hval]
    norm_num [TS.ofVal, TS.pressure, TS.mk5]
  · simp only [steepModel, hval]
    norm_num [TS.ofVal, TS.pressure, TS.mk5]

/-- An instance of `C76_error_partial`: p(x) = x² · x, K = 10 on the segment, a step from 1 to 1 - 0.1/3. -/
example : ∃ (P : TS) (model : TS → HelmD) (D : TS), (∀ D, (model D).fD.val = D.val ∧ (model D).fDD.val = 1) ∧
    2 * D.val * D.val + D.val * D.val * 1 ≠ 0 ∧
    D.val > (D.val * D.val * D.val - P.val) / (2 * D.val * D.val + D.val * D.val * 1) ∧
    ∀ x ∈ Set.uIcc D.val (newtonStep P model D).val, |(2 * x * x + x * x * 1) - (2 * D.val * D.val + D.val * D.val * 1)| ≤ 10 * |x - D.val| := by
  refine ⟨TS.pressure 0.9, fun D => ⟨.ofVal D.val, .ofVal 1⟩, .ofVal 1, fun D => ⟨rfl, rfl⟩, ?_, ?_, ?_⟩
  · norm_num [TS.ofVal, TS.mk5]
  · norm_num [TS.ofVal, TS.mk5, TS.pressure]
  · intro x hx
    rw [newtonStep_val] at hx
    norm_num [TS.ofVal, TS.mk5, TS.pressure] at hx ⊢
    rw [show 2 * x * x + x * x - 3 = 3 * (x + 1) * (x - 1) by ring, abs_mul]
    refine mul_le_mul_of_nonneg_right ?_ (abs_nonneg _)
    rw [abs_le]; constructor <;> nlinarith [hx.1, hx.2]

/-! ### C77 -/

/-- **C77, the part that holds**: `waterPressureHGK` is the pressure of the HGK model. -/
theorem C77_partial (hgk wp : TS → HelmD) (D : TS) : (waterPressureHGK hgk wp D).val = D.val ^ 2 * (hgk D).fD.val := by
  simp only [waterPressureHGK, waterPressure, TS.op_val_mulR, TS.op_val_mul]; ring

/-- Two models with different pressures. -/
example : (waterPressureHGK (fun _ => ⟨.ofVal 1, .ofVal 0⟩) (fun _ => ⟨.ofVal 2, .ofVal 0⟩) (.ofVal 3)).val = 9 := by
  rw [C77_partial]; norm_num [TS.ofVal, TS.mk5]

/-- **C77 does not hold**: `waterPressureWagnerPruss` ignores the Wagner-Pruss model: it returns the pressure of the HGK model whatever
the two models are, so it is wrong wherever they differ. -/
theorem C77_refuted (hgk wp : TS → HelmD) (D : TS) (h : (hgk D).fD.val ≠ (wp D).fD.val) (hD : D.val ≠ 0) :
    (waterPressureWagnerPruss hgk wp D).val ≠ D.val ^ 2 * (wp D).fD.val := by
  have e : (waterPressureWagnerPruss hgk wp D).val = D.val ^ 2 * (hgk D).fD.val := by
    simp only [waterPressureWagnerPruss, waterPressure, TS.op_val_mulR, TS.op_val_mul]; ring
  rw [e]
  intro he
  exact h (mul_left_cancel₀ (pow_ne_zero 2 hD) he)

/-! ### C78 -/

/-- **C78, the part that holds.**  Let the Helmholtz derivatives carry exact derivatives with respect to T and P for the derivatives the
density carries (as the operators of C01 ensure).  If the last tested iterate solves the pressure equation exactly, the density returned has
the same value and carries exactly the temperature and pressure derivatives which the water state reports, whatever derivatives the
iterate carried.  Missing: iterates with a small non-zero residual. -/
theorem C78_partial (P : ℝ) (model : TS → HelmD) (D : TS) (T : ℝ) (wh : Helm) (hv : (model D).fD.val = wh.fD)
    (hvv : (model D).fDD.val = wh.fDD) (ht : (model D).fD.ddt = wh.fTD + wh.fDD * D.ddt) (hp : (model D).fD.ddp = wh.fDD * D.ddp)
    (h0 : 0 < D.val) (hroot : D.val ^ 2 * wh.fD = P) (hpD : (waterThermoState T P D.val wh).pressureD ≠ 0) :
    (newtonStep (TS.pressure P) model D).val = D.val ∧
    (newtonStep (TS.pressure P) model D).ddt = (waterThermoState T P D.val wh).densityT ∧
    (newtonStep (TS.pressure P) model D).ddp = (waterThermoState T P D.val wh).densityP := by
  have hpD' : 2 * D.val * wh.fD + D.val * D.val * wh.fDD ≠ 0 := hpD
  have hc : waterCriticalPressure ≠ 0 := by norm_num [waterCriticalPressure]
  have hf : ((D * D * (model D).fD - TS.pressure P) / waterCriticalPressure).val = 0 := by
    simp only [TS.op_val_divR, TS.op_val_sub, TS.op_val_mul, hv]
    rw [show (TS.pressure P).val = P from rfl, ← hroot]
    ring
  have hcond : D.val > ((D * D * (model D).fD - TS.pressure P) / waterCriticalPressure).val /
      (((2 : ℝ) * D * (model D).fD + D * D * (model D).fDD) / waterCriticalPressure).val := by
    rw [hf, zero_div]; exact h0
  simp only [newtonStep]
  rw [if_pos hcond]
  have ddt_div : ∀ a b : TS, (a / b).ddt = 1.0 / b.val * (1.0 / b.val) * (a.ddt * b.val - a.val * b.ddt) := fun _ _ => rfl
  have ddp_div : ∀ a b : TS, (a / b).ddp = 1.0 / b.val * (1.0 / b.val) * (a.ddp * b.val - a.val * b.ddp) := fun _ _ => rfl
  have ddt_sub : ∀ a b : TS, (a - b).ddt = a.ddt - b.ddt := fun _ _ => rfl
  have ddp_sub : ∀ a b : TS, (a - b).ddp = a.ddp - b.ddp := fun _ _ => rfl
  have ddt_mul : ∀ a b : TS, (a * b).ddt = a.val * b.ddt + a.ddt * b.val := fun _ _ => rfl
  have ddp_mul : ∀ a b : TS, (a * b).ddp = a.val * b.ddp + a.ddp * b.val := fun _ _ => rfl
  have ddt_divR : ∀ (a : TS) (c : ℝ), (a / c).ddt = 1.0 / c * a.ddt := by
    intro a c
    show (TS.mulL (1.0 / c) a).ddt = _
    simp only [TS.mulL]; split <;> rfl
  have ddp_divR : ∀ (a : TS) (c : ℝ), (a / c).ddp = 1.0 / c * a.ddp := by
    intro a c
    show (TS.mulL (1.0 / c) a).ddp = _
    simp only [TS.mulL]; split <;> rfl
  have e1 : (1.0 : ℝ) = 1 := by norm_num
  refine ⟨?_, ?_, ?_⟩
  · rw [TS.op_val_sub, TS.op_val_div, hf]; ring
  · rw [ddt_sub, ddt_div, hf]
    simp only [ddt_divR, ddt_sub, ddt_mul, TS.op_val_divR, TS.op_val_add, TS.op_val_mul, TS.op_val_mulL, hv, hvv, ht,
      show (TS.pressure P).ddt = 0 from rfl, e1, waterThermoState]
    generalize hq : 2 * D.val * wh.fD + D.val * D.val * wh.fDD = q at hpD'
    field_simp
    rw [← hq]; ring
  · rw [ddp_sub, ddp_div, hf]
    simp only [ddp_divR, ddp_sub, ddp_mul, TS.op_val_divR, TS.op_val_add, TS.op_val_mul, TS.op_val_mulL, hv, hvv, hp,
      show (TS.pressure P).ddp = 1 from rfl, e1, waterThermoState]
    generalize hq : 2 * D.val * wh.fD + D.val * D.val * wh.fDD = q at hpD'
    field_simp
    rw [← hq]; ring

/-- The hypotheses of `C78_partial`: p = D + (T - 277)² at 300 K, D = 1000. -/
example : ∃ (model : TS → HelmD) (D : TS) (wh : Helm), (model D).fD.val = wh.fD ∧ (model D).fDD.val = wh.fDD ∧
    (model D).fD.ddt = wh.fTD + wh.fDD * D.ddt ∧ (model D).fD.ddp = wh.fDD * D.ddp ∧ 0 < D.val ∧ D.val ^ 2 * wh.fD = 1529 ∧
    (waterThermoState 300 1529 D.val wh).pressureD ≠ 0 := by
  refine ⟨fun _ => ⟨⟨(sampleHelm 300 1000).fD, (sampleHelm 300 1000).fTD, 0, 0, .calculated⟩, .ofVal (sampleHelm 300 1000).fDD⟩,
    .ofVal 1000, sampleHelm 300 1000, rfl, rfl, ?_, ?_, ?_, ?_, ?_⟩ <;> norm_num [sampleHelm, TS.ofVal, TS.mk5, waterThermoState]

end ThermoFun
