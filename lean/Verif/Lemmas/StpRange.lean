import Verif.Lemmas.StpNewton

/-!
The expressions the code divides by, in the range of temperatures and densities it admits.
-/

namespace ThermoFun.Stp

/-- The temperature (K) at which the coefficient c[7] of H2O is zero. -/
noncomputable def T7 : ℝ := 0.65537898e5 / 0.18810675e3

section

variable {T : ℝ} (h1 : 200 ≤ T) (h2 : T ≤ 2000)
include h1 h2

lemma inv_T : (0 : ℝ) < 1 / T ∧ 1 / T ≤ 1 / 200 ∧ 1 / 2000 ≤ 1 / T :=
  ⟨by positivity, one_div_le_one_div_of_le (by norm_num) h1, one_div_le_one_div_of_le (by linarith) h2⟩

lemma h_c1 : 0 < (cfh 1).c T := by
  have hT : 0 < T := by linarith
  have e : (cfh 1).c T = (0.58638965 - 0.28646939e-2 * T + 0.31375577e-4 * T ^ 2) / T := by
    unfold Row.c cfh; field_simp; ring
  rw [e]
  exact div_pos (by nlinarith [sq_nonneg (T - 50)]) hT

lemma h_c9 : 0 < (cfh 9).c T := by
  have hT : 0 < T := by linarith
  unfold Row.c cfh
  have : (0 : ℝ) < 0.92093375e5 / T := by positivity
  simp only [zero_div, zero_mul, add_zero, zero_add]
  linarith

omit h1 h2 in
lemma h_c7 (hT : 0 < T) : (cfh 7).c T = 0 ↔ T = T7 := by
  have e : (cfh 7).c T = (0.18810675e3 * T - 0.65537898e5) / T := by
    unfold Row.c cfh; field_simp; ring
  rw [e, div_eq_zero_iff, or_iff_left hT.ne', T7, eq_div_iff (by norm_num)]
  constructor <;> intro h <;> linarith

lemma h_poly {y : ℝ} (y0 : 0 ≤ y) (y1 : y ≤ Fluid.rhomax .H2O) : 0 < poly (fun k => (cfh k).c T) y := by
  have hT : 0 < T := by linarith
  have hc1 := h_c1 h1 h2
  obtain ⟨i0, i1, i2⟩ := inv_T h1 h2
  have hy : y ≤ 0.1 := y1.trans (by unfold Fluid.rhomax; norm_num)
  have c2 : 0.05 ≤ (cfh 2).c T := by
    have e : (cfh 2).c T = -0.62783840e1 * (1 / T) + 0.14791599e-1 + 0.35779579e-3 * T + 0.15432925e-7 * T ^ 2 := by
      unfold Row.c cfh; simp only [zero_div, zero_mul, add_zero, zero_add]; ring
    rw [e]
    nlinarith [sq_nonneg T]
  have c3 : -0.46 ≤ (cfh 3).c T := by
    have e : (cfh 3).c T = -0.42719875 - 0.16325155e-4 * T := by unfold Row.c cfh; simp only [zero_div, zero_mul, add_zero, zero_add]; ring
    rw [e]; linarith
  have c4 : 0 ≤ (cfh 4).c T := by
    have e : (cfh 4).c T = (0.56654978e4 - 0.16580167e2 * T + 0.76560762e-1 * T ^ 2) / T := by
      unfold Row.c cfh; field_simp; ring
    rw [e]
    exact div_nonneg (by nlinarith [sq_nonneg (T - 100)]) hT.le
  have c5 : 0 ≤ (cfh 5).c T := by
    have e : (cfh 5).c T = 0.10917883 := by unfold Row.c cfh; simp
    rw [e]; norm_num
  unfold poly
  have q : 0 ≤ (cfh 2).c T * y + (cfh 3).c T * y ^ 2 := by
    have : 0 ≤ (cfh 2).c T + (cfh 3).c T * y := by nlinarith
    nlinarith [mul_nonneg this y0]
  have := mul_nonneg c4 (pow_nonneg y0 3)
  have := mul_nonneg c5 (pow_nonneg y0 4)
  linarith

lemma c_c1 : 0 < (cfc 1).c T := by
  have hT : 0 < T := by linarith
  unfold Row.c cfc
  simp only [zero_div, add_zero, zero_add]
  positivity

lemma c_c7 : 0 < (cfc 7).c T := by
  have hT : 0 < T := by linarith
  unfold Row.c cfc
  simp only [zero_div, zero_mul, add_zero, zero_add]
  positivity

lemma c_c9 : 0 < (cfc 9).c T := by
  have hT : 0 < T := by linarith
  unfold Row.c cfc
  simp only [zero_div, zero_mul, add_zero, zero_add]
  positivity

lemma c_poly {y : ℝ} (y0 : 0 ≤ y) (y1 : y ≤ Fluid.rhomax .CO2) : 0 < poly (fun k => (cfc k).c T) y := by
  have hT : 0 < T := by linarith
  have hc1 := c_c1 h1 h2
  obtain ⟨i0, i1, i2⟩ := inv_T h1 h2
  have hy : y ≤ 0.06 := y1.trans (by unfold Fluid.rhomax; norm_num)
  have c2 : 0.02 ≤ (cfc 2).c T := by
    have e : (cfc 2).c T = 0.59957845e-2 + 0.71669631e-4 * T + 0.62416103e-8 * T ^ 2 := by
      unfold Row.c cfc; simp only [zero_div, zero_mul, add_zero, zero_add]
    rw [e]
    nlinarith [sq_nonneg T]
  have c3 : -0.2 ≤ (cfc 3).c T := by
    have e : (cfc 3).c T = -0.13270279e1 * (1 / T) + -0.15210731 + T * (0.53654244e-3 - 0.71115142e-7 * T) := by unfold Row.c cfc; simp only [zero_div, zero_mul, add_zero, zero_add]; ring
    rw [e]
    have : 0 ≤ T * (0.53654244e-3 - 0.71115142e-7 * T) := mul_nonneg hT.le (by linarith)
    linarith
  have c4 : 0 ≤ (cfc 4).c T := by
    unfold Row.c cfc
    simp only [zero_div, zero_add]
    positivity
  have c5 : 0 ≤ (cfc 5).c T := by
    have e : (cfc 5).c T = 0.75522299 := by unfold Row.c cfc; simp
    rw [e]; norm_num
  unfold poly
  have q : 0 ≤ (cfc 2).c T * y + (cfc 3).c T * y ^ 2 := by
    have : 0 ≤ (cfc 2).c T + (cfc 3).c T * y := by nlinarith
    nlinarith [mul_nonneg this y0]
  have := mul_nonneg c4 (pow_nonneg y0 3)
  have := mul_nonneg c5 (pow_nonneg y0 4)
  linarith

lemma poly_pos (m : Fluid) {y : ℝ} (y0 : 0 ≤ y) (y1 : y ≤ m.rhomax) : 0 < poly (fun k => (m.cf k).c T) y := by
  cases m
  · exact h_poly h1 h2 y0 y1
  · exact c_poly h1 h2 y0 y1

/-- In the range of temperatures and densities admitted the code divides by zero only for H2O at `T7`. -/
lemma regular (m : Fluid) {y : ℝ} (y0 : 0 ≤ y) (y1 : y ≤ m.rhomax) (h7 : m = .H2O → T ≠ T7) : Regular m.cf T y := by
  have hT : 0 < T := by linarith
  refine ⟨hT, (poly_pos h1 h2 m y0 y1).ne', ?_, ?_, ?_⟩
  · cases m
    · exact (h_c1 h1 h2).ne'
    · exact (c_c1 h1 h2).ne'
  · cases m
    · exact fun h => h7 rfl ((h_c7 hT).mp h)
    · exact (c_c7 h1 h2).ne'
  · cases m
    · exact (h_c9 h1 h2).ne'
    · exact (c_c9 h1 h2).ne'

end

lemma rhomin_pos (m : Fluid) : 0 < m.rhomin := by cases m <;> (unfold Fluid.rhomin Fluid.Mw; norm_num)

lemma rhomin_le (m : Fluid) : m.rhomin ≤ m.rhomax := by cases m <;> (unfold Fluid.rhomin Fluid.Mw Fluid.rhomax; norm_num)

lemma clamp_mem (m : Fluid) (x : ℝ) : m.rhomin ≤ m.clamp x ∧ m.clamp x ≤ m.rhomax := by
  have := rhomin_le m
  unfold Fluid.clamp
  dsimp only
  split_ifs <;> constructor <;> linarith

lemma guess_mem {m : Fluid} {T P Tc Pc y : ℝ} (h : densityGuess m T P Tc Pc = some y) : m.rhomin ≤ y ∧ y ≤ m.rhomax := by
  have := rhomin_le m
  unfold densityGuess at h
  cases m <;> dsimp only at h <;> split_ifs at h <;> cases h <;> first | exact clamp_mem _ _ | exact ⟨this, le_refl _⟩

lemma newton_mem {m : Fluid} {T P z w : ℝ} {n : Nat} (h : newton m T P n z = .ok w) : m.rhomin ≤ w ∧ w ≤ m.rhomax := by
  have := rhomin_le m
  obtain ⟨x, -, -, rfl⟩ := newton_last n z w h
  split_ifs
  · exact ⟨le_refl _, this⟩
  · exact ⟨this, le_refl _⟩
  · exact clamp_mem _ _

end ThermoFun.Stp
