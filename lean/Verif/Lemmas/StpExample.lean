import Verif.Lemmas.StpRange

/-!
CO2 at 1600 K and densities up to 2e-5 mol/cm³ (about 2.7 bar): a state for the examples.
-/

namespace ThermoFun.Stp

noncomputable def exC (k : Nat) : ℝ := (Fluid.cf .CO2 k).c 1600

lemma exC_vals : (1220 ≤ exC 0 ∧ exC 0 ≤ 1221) ∧ (0.00998 ≤ exC 1 ∧ exC 1 ≤ 0.00999) ∧ (0 ≤ exC 2 ∧ exC 2 ≤ 0.1367) ∧ (0 ≤ exC 3 ∧ exC 3 ≤ 0.53) ∧
    (0 ≤ exC 4 ∧ exC 4 ≤ 40) ∧ (0 ≤ exC 5 ∧ exC 5 ≤ 1) ∧ (280 ≤ exC 6 ∧ exC 6 ≤ 281) ∧ (0 ≤ exC 7 ∧ exC 7 ≤ 120) ∧ (-104 ≤ exC 8 ∧ exC 8 ≤ 0) ∧
    (0 ≤ exC 9 ∧ exC 9 ≤ 78) := by
  unfold exC Fluid.cf Row.c cfc
  refine ⟨⟨?_, ?_⟩, ⟨?_, ?_⟩, ⟨?_, ?_⟩, ⟨?_, ?_⟩, ⟨?_, ?_⟩, ⟨?_, ?_⟩, ⟨?_, ?_⟩, ⟨?_, ?_⟩, ⟨?_, ?_⟩, ⟨?_, ?_⟩⟩ <;> norm_num

lemma ex_poly {y : ℝ} (y0 : 0 ≤ y) (y1 : y ≤ 2e-5) : (0.00998 ≤ poly exC y) ∧ (0 ≤ polyD exC y ∧ polyD exC y ≤ 0.137) ∧
    (0 ≤ polyDD exC y ∧ polyDD exC y ≤ 1.1) := by
  obtain ⟨c0, c1, c2, c3, c4, c5, -⟩ := exC_vals
  have p2 : 0 ≤ y ^ 2 := by positivity
  have q2 : y ^ 2 ≤ 1e-9 := by nlinarith
  have q3 : y ^ 3 ≤ 1e-9 := by nlinarith
  have p3 : 0 ≤ y ^ 3 := by positivity
  have p4 : 0 ≤ y ^ 4 := by positivity
  unfold poly polyD polyDD
  have a2 := mul_nonneg c2.1 y0
  have a3 := mul_nonneg c3.1 y0
  have a4 := mul_nonneg c4.1 y0
  have b3 := mul_nonneg c3.1 p2
  have b4 := mul_nonneg c4.1 p2
  have b5 := mul_nonneg c5.1 p2
  have d4 := mul_nonneg c4.1 p3
  have d5 := mul_nonneg c5.1 p3
  have e5 := mul_nonneg c5.1 p4
  have u3 := mul_le_mul c3.2 y1 y0 (by norm_num)
  have u4 := mul_le_mul c4.2 y1 y0 (by norm_num)
  have v4 := mul_le_mul c4.2 q2 p2 (by norm_num)
  have v5 := mul_le_mul c5.2 q2 p2 (by norm_num)
  have w5 := mul_le_mul c5.2 q3 p3 (by norm_num)
  refine ⟨?_, ⟨?_, ?_⟩, ?_, ?_⟩ <;> norm_num at * <;> nlinarith

lemma ex_slope {y : ℝ} (y0 : 0 ≤ y) (y1 : y ≤ 2e-5) :
    0.9 * (Rgas * 1600) ≤ slope (Fluid.cf .CO2) 1600 y ∧ slope (Fluid.cf .CO2) 1600 y ≤ 1.1 * (Rgas * 1600) := by
  have hR := Gas.Rpos
  have e : slope (Fluid.cf .CO2) 1600 y = dpred exC y * (Rgas * 1600) := rfl
  obtain ⟨c0, -, -, -, -, -, c6, c7, c8, c9⟩ := exC_vals
  obtain ⟨p, d, dd⟩ := ex_poly y0 y1
  have e7 : Real.exp (-exC 7 * y) ≤ 1 := Real.exp_le_one_iff.mpr (by nlinarith [mul_nonneg c7.1 y0])
  have e9 : Real.exp (-exC 9 * y) ≤ 1 := Real.exp_le_one_iff.mpr (by nlinarith [mul_nonneg c9.1 y0])
  have f7 := Real.exp_pos (-exC 7 * y)
  have f9 := Real.exp_pos (-exC 9 * y)
  have q2 : y ^ 2 ≤ 1e-9 := by nlinarith
  have p2 : 0 ≤ y ^ 2 := by positivity
  have hp : 0 < poly exC y := by linarith
  have pp : 9.96e-5 ≤ poly exC y ^ 2 := by nlinarith
  have ppp : 9.9e-7 ≤ poly exC y ^ 3 := by
    have := mul_le_mul pp p (by norm_num) (by positivity)
    rw [← pow_succ] at this
    norm_num at this ⊢
    linarith
  have hs : 0.9 ≤ dpred exC y ∧ dpred exC y ≤ 1.1 := by
    unfold dpred
    generalize poly exC y = P at *
    generalize polyD exC y = D at *
    generalize polyDD exC y = DD at *
    generalize Real.exp (-exC 7 * y) = E7 at *
    generalize Real.exp (-exC 9 * y) = E9 at *
    obtain ⟨d0, d1⟩ := d
    obtain ⟨dd0, dd1⟩ := dd
    have A : 0 ≤ 2 * exC 0 * y ∧ 2 * exC 0 * y ≤ 0.05 := by
      constructor
      · have := mul_nonneg (show 0 ≤ exC 0 by linarith) y0
        linarith
      · have := mul_le_mul c0.2 y1 y0 (by norm_num)
        norm_num at this ⊢; linarith
    have B : 0 ≤ 2 * y * D / P ^ 2 ∧ 2 * y * D / P ^ 2 ≤ 0.06 := by
      refine ⟨by positivity, ?_⟩
      rw [div_le_iff₀ (by positivity)]
      have := mul_le_mul y1 d1 d0 (by norm_num)
      norm_num at this pp ⊢; linarith
    have C : 0 ≤ y ^ 2 * DD / P ^ 2 ∧ y ^ 2 * DD / P ^ 2 ≤ 0.001 := by
      refine ⟨by positivity, ?_⟩
      rw [div_le_iff₀ (by positivity)]
      have := mul_le_mul q2 dd1 dd0 (by norm_num)
      norm_num at this pp ⊢; linarith
    have D' : 0 ≤ 2 * y ^ 2 * D ^ 2 / P ^ 3 ∧ 2 * y ^ 2 * D ^ 2 / P ^ 3 ≤ 0.001 := by
      refine ⟨by positivity, ?_⟩
      rw [div_le_iff₀ (by positivity)]
      have hd : D ^ 2 ≤ 0.02 := by nlinarith
      have q2' : y ^ 2 ≤ 4e-10 := by nlinarith
      have := mul_le_mul q2' hd (sq_nonneg D) (by norm_num)
      norm_num at this ppp ⊢; linarith
    have E : 0 ≤ 2 * exC 6 * y * E7 ∧ 2 * exC 6 * y * E7 ≤ 0.012 := by
      have h6 : 0 ≤ exC 6 := by linarith
      refine ⟨by positivity, ?_⟩
      have := mul_le_mul (mul_le_mul c6.2 y1 y0 (by norm_num)) e7 f7.le (by norm_num)
      norm_num at this ⊢; linarith
    have F : 0 ≤ exC 6 * y ^ 2 * exC 7 * E7 ∧ exC 6 * y ^ 2 * exC 7 * E7 ≤ 0.001 := by
      have h6 : 0 ≤ exC 6 := by linarith
      refine ⟨mul_nonneg (mul_nonneg (mul_nonneg h6 p2) c7.1) f7.le, ?_⟩
      have := mul_le_mul (mul_le_mul (mul_le_mul c6.2 q2 p2 (by norm_num)) c7.2 c7.1 (by norm_num)) e7 f7.le (by norm_num)
      norm_num at this ⊢; linarith
    have G : -0.005 ≤ 2 * exC 8 * y * E9 ∧ 2 * exC 8 * y * E9 ≤ 0 := by
      have h8 : 0 ≤ -exC 8 := by linarith
      have := mul_le_mul (mul_le_mul (show -exC 8 ≤ 104 by linarith) y1 y0 (by norm_num)) e9 f9.le (by norm_num)
      have g := mul_nonneg (mul_nonneg h8 y0) f9.le
      norm_num at this ⊢
      constructor <;> linarith
    have H : 0 ≤ -(exC 8 * y ^ 2 * exC 9 * E9) ∧ -(exC 8 * y ^ 2 * exC 9 * E9) ≤ 0.001 := by
      have h8 : 0 ≤ -exC 8 := by linarith
      have := mul_le_mul (mul_le_mul (mul_le_mul (show -exC 8 ≤ 104 by linarith) q2 p2 (by norm_num)) c9.2 c9.1 (by norm_num)) e9 f9.le (by norm_num)
      have g := mul_nonneg (mul_nonneg (mul_nonneg h8 p2) c9.1) f9.le
      norm_num at this ⊢
      constructor <;> linarith
    constructor <;> linarith
  rw [e]
  exact ⟨mul_le_mul_of_nonneg_right hs.1 (by positivity), mul_le_mul_of_nonneg_right hs.2 (by positivity)⟩

/-- Bounds on `(1 - exp(-k y))/k`. -/
lemma exp_quot {k y : ℝ} (hk : 0 < k) (hy : 0 < y) : (1 - k * y / 2) * y ≤ (1 - Real.exp (-k * y)) / k ∧ (1 - Real.exp (-k * y)) / k ≤ y := by
  have x0 : 0 < k * y := by positivity
  constructor
  · rw [le_div_iff₀ hk, neg_mul, Real.exp_neg]
    have q := Real.quadratic_le_exp_of_nonneg x0.le
    have : (Real.exp (k * y))⁻¹ ≤ 1 - k * y + (k * y) ^ 2 / 2 := by
      rw [inv_le_comm₀ (Real.exp_pos _) (by nlinarith [sq_nonneg (k * y - 1)])]
      refine le_trans ?_ q
      rw [inv_le_iff_one_le_mul₀ (by nlinarith [sq_nonneg (k * y - 1)])]
      generalize k * y = x at x0
      nlinarith [sq_nonneg (x ^ 2)]
    nlinarith
  · rw [div_le_iff₀ hk]
    have := Real.add_one_le_exp (-k * y)
    linarith

lemma ex_poly_diff {y : ℝ} (y0 : 0 < y) (y1 : y ≤ 2e-5) : poly exC y - exC 1 ≤ 0.1368 * y := by
  obtain ⟨-, -, c2, c3, c4, c5, -⟩ := exC_vals
  unfold poly
  have q2 : y ^ 2 ≤ 1e-9 := by nlinarith
  have a3 := mul_le_mul c3.2 y1 y0.le (by norm_num)
  have a4 := mul_le_mul c4.2 q2 (sq_nonneg y) (by norm_num)
  have q3 : y ^ 3 ≤ 1e-9 := by nlinarith [sq_nonneg y]
  have a5 := mul_le_mul c5.2 q3 (by positivity) (by norm_num)
  have : exC 1 + exC 2 * y + exC 3 * y ^ 2 + exC 4 * y ^ 3 + exC 5 * y ^ 4 - exC 1
    = (exC 2 + exC 3 * y + exC 4 * y ^ 2 + exC 5 * y ^ 3) * y := by ring
  rw [this]
  refine mul_le_mul_of_nonneg_right ?_ y0.le
  have h2 := c2.2
  clear this c2 c3 c4 c5 q2 q3
  norm_num at a3 a4 a5 h2 ⊢
  linarith

lemma ex_recip {y : ℝ} (y0 : 0 < y) (y1 : y ≤ 2e-5) : -1373.5 * y ≤ 1 / poly exC y - 1 / exC 1 := by
  obtain ⟨p, -, -⟩ := ex_poly y0.le y1
  have hq := ex_poly_diff y0 y1
  have c1 := exC_vals.2.1.1
  have n1 : 0 < exC 1 := by linarith
  have hp : 0 < poly exC y := by linarith
  generalize poly exC y = P at *
  generalize exC 1 = c at *
  have e1 : 1 / P - 1 / c = -((P - c) / (P * c)) := by field_simp; ring
  have l : (9.96004e-5 : ℝ) ≤ P * c := by nlinarith
  have : (P - c) / (P * c) ≤ 0.1368 * y / 9.96004e-5 := div_le_div₀ (by positivity) hq (by norm_num) l
  have h2 : 0.1368 * y / 9.96004e-5 ≤ 1373.5 * y := by
    rw [div_le_iff₀ (by norm_num)]
    nlinarith
  rw [e1]
  linarith

/-- The Helmholtz energy is positive. -/
lemma ex_phi {y : ℝ} (y0 : 0 < y) (y1 : y ≤ 2e-5) : 0 < (helmholtz (Fluid.cf .CO2) 1600 y).f := by
  have e : (helmholtz (Fluid.cf .CO2) 1600 y).f = exC 0 * y + (1 / poly exC y - 1 / exC 1) - exC 6 / exC 7 * (Real.exp (-exC 7 * y) - 1)
    - exC 8 / exC 9 * (Real.exp (-exC 9 * y) - 1) := rfl
  obtain ⟨c0, -, -, -, -, -, c6, c7, c8, -⟩ := exC_vals
  have n7 : 0 < exC 7 := c_c7 (T := 1600) (by norm_num) (by norm_num)
  have n9 : 0 < exC 9 := c_c9 (T := 1600) (by norm_num) (by norm_num)
  have h1 := ex_recip y0 y1
  have g7 := (exp_quot n7 y0).1
  have g9 := (exp_quot n9 y0).2
  have z9 : 0 ≤ (1 - Real.exp (-exC 9 * y)) / exC 9 :=
    div_nonneg (by linarith [Real.exp_le_one_iff.mpr (show -exC 9 * y ≤ 0 by nlinarith [mul_pos n9 y0])]) n9.le
  have e7 : exC 6 / exC 7 * (Real.exp (-exC 7 * y) - 1) = -(exC 6 * ((1 - Real.exp (-exC 7 * y)) / exC 7)) := by field_simp; ring
  have e9 : exC 8 / exC 9 * (Real.exp (-exC 9 * y) - 1) = -(exC 8 * ((1 - Real.exp (-exC 9 * y)) / exC 9)) := by field_simp; ring
  rw [e, e7, e9]
  generalize (1 - Real.exp (-exC 7 * y)) / exC 7 = u at *
  generalize (1 - Real.exp (-exC 9 * y)) / exC 9 = v at *
  have xs : exC 7 * y ≤ 0.0024 := by
    have := mul_le_mul c7.2 y1 y0.le (by norm_num)
    norm_num at this ⊢; linarith
  have hu : 0.9988 * y ≤ u := by
    refine le_trans ?_ g7
    refine mul_le_mul_of_nonneg_right ?_ y0.le
    norm_num at xs ⊢; linarith
  have h6 := mul_le_mul c6.1 hu (by positivity) (by linarith [c6.1])
  have h8 := mul_le_mul (show -exC 8 ≤ 104 by linarith [c8.1]) g9 z9 (by norm_num)
  have h0 : 1220 * y ≤ exC 0 * y := mul_le_mul_of_nonneg_right c0.1 y0.le
  clear e e7 e9 g7 g9 xs hu
  norm_num at h1 h6 h8 h0 ⊢
  linarith

lemma p0 (cf : Nat → Row) (T : ℝ) : pressure cf T 0 = 0 := by unfold pressure pred; ring

lemma ex_steep {y r : ℝ} (h0 : r ≤ y) (h1 : y + r ≤ 2e-5) : Steep (Fluid.cf .CO2) 1600 y r (0.9 * (Rgas * 1600)) (1.1 * (Rgas * 1600)) := by
  refine ⟨fun z hz => ?_, fun z hz => ?_, fun z hz => ?_⟩ <;> obtain ⟨a, b⟩ := abs_le.mp hz
  · exact (poly_pos (by norm_num) (by norm_num) .CO2 (by linarith) ((show z ≤ 2e-5 by linarith).trans
      (show (2e-5 : ℝ) ≤ Fluid.rhomax .CO2 by unfold Fluid.rhomax; norm_num))).ne'
  · exact (ex_slope (by linarith) (by linarith)).1
  · exact (ex_slope (by linarith) (by linarith)).2

/-- The pressure is near that of the ideal gas. -/
lemma ex_pressure {y : ℝ} (h0 : 0 ≤ y) (h1 : y ≤ 1e-5) : 11972 * y ≤ pressure (Fluid.cf .CO2) 1600 y ∧ pressure (Fluid.cf .CO2) 1600 y ≤ 14634 * y := by
  have s := ex_steep (y := y) (r := y) le_rfl (by norm_num at h1 ⊢; linarith)
  obtain ⟨d, a, b, e⟩ := s.mvt (z := 0) (by simp [abs_of_nonneg h0])
  have e' : pressure (Fluid.cf .CO2) 1600 y = d * y := by rw [p0] at e; linarith
  have hRv : Rgas = 8.31451 := rfl
  rw [hRv] at a b
  rw [e']
  exact ⟨mul_le_mul_of_nonneg_right (by norm_num at a ⊢; linarith) h0, mul_le_mul_of_nonneg_right (by norm_num at b ⊢; linarith) h0⟩

/-- The density at 1 bar. -/
lemma ex_density : ∃ y, 5e-6 ≤ y ∧ y ≤ 1e-5 ∧ pressure (Fluid.cf .CO2) 1600 y = 0.1 ∧
    Steep (Fluid.cf .CO2) 1600 y 4e-6 (0.9 * (Rgas * 1600)) (1.1 * (Rgas * 1600)) := by
  have s := ex_steep (y := 1e-5) (r := 1e-5) le_rfl (by norm_num)
  have hc : ContinuousOn (fun y => pressure (Fluid.cf .CO2) 1600 y) (Set.Icc 5e-6 1e-5) := fun z hz =>
    (pressure_d _ (s.poly z (abs_le.mpr ⟨by norm_num at hz ⊢; linarith [hz.1], by norm_num at hz ⊢; linarith [hz.2]⟩))).continuousAt.continuousWithinAt
  have k0 := (ex_pressure (y := 5e-6) (by norm_num) (by norm_num)).2
  have k1 := (ex_pressure (y := 1e-5) (by norm_num) (by norm_num)).1
  obtain ⟨y, hy, hy0⟩ := intermediate_value_Icc (by norm_num) hc (show (0.1 : ℝ) ∈ Set.Icc _ _ from
    ⟨k0.trans (by norm_num), le_trans (by norm_num) k1⟩)
  refine ⟨y, hy.1, hy.2, hy0, ex_steep ?_ ?_⟩
  · have := hy.1; norm_num at this ⊢; linarith
  · have := hy.2; norm_num at this ⊢; linarith

/-- The density guessed. -/
lemma ex_guess {Tc Pc : ℝ} (h1 : Tc < 1600) (h2 : 0 < Tc) (h3 : 0 < Pc) : ∃ z, densityGuess .CO2 1600 0.1 Tc Pc = some z ∧ 7.5e-6 ≤ z ∧ z ≤ 7.6e-6 := by
  have e : (0.1 : ℝ) / Pc * Pc * 1000 / (0.1889241 * (1600 / Tc) * Tc) / 1000 / Fluid.Mw .CO2 = 0.1 / (0.1889241 * 1600) / 44.0098 := by
    unfold Fluid.Mw
    field_simp
  have hm : Fluid.rhomin .CO2 ≤ 0.1 / (0.1889241 * 1600) / 44.0098 := by unfold Fluid.rhomin Fluid.Mw; norm_num
  have hM : 0.1 / (0.1889241 * 1600) / 44.0098 ≤ Fluid.rhomax .CO2 := by unfold Fluid.rhomax; norm_num
  refine ⟨0.1 / (0.1889241 * 1600) / 44.0098, ?_, by norm_num, by norm_num⟩
  unfold densityGuess
  dsimp only
  rw [if_neg (not_lt.mpr h1.le), if_neg (by rintro (h | h) <;> linarith), e, clamp_id hm hM]

end ThermoFun.Stp
