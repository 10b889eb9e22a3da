import Verif.Props.GasEntry
import Mathlib.Topology.Order.IntermediateValue
import Mathlib.Analysis.SpecialFunctions.Log.Deriv
import Mathlib.Analysis.Complex.ExponentialBounds

/-!
# Gases at low pressure

Theorems about /repo/ThermoFun/Substances/Gases/s_solmod2_.cpp:413-581, 826-850, 2825-2971, 3220-3244, 3629-3786, 4034-4058 as modelled in
Model/Gas.lean: the gas models approach the ideal gas in proportion to the pressure, and where they return it (C165).
-/

namespace ThermoFun.Gas

/-! ### Roots of the cubics at low pressure -/

lemma pr_signs {A B : ℝ} (hA : 0 ≤ A) (hB : 0 < B) (hs : A + B ≤ 1 / 20) :
    cubic (B - 1) (A - 3 * B ^ 2 - 2 * B) (B ^ 3 + B ^ 2 - A * B) (1 - 2 * (A + B)) < 0 ∧
    0 < cubic (B - 1) (A - 3 * B ^ 2 - 2 * B) (B ^ 3 + B ^ 2 - A * B) (1 + 2 * (A + B)) := by
  unfold cubic
  have hAB := mul_nonneg hA hB.le
  constructor
  · nlinarith [mul_nonneg hA hA, mul_pos hB hB, mul_nonneg hAB hA, mul_nonneg hAB hB.le, mul_pos (mul_pos hB hB) hB, mul_nonneg (mul_nonneg hA hA) hA,
      mul_nonneg hA (sub_nonneg.2 hs), mul_nonneg hB.le (sub_nonneg.2 hs), mul_nonneg (mul_nonneg hA hA) (sub_nonneg.2 hs),
      mul_nonneg hAB (sub_nonneg.2 hs), mul_nonneg (mul_pos hB hB).le (sub_nonneg.2 hs)]
  · nlinarith [mul_nonneg hA hA, mul_pos hB hB, mul_nonneg hAB hA, mul_nonneg hAB hB.le, mul_pos (mul_pos hB hB) hB, mul_nonneg (mul_nonneg hA hA) hA,
      mul_nonneg hA (sub_nonneg.2 hs), mul_nonneg hB.le (sub_nonneg.2 hs)]

lemma srk_signs {A B : ℝ} (hA : 0 ≤ A) (hB : 0 < B) (hs : A + B ≤ 1 / 20) :
    cubic (-1) (A - B - B ^ 2) (-A * B) (1 - 2 * (A + B)) < 0 ∧ 0 < cubic (-1) (A - B - B ^ 2) (-A * B) (1 + 2 * (A + B)) := by
  unfold cubic
  have hAB := mul_nonneg hA hB.le
  constructor
  · nlinarith [mul_nonneg hA hA, mul_pos hB hB, mul_nonneg hAB hA, mul_nonneg hAB hB.le, mul_pos (mul_pos hB hB) hB, mul_nonneg (mul_nonneg hA hA) hA,
      mul_nonneg hA (sub_nonneg.2 hs), mul_nonneg hB.le (sub_nonneg.2 hs), mul_nonneg (mul_nonneg hA hA) (sub_nonneg.2 hs),
      mul_nonneg hAB (sub_nonneg.2 hs), mul_nonneg (mul_pos hB hB).le (sub_nonneg.2 hs)]
  · nlinarith [mul_nonneg hA hA, mul_pos hB hB, mul_nonneg hAB hA, mul_nonneg hAB hB.le, mul_pos (mul_pos hB hB) hB, mul_nonneg (mul_nonneg hA hA) hA,
      mul_nonneg hA (sub_nonneg.2 hs), mul_nonneg hB.le (sub_nonneg.2 hs)]

/-- There is a root near 1. -/
lemma root_near {a2 a1 a0 s : ℝ} (hs : 0 ≤ s) (h : cubic a2 a1 a0 (1 - 2 * s) < 0 ∧ 0 < cubic a2 a1 a0 (1 + 2 * s)) :
    ∃ y, cubic a2 a1 a0 y = 0 ∧ |y - 1| ≤ 2 * s := by
  have hc : ContinuousOn (cubic a2 a1 a0) (Set.Icc (1 - 2 * s) (1 + 2 * s)) := by unfold cubic; fun_prop
  obtain ⟨y, hy, h0⟩ := intermediate_value_Icc (by linarith) hc ⟨h.1.le, h.2.le⟩
  exact ⟨y, h0, by rw [abs_le]; constructor <;> linarith [hy.1, hy.2]⟩

/-! ### ln φ near z = 1 and at small z -/

lemma log_near {y d : ℝ} (h : |y - 1| ≤ d) (hd : d ≤ 3 / 20) : |Real.log y| ≤ 6 / 5 * d := by
  rw [abs_le] at h
  have h0 : 0 < y := by linarith
  have h1 := Real.log_le_sub_one_of_pos h0
  have h2 := Real.one_sub_inv_le_log_of_pos h0
  have hd0 : 0 ≤ d := by linarith
  have h3 : -(6 / 5 * d) ≤ 1 - y⁻¹ := by
    have : y⁻¹ ≤ 1 + 6 / 5 * d := by
      rw [inv_le_iff_one_le_mul₀ h0]
      nlinarith
    linarith
  rw [abs_le]
  constructor <;> linarith

lemma pr_term {A B z : ℝ} (hA : 0 ≤ A) (hB : 0 < B) (hB2 : B ≤ 1 / 20) (hz : 17 / 20 ≤ z) :
    0 ≤ A / (2 * Real.sqrt 2 * B) * Real.log ((z + (1 + Real.sqrt 2) * B) / (z + (1 - Real.sqrt 2) * B)) ∧
    A / (2 * Real.sqrt 2 * B) * Real.log ((z + (1 + Real.sqrt 2) * B) / (z + (1 - Real.sqrt 2) * B)) ≤ 5 / 4 * A := by
  have h2 := sqrt2_pos
  have h2' : Real.sqrt 2 < 3 / 2 := by rw [Real.sqrt_lt' (by norm_num)]; norm_num
  have hq : 4 / 5 ≤ z + (1 - Real.sqrt 2) * B := by nlinarith
  have hq0 : 0 < z + (1 - Real.sqrt 2) * B := by linarith
  have hr : (z + (1 + Real.sqrt 2) * B) / (z + (1 - Real.sqrt 2) * B) = 1 + 2 * Real.sqrt 2 * B / (z + (1 - Real.sqrt 2) * B) := by
    rw [one_add_div hq0.ne']; congr 1; ring
  have hx : 0 ≤ 2 * Real.sqrt 2 * B / (z + (1 - Real.sqrt 2) * B) := by positivity
  rw [hr]
  have hl : Real.log (1 + 2 * Real.sqrt 2 * B / (z + (1 - Real.sqrt 2) * B)) ≤ 2 * Real.sqrt 2 * B / (z + (1 - Real.sqrt 2) * B) := by
    have := Real.log_le_sub_one_of_pos (show 0 < 1 + 2 * Real.sqrt 2 * B / (z + (1 - Real.sqrt 2) * B) by linarith)
    linarith
  have hl0 : 0 ≤ Real.log (1 + 2 * Real.sqrt 2 * B / (z + (1 - Real.sqrt 2) * B)) := Real.log_nonneg (by linarith)
  have hc : 0 ≤ A / (2 * Real.sqrt 2 * B) := by positivity
  refine ⟨mul_nonneg hc hl0, (mul_le_mul_of_nonneg_left hl hc).trans ?_⟩
  have : A / (2 * Real.sqrt 2 * B) * (2 * Real.sqrt 2 * B / (z + (1 - Real.sqrt 2) * B)) = A / (z + (1 - Real.sqrt 2) * B) := by field_simp
  rw [this, div_le_iff₀ hq0]
  nlinarith

lemma srk_term {A B z : ℝ} (hA : 0 ≤ A) (hB : 0 < B) (hz : 17 / 20 ≤ z) :
    0 ≤ A / B * Real.log (1 + B / z) ∧ A / B * Real.log (1 + B / z) ≤ 5 / 4 * A := by
  have hz0 : 0 < z := by linarith
  have hx : 0 ≤ B / z := by positivity
  have hl : Real.log (1 + B / z) ≤ B / z := by
    have := Real.log_le_sub_one_of_pos (show 0 < 1 + B / z by linarith)
    linarith
  have hl0 : 0 ≤ Real.log (1 + B / z) := Real.log_nonneg (by linarith)
  have hc : 0 ≤ A / B := by positivity
  refine ⟨mul_nonneg hc hl0, (mul_le_mul_of_nonneg_left hl hc).trans ?_⟩
  have : A / B * (B / z) = A / z := by field_simp
  rw [this, div_le_iff₀ hz0]
  nlinarith

lemma pr_near {A B z d : ℝ} (hA : 0 ≤ A) (hB : 0 < B) (hB2 : B ≤ 1 / 20) (hz : |z - 1| ≤ d) (hd : d + B ≤ 3 / 20) :
    |prLnPhi A B z| ≤ 11 / 5 * d + 6 / 5 * B + 5 / 4 * A := by
  have h1 := abs_le.1 hz
  obtain ⟨h2, h3⟩ := pr_term hA hB hB2 (z := z) (by linarith)
  have h4 := abs_le.1 (log_near (y := z - B) (d := d + B) (by rw [abs_le]; constructor <;> linarith) hd)
  unfold prLnPhi
  rw [abs_le]
  constructor <;> linarith

lemma srk_near {A B z d : ℝ} (hA : 0 ≤ A) (hB : 0 < B) (hz : |z - 1| ≤ d) (hd : d + B ≤ 3 / 20) :
    |srkLnPhi A B z| ≤ 11 / 5 * d + 6 / 5 * B + 5 / 4 * A := by
  have h1 := abs_le.1 hz
  obtain ⟨h2, h3⟩ := srk_term hA hB (z := z) (by linarith)
  have h4 := abs_le.1 (log_near (y := z - B) (d := d + B) (by rw [abs_le]; constructor <;> linarith) hd)
  unfold srkLnPhi
  rw [abs_le]
  constructor <;> linarith

lemma log_small {x : ℝ} (h0 : 0 < x) (h : x ≤ 6.3e-7) : Real.log x ≤ -14 := by
  rw [Real.log_le_iff_le_exp h0]
  have e : Real.exp 14 = Real.exp 1 ^ 14 := by rw [← Real.exp_nat_mul]; norm_num
  have h1 : Real.exp 1 ^ 14 ≤ 2.7182818286 ^ 14 := pow_le_pow_left₀ (Real.exp_pos _).le Real.exp_one_lt_d9.le _
  rw [Real.exp_neg, e]
  refine h.trans ?_
  rw [le_inv_comm₀ (by norm_num) (by positivity)]
  refine h1.trans ?_
  norm_num

lemma pr_small {A B z : ℝ} (hA : 0 ≤ A) (hB : 0 < B) (hAB : A ≤ 18 * B) (hz : B < z) (hz2 : z ≤ 6.3e-7) : 0.01 < prLnPhi A B z := by
  have h1 := log_small (x := z - B) (by linarith) (by linarith)
  have h2 := sqrt2_pos
  have h2u : Real.sqrt 2 < 1.4143 := by rw [Real.sqrt_lt' (by norm_num)]; norm_num
  have h2l : 1.4142 < Real.sqrt 2 := Real.lt_sqrt_of_sq_lt (by norm_num)
  have hq0 : 0 < z + (1 - Real.sqrt 2) * B := by nlinarith
  have hr : (z + (1 + Real.sqrt 2) * B) / (z + (1 - Real.sqrt 2) * B) ≤ 5.83 := by
    rw [div_le_iff₀ hq0]
    nlinarith
  have hr1 : 1 ≤ (z + (1 + Real.sqrt 2) * B) / (z + (1 - Real.sqrt 2) * B) := by
    rw [le_div_iff₀ hq0]
    nlinarith
  have hl : Real.log ((z + (1 + Real.sqrt 2) * B) / (z + (1 - Real.sqrt 2) * B)) ≤ 1.91 := by
    have e1 := Real.log_le_log (by linarith) hr
    have e2 : 4 * Real.log 5.83 ≤ 11 * Real.log 2 := by
      rw [show (4 : ℝ) * Real.log 5.83 = Real.log (5.83 ^ 4) by rw [Real.log_pow]; norm_num,
        show (11 : ℝ) * Real.log 2 = Real.log (2 ^ 11) by rw [Real.log_pow]; norm_num]
      exact Real.log_le_log (by norm_num) (by norm_num)
    have e3 := Real.log_two_lt_d9
    norm_num at e1 e2 e3 ⊢
    linarith
  have hl0 := Real.log_nonneg hr1
  have hc : A / (2 * Real.sqrt 2 * B) ≤ 6.4 := by
    rw [div_le_iff₀ (by positivity)]
    nlinarith
  have hc0 : 0 ≤ A / (2 * Real.sqrt 2 * B) := by positivity
  have := mul_le_mul hc hl hl0 (by norm_num)
  unfold prLnPhi
  norm_num at *
  linarith

lemma srk_small {A B z : ℝ} (hA : 0 ≤ A) (hB : 0 < B) (hAB : A ≤ 18 * B) (hz : B < z) (hz2 : z ≤ 6.3e-7) : 0.01 < srkLnPhi A B z := by
  have h1 := log_small (x := z - B) (by linarith) (by linarith)
  have hz0 : 0 < z := by linarith
  have hr : 1 + B / z ≤ 2 := by
    have : B / z ≤ 1 := by rw [div_le_one hz0]; exact hz.le
    linarith
  have hr1 : 1 ≤ 1 + B / z := by
    have : 0 ≤ B / z := by positivity
    linarith
  have hl := (Real.log_le_log (by linarith) hr).trans Real.log_two_lt_d9.le
  have hl0 := Real.log_nonneg hr1
  have hc : A / B ≤ 18 := by rw [div_le_iff₀ hB]; exact hAB
  have hc0 : 0 ≤ A / B := by positivity
  have := mul_le_mul hc hl hl0 (by norm_num)
  unfold srkLnPhi
  norm_num at *
  linarith

/-! ### All roots at very low pressure -/

lemma low_roots {b p r s y : ℝ} (hs0 : 0 < s) (hs : s ≤ 1e-7) (hb : 0 ≤ b) (hbs : b ≤ s) (hp : |p| ≤ 2.1 * s) (hr : |r| ≤ 1.1 * s ^ 2)
    (h : cubic (b - 1) p r y = 0) : |y - 1| ≤ 6 * s ∨ |y| ≤ 6 * s := by
  unfold cubic at h
  have h' : y ^ 2 * (y - 1 + b) = -(p * y) - r := by linarith
  have hpy : |p * y| ≤ 2.1 * s * |y| := by rw [abs_mul]; exact mul_le_mul_of_nonneg_right hp (abs_nonneg _)
  rw [abs_le] at hr hpy
  have hs' : s ≤ 1 / 10000000 := by norm_num at hs ⊢; exact hs
  rcases le_or_gt (1 / 2) y with hy | hy
  · left
    rw [abs_of_pos (by linarith : 0 < y)] at hpy
    rw [abs_le]
    constructor
    · by_contra hc
      push Not at hc
      have e1 : y ^ 2 * (y - 1 + b) ≤ y ^ 2 * (-(5 * s)) := mul_le_mul_of_nonneg_left (by linarith) (sq_nonneg _)
      have e2 : s * y * (1 / 2) ≤ s * y * y := mul_le_mul_of_nonneg_left hy (by positivity)
      norm_num at *
      nlinarith
    · by_contra hc
      push Not at hc
      have e1 : y ^ 2 * (6 * s) ≤ y ^ 2 * (y - 1 + b) := mul_le_mul_of_nonneg_left (by linarith) (sq_nonneg _)
      have e2 : s * y * 1 ≤ s * y * y := mul_le_mul_of_nonneg_left (by linarith) (by positivity)
      norm_num at *
      nlinarith
  · rcases lt_or_ge (-1 / 2) y with hy2 | hy2
    · right
      by_contra hc
      push Not at hc
      have e1 : y ^ 2 * (2 / 5) ≤ y ^ 2 * (1 - b - y) := mul_le_mul_of_nonneg_left (by linarith) (sq_nonneg _)
      have e2 : y ^ 2 = |y| * |y| := by rw [← sq, sq_abs]
      have e3 : 6 * s * |y| ≤ |y| * |y| := mul_le_mul_of_nonneg_right hc.le (abs_nonneg _)
      have e4 : s * (6 * s) ≤ s * |y| := mul_le_mul_of_nonneg_left hc.le hs0.le
      norm_num at *
      nlinarith
    · exfalso
      rw [abs_of_neg (by linarith : y < 0)] at hpy
      have e1 : y ^ 2 * (y - 1 + b) ≤ y ^ 2 * (-1) := mul_le_mul_of_nonneg_left (by linarith) (sq_nonneg _)
      have e2 : s * (-y) ≤ 1 / 10000000 * (-y) := mul_le_mul_of_nonneg_right hs' (by linarith)
      have e3 : s * s ≤ 1 / 10000000 * (1 / 10000000) := mul_le_mul hs' hs' hs0.le (by norm_num)
      norm_num at *
      nlinarith

lemma pr_roots {A B y : ℝ} (hA : 0 ≤ A) (hB : 0 < B) (hs : A + B ≤ 1e-7)
    (h : cubic (B - 1) (A - 3 * B ^ 2 - 2 * B) (B ^ 3 + B ^ 2 - A * B) y = 0) : |y - 1| ≤ 6 * (A + B) ∨ |y| ≤ 6 * (A + B) := by
  have hAB := mul_nonneg hA hB.le
  have hs' : A + B ≤ 1 / 10000000 := by norm_num at hs ⊢; exact hs
  have e1 : B * B ≤ 1 / 10000000 * B := mul_le_mul_of_nonneg_right (by linarith) hB.le
  have e2 : B * (B * B) ≤ 1 / 10000000 * (B * B) := mul_le_mul_of_nonneg_right (by linarith) (by positivity)
  have e3 : 0 < B * (B * B) := by positivity
  refine low_roots (by linarith) hs hB.le (by linarith) ?_ ?_ h
  · rw [abs_le]
    constructor <;> norm_num <;> nlinarith
  · rw [abs_le]
    constructor <;> norm_num <;> nlinarith [mul_nonneg hA hA]

lemma srk_roots {A B y : ℝ} (hA : 0 ≤ A) (hB : 0 < B) (hs : A + B ≤ 1e-7)
    (h : cubic (-1) (A - B - B ^ 2) (-A * B) y = 0) : |y - 1| ≤ 6 * (A + B) ∨ |y| ≤ 6 * (A + B) := by
  have hAB := mul_nonneg hA hB.le
  have hs' : A + B ≤ 1 / 10000000 := by norm_num at hs ⊢; exact hs
  have e1 : B * B ≤ 1 / 10000000 * B := mul_le_mul_of_nonneg_right (by linarith) hB.le
  refine low_roots (b := 0) (by linarith) hs le_rfl (by linarith) ?_ ?_ (by rw [zero_sub]; exact h)
  · rw [abs_le]
    constructor <;> norm_num <;> nlinarith
  · rw [abs_le]
    constructor <;> norm_num <;> nlinarith [mul_nonneg hA hA]

/-- What the solver returns when two roots are near 0 and one is near 1. -/
lemma solve_low {a2 a1 a0 s : ℝ} (hs : s ≤ 1e-7) (h2 : |a2 + 1| ≤ 1e-6) (h1 : |a1| ≤ 1e-6) (h0 : |a0| ≤ 1e-6)
    (hr : ∀ y, cubic a2 a1 a0 y = 0 → |y - 1| ≤ 6 * s ∨ |y| ≤ 6 * s) (hex : ∃ y, cubic a2 a1 a0 y = 0 ∧ |y - 1| ≤ 2 * s) :
    ∃ z1 z2 z3, cardano a2 a1 a0 = some (z1, z2, z3) ∧
      (∀ z, (z = z1 ∨ z = z2 ∨ z = z3) → |z - 1| ≤ 6 * s + 2.5e-8 ∨ |z| ≤ 6 * s + 2.5e-8) ∧
      ∃ z, (z = z1 ∨ z = z2 ∨ z = z3) ∧ |z - 1| ≤ 6 * s + 2.5e-8 := by
  rw [abs_le] at h2 h1 h0
  have hs0 : 0 ≤ s := by
    obtain ⟨y, -, hy⟩ := hex
    linarith [abs_nonneg (y - 1)]
  have hsq : Real.sqrt ((a2 ^ 2 - 3 * a1) / 9) ≤ 0.35 := by
    rw [Real.sqrt_le_iff]
    norm_num at *
    nlinarith
  rcases lt_or_ge 0 (discr a2 a1 a0) with hd | hd
  · obtain ⟨z1, z2, z3, hc, -, -, -, hall⟩ := C99_three_partial _ _ _ hd
    refine ⟨z1, z2, z3, hc, fun z hz => ?_, ?_⟩
    · obtain ⟨y, hy, hy2⟩ := near_root hd hc hz
      rcases hr y hy with h | h
      · refine .inl ?_
        rw [abs_le] at *
        norm_num at *
        constructor <;> linarith
      · refine .inr ?_
        rw [abs_le] at *
        norm_num at *
        constructor <;> linarith
    · obtain ⟨y, hy, hy1⟩ := hex
      have key : ∀ z, |y - z| ≤ 7e-8 * Real.sqrt ((a2 ^ 2 - 3 * a1) / 9) → |z - 1| ≤ 6 * s + 2.5e-8 := by
        intro z hz
        rw [abs_le] at *
        norm_num at *
        constructor <;> linarith
      rcases hall y hy with h | h | h
      exacts [⟨z1, .inl rfl, key _ h⟩, ⟨z2, .inr (.inl rfl), key _ h⟩, ⟨z3, .inr (.inr rfl), key _ h⟩]
  · rw [discr_eq] at hd
    have hd' : cq a2 a1 ^ 3 ≤ cr a2 a1 a0 ^ 2 := by linarith
    have hcr : cr a2 a1 a0 < 0 := by
      unfold cr
      have e1 : a2 ^ 3 ≤ -0.9 := by
        norm_num at *
        nlinarith [sq_nonneg a2, sq_nonneg (a2 + 1)]
      norm_num at *
      nlinarith
    have hcq : 0 < cq a2 a1 := by
      unfold cq
      norm_num at *
      nlinarith
    have hz := oneRoot_root hd' hcr.ne
    have hge : 0.3 ≤ oneRoot a2 a1 a0 := by
      unfold oneRoot
      dsimp only
      rw [abs_of_neg hcr]
      have e1 : (-1 : ℝ) * cr a2 a1 a0 / -cr a2 a1 a0 = 1 := by field_simp [hcr.ne]
      rw [e1, one_mul]
      have e2 : 0 < (-cr a2 a1 a0 + Real.sqrt (cr a2 a1 a0 ^ 2 - cq a2 a1 ^ 3)) ^ (1 / 3 : ℝ) :=
        Real.rpow_pos_of_pos (by linarith [Real.sqrt_nonneg (cr a2 a1 a0 ^ 2 - cq a2 a1 ^ 3)]) _
      have e3 := div_pos hcq e2
      norm_num at *
      linarith
    have hn : |oneRoot a2 a1 a0 - 1| ≤ 6 * s + 2.5e-8 := by
      rcases hr _ hz with h | h
      · refine h.trans ?_
        norm_num
      · rw [abs_le] at h
        norm_num at *
        linarith
    refine ⟨_, _, _, cardano_one hd' hcr.ne, fun z hz => ?_, _, .inl rfl, hn⟩
    have : z = oneRoot a2 a1 a0 := by tauto
    rw [this]
    exact .inl hn

/-! ### C165 -/

/-- The gas is ideal up to a relative error `d` of the volume and an error `e` of ln φ. -/
def NearIdeal (T P d e : ℝ) (f : Fug) : Prop := |P * f.v / (Rgas * T) - 1| ≤ d ∧ |Real.log f.phi| ≤ e

lemma nearIdeal_of {T P z l d e : ℝ} {f : Fug} (hT : 0 < T) (hP : 0 < P) (hv : f.v = z * Rgas * T / P) (hp : f.phi = Real.exp l)
    (hz : |z - 1| ≤ d) (hl : |l| ≤ e) : NearIdeal T P d e f := by
  have hR := Rpos
  constructor
  · rw [hv, show P * (z * Rgas * T / P) / (Rgas * T) = z by field_simp]
    exact hz
  · rw [hp, Real.log_exp]
    exact hl

/-- **C165** (Peng-Robinson, one real root): with A = aP/(RT)² and B = bP/(RT) and A + B ≤ 1/20, the volume differs from RT/P by the fraction
2 (A + B) at most and ln φ from 0 by 6 (A + B): both deviations vanish in proportion to the pressure.
Missing from C165: three real roots for A + B > 10⁻⁷; see also the refutations.  Residual properties: GasResidual.lean. -/
theorem C165_pr_partial (c T P Tc Pc : ℝ) (p : AB) (hT : 0 < T) (hP : 0 < P) (ha : 0 ≤ p.a) (hb : 0 < p.b) (h : PrSingle p.a p.b T P)
    (hs : p.a * P / (Rgas * T) ^ 2 + p.b * P / (Rgas * T) ≤ 1 / 20) :
    ∃ f, prPure c T P Tc Pc p = some f ∧ NearIdeal T P (2 * (p.a * P / (Rgas * T) ^ 2 + p.b * P / (Rgas * T)))
      (6 * (p.a * P / (Rgas * T) ^ 2 + p.b * P / (Rgas * T))) f := by
  have hR := Rpos
  have key := fun z => (C100_stable_partial c T P Tc Pc p z z z).1
  unfold PrSingle at h
  dsimp only at h
  have hA : 0 ≤ p.a * P / (Rgas * T) ^ 2 := by positivity
  have hB : 0 < p.b * P / (Rgas * T) := by positivity
  generalize p.a * P / (Rgas * T) ^ 2 = A at *
  generalize p.b * P / (Rgas * T) = B at *
  obtain ⟨z, hc, -, hu⟩ := C99_one_partial _ _ _ h.1.le h.2
  obtain ⟨y, hy, hy1⟩ := root_near (by linarith) (pr_signs hA hB hs)
  have e := hu h.1 y hy
  subst e
  have hn := pr_near hA hB (by linarith) hy1 (by linarith)
  have hy2 := abs_le.1 hy1
  obtain ⟨f, z', e1, e2, -, e3, e4, -⟩ := key y hc ⟨y, .inl rfl, by linarith, by linarith [abs_le.1 hn]⟩
  have e : z' = y := by tauto
  subst e
  exact ⟨f, e1, nearIdeal_of hT hP e3 e4 hy1 (hn.trans (by linarith))⟩

/-- **C165** (SRK, one real root): the same. -/
theorem C165_srk_partial (T P : ℝ) (p : AB) (hT : 0 < T) (hP : 0 < P) (ha : 0 ≤ p.a) (hb : 0 < p.b) (h : SrkSingle p.a p.b T P)
    (hs : p.a * P / (Rgas * T) ^ 2 + p.b * P / (Rgas * T) ≤ 1 / 20) :
    ∃ f, srkPure T P p = some f ∧ NearIdeal T P (2 * (p.a * P / (Rgas * T) ^ 2 + p.b * P / (Rgas * T)))
      (6 * (p.a * P / (Rgas * T) ^ 2 + p.b * P / (Rgas * T))) f := by
  have hR := Rpos
  have key := fun z => (C100_stable_partial 0 T P 0 0 p z z z).2
  unfold SrkSingle at h
  dsimp only at h
  have hA : 0 ≤ p.a * P / (Rgas * T) ^ 2 := by positivity
  have hB : 0 < p.b * P / (Rgas * T) := by positivity
  generalize p.a * P / (Rgas * T) ^ 2 = A at *
  generalize p.b * P / (Rgas * T) = B at *
  obtain ⟨z, hc, -, hu⟩ := C99_one_partial (-1) (A - B - B ^ 2) (-A * B) h.1.le (by rw [neg_neg]; exact h.2)
  obtain ⟨y, hy, hy1⟩ := root_near (by linarith) (srk_signs hA hB hs)
  have e := hu h.1 y hy
  subst e
  have hn := srk_near hA hB hy1 (by linarith)
  have hy2 := abs_le.1 hy1
  obtain ⟨f, z', e1, e2, -, e3, e4, -⟩ := key y hc ⟨y, .inl rfl, by linarith, by linarith [abs_le.1 hn]⟩
  have e : z' = y := by tauto
  subst e
  exact ⟨f, e1, nearIdeal_of hT hP e3 e4 hy1 (hn.trans (by linarith))⟩

/-- **C165** (very low pressure, any number of real roots): for A + B ≤ 10⁻⁷ and A ≤ 18 B (that is a ≤ 18 bRT, temperatures above about a
third of the critical one) the root taken is the one of the gas, never that of a liquid, and up to the error 2.5·10⁻⁸ from the literal for π
the gas is ideal to the fraction 6 (A + B). -/
theorem C165_low_pr_partial (c T P Tc Pc : ℝ) (p : AB) (hT : 0 < T) (hP : 0 < P) (ha : 0 ≤ p.a) (hb : 0 < p.b)
    (hs : p.a * P / (Rgas * T) ^ 2 + p.b * P / (Rgas * T) ≤ 1e-7) (hk : p.a ≤ 18 * p.b * (Rgas * T)) :
    ∃ f, prPure c T P Tc Pc p = some f ∧ NearIdeal T P (6 * (p.a * P / (Rgas * T) ^ 2 + p.b * P / (Rgas * T)) + 2.5e-8)
      (15 * (p.a * P / (Rgas * T) ^ 2 + p.b * P / (Rgas * T)) + 6e-8) f := by
  have hR := Rpos
  have key := fun z1 z2 z3 => C100_stable_partial c T P Tc Pc p z1 z2 z3
  dsimp only at key
  have hA : 0 ≤ p.a * P / (Rgas * T) ^ 2 := by positivity
  have hB : 0 < p.b * P / (Rgas * T) := by positivity
  have hAB : p.a * P / (Rgas * T) ^ 2 ≤ 18 * (p.b * P / (Rgas * T)) := by
    rw [div_le_iff₀ (by positivity), show 18 * (p.b * P / (Rgas * T)) * (Rgas * T) ^ 2 = 18 * p.b * (Rgas * T) * P by field_simp]
    exact mul_le_mul_of_nonneg_right hk hP.le
  generalize p.a * P / (Rgas * T) ^ 2 = A at *
  generalize p.b * P / (Rgas * T) = B at *
  have hs' : A + B ≤ 1 / 10000000 := by norm_num at hs ⊢; exact hs
  have e1 : B * B ≤ 1 / 10000000 * B := mul_le_mul_of_nonneg_right (by linarith) hB.le
  have e2 : B * (B * B) ≤ 1 / 10000000 * (B * B) := mul_le_mul_of_nonneg_right (by linarith) (by positivity)
  have e3 : 0 < B * (B * B) := by positivity
  have e4 := mul_nonneg hA hB.le
  have e5 : A * B ≤ 1 / 10000000 * B := mul_le_mul_of_nonneg_right (by linarith) hB.le
  obtain ⟨z1, z2, z3, hc, hall, zg, hg, hg1⟩ := solve_low hs (a2 := B - 1) (a1 := A - 3 * B ^ 2 - 2 * B) (a0 := B ^ 3 + B ^ 2 - A * B)
    (by rw [abs_le]; constructor <;> norm_num <;> linarith) (by rw [abs_le]; constructor <;> norm_num <;> nlinarith)
    (by rw [abs_le]; constructor <;> norm_num <;> nlinarith) (fun y hy => pr_roots hA hB hs hy)
    (root_near (by linarith) (pr_signs hA hB (by linarith)))
  have hgn := pr_near hA hB (by linarith) hg1 (by norm_num; linarith)
  have hg2 := abs_le.1 hg1
  have hgn2 := abs_le.1 hgn
  obtain ⟨f, z, h1, h2, h3, h4, h5, h6⟩ := (key z1 z2 z3).1 hc ⟨zg, hg, by norm_num at *; linarith, by norm_num at *; linarith⟩
  have h7 := h6 zg hg (by norm_num at *; linarith)
  rw [h5, Real.exp_le_exp] at h7
  rcases hall z h2 with hz | hz
  · exact ⟨f, h1, nearIdeal_of hT hP h4 h5 hz ((pr_near hA hB (by linarith) hz (by norm_num; linarith)).trans (by norm_num; linarith))⟩
  · exfalso
    have h8 := pr_small hA hB hAB h3 (by rw [abs_le] at hz; norm_num at *; linarith)
    norm_num at *
    linarith

/-- **C165** (SRK, very low pressure): the same. -/
theorem C165_low_srk_partial (T P : ℝ) (p : AB) (hT : 0 < T) (hP : 0 < P) (ha : 0 ≤ p.a) (hb : 0 < p.b)
    (hs : p.a * P / (Rgas * T) ^ 2 + p.b * P / (Rgas * T) ≤ 1e-7) (hk : p.a ≤ 18 * p.b * (Rgas * T)) :
    ∃ f, srkPure T P p = some f ∧ NearIdeal T P (6 * (p.a * P / (Rgas * T) ^ 2 + p.b * P / (Rgas * T)) + 2.5e-8)
      (15 * (p.a * P / (Rgas * T) ^ 2 + p.b * P / (Rgas * T)) + 6e-8) f := by
  have hR := Rpos
  have key := fun z1 z2 z3 => C100_stable_partial 0 T P 0 0 p z1 z2 z3
  dsimp only at key
  have hA : 0 ≤ p.a * P / (Rgas * T) ^ 2 := by positivity
  have hB : 0 < p.b * P / (Rgas * T) := by positivity
  have hAB : p.a * P / (Rgas * T) ^ 2 ≤ 18 * (p.b * P / (Rgas * T)) := by
    rw [div_le_iff₀ (by positivity), show 18 * (p.b * P / (Rgas * T)) * (Rgas * T) ^ 2 = 18 * p.b * (Rgas * T) * P by field_simp]
    exact mul_le_mul_of_nonneg_right hk hP.le
  generalize p.a * P / (Rgas * T) ^ 2 = A at *
  generalize p.b * P / (Rgas * T) = B at *
  have hs' : A + B ≤ 1 / 10000000 := by norm_num at hs ⊢; exact hs
  have e1 : B * B ≤ 1 / 10000000 * B := mul_le_mul_of_nonneg_right (by linarith) hB.le
  have e2 : B * (B * B) ≤ 1 / 10000000 * (B * B) := mul_le_mul_of_nonneg_right (by linarith) (by positivity)
  have e3 : 0 < B * (B * B) := by positivity
  have e4 := mul_nonneg hA hB.le
  have e5 : A * B ≤ 1 / 10000000 * B := mul_le_mul_of_nonneg_right (by linarith) hB.le
  obtain ⟨z1, z2, z3, hc, hall, zg, hg, hg1⟩ := solve_low hs (a2 := -1) (a1 := A - B - B ^ 2) (a0 := -A * B)
    (by norm_num) (by rw [abs_le]; constructor <;> norm_num <;> nlinarith)
    (by rw [abs_le]; constructor <;> norm_num <;> nlinarith) (fun y hy => srk_roots hA hB hs hy)
    (root_near (by linarith) (srk_signs hA hB (by linarith)))
  have hgn := srk_near hA hB hg1 (by norm_num; linarith)
  have hg2 := abs_le.1 hg1
  have hgn2 := abs_le.1 hgn
  obtain ⟨f, z, h1, h2, h3, h4, h5, h6⟩ := (key z1 z2 z3).2 hc ⟨zg, hg, by norm_num at *; linarith, by norm_num at *; linarith⟩
  have h7 := h6 zg hg (by norm_num at *; linarith)
  rw [h5, Real.exp_le_exp] at h7
  rcases hall z h2 with hz | hz
  · exact ⟨f, h1, nearIdeal_of hT hP h4 h5 hz ((srk_near hA hB hz (by norm_num; linarith)).trans (by norm_num; linarith))⟩
  · exfalso
    have h8 := srk_small hA hB hAB h3 (by rw [abs_le] at hz; norm_num at *; linarith)
    norm_num at *
    linarith

/-- `exAB` at 1 bar: A = 1/200 and B = 1/400, one real root. -/
lemma exAB_low : exAB.a * 1 / (Rgas * 100) ^ 2 = 1 / 200 ∧ exAB.b * 1 / (Rgas * 100) = 1 / 400 := by
  have := Rpos
  unfold exAB
  constructor <;> (field_simp; norm_num)

lemma exAB_low_pr : PrSingle exAB.a exAB.b 100 1 := by
  obtain ⟨h1, h2⟩ := exAB_low
  unfold PrSingle
  dsimp only
  rw [h1, h2]
  unfold discr cubic
  norm_num

lemma exAB_low_srk : SrkSingle exAB.a exAB.b 100 1 := by
  obtain ⟨h1, h2⟩ := exAB_low
  unfold SrkSingle
  dsimp only
  rw [h1, h2]
  unfold discr cubic
  norm_num

example : ∃ f, prPure 0.457235529 100 1 300 50 exAB = some f ∧ NearIdeal 100 1 0.015 0.045 f := by
  obtain ⟨f, h1, h2⟩ := C165_pr_partial 0.457235529 100 1 300 50 exAB (by norm_num) (by norm_num) exAB_vals.1 exAB_vals.2.1 exAB_low_pr
    (by rw [exAB_low.1, exAB_low.2]; norm_num)
  rw [exAB_low.1, exAB_low.2] at h2
  refine ⟨f, h1, h2.1.trans (by norm_num), h2.2.trans (by norm_num)⟩

example : ∃ f, srkPure 100 1 exAB = some f ∧ NearIdeal 100 1 0.015 0.045 f := by
  obtain ⟨f, h1, h2⟩ := C165_srk_partial 100 1 exAB (by norm_num) (by norm_num) exAB_vals.1 exAB_vals.2.1 exAB_low_srk
    (by rw [exAB_low.1, exAB_low.2]; norm_num)
  rw [exAB_low.1, exAB_low.2] at h2
  refine ⟨f, h1, h2.1.trans (by norm_num), h2.2.trans (by norm_num)⟩

/-- The parameters a and b a gas with the critical parameters `k` has in the equation of state. -/
noncomputable def parsOf (m : Eos) (T : ℝ) (k : Nat → ℝ) : AB :=
  match m with
  | .PRSV => prsvAB T (k 0) (k 1) (k 2) (k 3) (k 4) (k 5)
  | .SRK => srkAB T (k 0) (k 1) (k 2)
  | .PR78 => pr78AB T (k 0) (k 1) (k 2)

lemma parsOf_pos {m : Eos} {T : ℝ} {k : Nat → ℝ} (h0 : 0 < k 0) (h1 : 0 < k 1) : 0 ≤ (parsOf m T k).a ∧ 0 < (parsOf m T k).b := by
  have := Rpos
  cases m
  · unfold parsOf prsvAB; dsimp only; constructor <;> positivity
  · unfold parsOf srkAB; dsimp only; constructor <;> positivity
  · unfold parsOf pr78AB; dsimp only; constructor <;> positivity

/-- **C165** (the three gas models): as the pressure goes down the calculation switches to the ideal gas at 10⁻⁵ bar; what it returns is near
the ideal gas on both sides, so that no property jumps by more than the bound. -/
theorem C165_entry_partial (m : Eos) (Tmin T P : ℝ) (k : Nat → ℝ) (hT : 0 < T) (hP : 0 < P) (h0 : 0 < k 0) (h1 : 0 < k 1)
    (hs : (parsOf m T k).a * P / (Rgas * T) ^ 2 + (parsOf m T k).b * P / (Rgas * T) ≤ 1e-7)
    (hk : (parsOf m T k).a ≤ 18 * (parsOf m T k).b * (Rgas * T)) :
    ∃ f, calcFugPure m Tmin T P k = some f ∧
      NearIdeal T P (6 * ((parsOf m T k).a * P / (Rgas * T) ^ 2 + (parsOf m T k).b * P / (Rgas * T)) + 2.5e-8)
        (15 * ((parsOf m T k).a * P / (Rgas * T) ^ 2 + (parsOf m T k).b * P / (Rgas * T)) + 6e-8) f := by
  obtain ⟨ha, hb⟩ := parsOf_pos (m := m) (T := T) h0 h1
  have hR := Rpos
  unfold calcFugPure
  split_ifs
  · cases m
    · exact C165_low_pr_partial _ T P _ _ _ hT hP ha hb hs hk
    · exact C165_low_srk_partial T P _ hT hP ha hb hs hk
    · exact C165_low_pr_partial _ T P _ _ _ hT hP ha hb hs hk
  · have hA : 0 ≤ (parsOf m T k).a * P / (Rgas * T) ^ 2 := by positivity
    have hB : 0 < (parsOf m T k).b * P / (Rgas * T) := by positivity
    refine ⟨_, rfl, ?_, ?_⟩
    · dsimp only
      rw [show (8.31451 : ℝ) = Rgas from rfl, show P * (Rgas * T / P) / (Rgas * T) - 1 = 0 by field_simp; ring, abs_zero]
      linarith
    · rw [Real.log_one, abs_zero]
      linarith

/-- The gas of `exCrit` at 432 K and 2·10⁻⁵ bar. -/
example : ∃ f, calcFugPure .PR78 200 432 2e-5 exCrit = some f ∧ NearIdeal 432 2e-5 1e-6 1e-6 f := by
  obtain ⟨e1, e2⟩ := AB_num (c := 0.457235529) (cb := 0.0777960739) (q := 1 + (0.37464 + 1.54226 * 0.225 - 0.26992 * 0.225 ^ 2) * (1 - 1.2))
    (T := 432) (P := 2e-5) (Tc := 300) (Pc := 74) (by norm_num) (by norm_num) (by norm_num)
  have hp : parsOf .PR78 432 exCrit = pr78AB 432 300 74 0.225 := by unfold parsOf; rw [ex0, ex1, ex2]
  have ea : (pr78AB 432 300 74 0.225).a = (1 + (0.37464 + 1.54226 * 0.225 - 0.26992 * 0.225 ^ 2) * (1 - 1.2)) ^ 2
      * (0.457235529 * Rgas ^ 2 * 300 ^ 2 / 74) := by
    unfold pr78AB
    dsimp only
    rw [pr78k_le (by norm_num), sqrt_ex 1.2 (by norm_num) (by norm_num : (432 / 300 : ℝ) = 1.2 ^ 2)]
  have eb : (pr78AB 432 300 74 0.225).b = 0.0777960739 * Rgas * 300 / 74 := rfl
  obtain ⟨f, h1, h2, h3⟩ := C165_entry_partial .PR78 200 432 2e-5 exCrit (by norm_num) (by norm_num) (by rw [ex0]; norm_num)
    (by rw [ex1]; norm_num) (by rw [hp, ea, eb, e1, e2]; norm_num) (by rw [hp, ea, eb]; unfold Rgas; norm_num)
  rw [hp, ea, eb, e1, e2] at h2 h3
  exact ⟨f, h1, h2.trans (by norm_num), h3.trans (by norm_num)⟩

/-- **C165** is violated: at 10⁵ bar and above, and below the lower temperature of the record at any pressure, the gas is ideal again.  A gas
with the critical temperature 300 K and pressure 74 bar at 300 K and 10⁵ bar gets the fugacity coefficient 1 and a volume more than a hundred
times smaller than its own covolume b; at 200 K, below the lower end 250 K of its range, and 1000 bar it gets φ = 1 and a volume smaller than
b.  (The check of the bounds of the method changes only status and message.) -/
theorem C165_dense_refuted :
    (∃ f, calcFugPure .PR78 250 300 1e5 exCrit = some f ∧ f.phi = 1 ∧ f.v < (parsOf .PR78 300 exCrit).b / 100) ∧
    ∃ f, calcFugPure .PR78 250 200 1000 exCrit = some f ∧ f.phi = 1 ∧ f.v < (parsOf .PR78 200 exCrit).b := by
  have hb : ∀ T, (parsOf .PR78 T exCrit).b = 0.0777960739 * Rgas * 300 / 74 := by
    intro T
    change 0.0777960739 * Rgas * exCrit 0 / exCrit 1 = _
    rw [ex0, ex1]
  constructor
  · refine ⟨_, by unfold calcFugPure; rw [if_neg (by norm_num)], rfl, ?_⟩
    rw [hb]
    unfold Rgas
    norm_num
  · refine ⟨_, by unfold calcFugPure; rw [if_neg (by norm_num)], rfl, ?_⟩
    rw [hb]
    unfold Rgas
    norm_num

end ThermoFun.Gas
