import Mathlib.Analysis.Calculus.MeanValue
import Mathlib.Analysis.Calculus.Deriv.Pow
import Mathlib.Analysis.Calculus.Deriv.Add
import Mathlib.Analysis.Calculus.Deriv.Comp

/-!
Error of central differences.
-/

namespace ThermoFun

open Set

/-- Integrating a bound on the derivative. -/
lemma lift_bound {φ φ' : ℝ → ℝ} {h C : ℝ} (n : ℕ) (hφ : ∀ s ∈ Icc 0 h, HasDerivAt φ (φ' s) s) (h0 : φ 0 = 0)
    (hb : ∀ s ∈ Icc 0 h, |φ' s| ≤ C * s ^ n) : ∀ s ∈ Icc 0 h, |φ s| ≤ C / (n + 1) * s ^ (n + 1) := by
  have hB (x : ℝ) : HasDerivAt (fun s : ℝ => C / (n + 1) * s ^ (n + 1)) (C * x ^ n) x := by
    refine ((hasDerivAt_pow (n + 1) x).const_mul (C / (n + 1))).congr_deriv ?_
    have : (n : ℝ) + 1 ≠ 0 := by positivity
    push_cast
    field_simp
  intro s hs
  exact image_norm_le_of_norm_deriv_right_le_deriv_boundary (a := 0) (b := h)
    (fun x hx => (hφ x hx).continuousAt.continuousWithinAt) (fun x hx => (hφ x (Ico_subset_Icc_self hx)).hasDerivWithinAt)
    (by simp [h0]) hB (fun x hx => hb x (Ico_subset_Icc_self hx)) hs

section
variable {f f1 f2 f3 f4 : ℝ → ℝ} {x h : ℝ}

private lemma plus {f f' : ℝ → ℝ} (hf : ∀ s ∈ Icc (x - h) (x + h), HasDerivAt f (f' s) s) {s : ℝ} (hs : s ∈ Icc 0 h) :
    HasDerivAt (fun s => f (x + s)) (f' (x + s)) s := by
  have : HasDerivAt f (f' (x + s)) (x + s) := hf _ ⟨by linarith [hs.1, hs.2], by linarith [hs.2]⟩
  have h2 := HasDerivAt.comp s (h₂ := f) (h := fun s => x + s) this ((hasDerivAt_id' s).const_add x)
  exact h2.congr_deriv (by ring)

private lemma minus {f f' : ℝ → ℝ} (hf : ∀ s ∈ Icc (x - h) (x + h), HasDerivAt f (f' s) s) {s : ℝ} (hs : s ∈ Icc 0 h) :
    HasDerivAt (fun s => f (x - s)) (-f' (x - s)) s := by
  have : HasDerivAt f (f' (x - s)) (x - s) := hf _ ⟨by linarith [hs.2], by linarith [hs.1, hs.2]⟩
  have h2 := HasDerivAt.comp s (h₂ := f) (h := fun s => x - s) this ((hasDerivAt_id' s).const_sub x)
  exact h2.congr_deriv (by ring)

/-- The first central difference. -/
lemma central_first {M : ℝ} (hh : 0 < h) (hf : ∀ s ∈ Icc (x - h) (x + h), HasDerivAt f (f1 s) s)
    (hf1 : ∀ s ∈ Icc (x - h) (x + h), HasDerivAt f1 (f2 s) s) (hf2 : ∀ s ∈ Icc (x - h) (x + h), HasDerivAt f2 (f3 s) s)
    (hM : ∀ s ∈ Icc (x - h) (x + h), |f3 s| ≤ M) : |(f (x + h) - f (x - h)) / (2 * h) - f1 x| ≤ M * h ^ 2 / 6 := by
  have hp (s : ℝ) (hs : s ∈ Icc 0 h) : x + s ∈ Icc (x - h) (x + h) := ⟨by linarith [hs.1, hs.2], by linarith [hs.2]⟩
  have hm (s : ℝ) (hs : s ∈ Icc 0 h) : x - s ∈ Icc (x - h) (x + h) := ⟨by linarith [hs.2], by linarith [hs.1, hs.2]⟩
  have b3 : ∀ s ∈ Icc 0 h, |f3 (x + s) - -f3 (x - s)| ≤ 2 * M * s ^ 0 := fun s hs => by
    have h1 := abs_le.mp (hM _ (hp s hs))
    have h2 := abs_le.mp (hM _ (hm s hs))
    rw [pow_zero, mul_one]
    exact abs_le.mpr ⟨by linarith [h1.1, h2.1], by linarith [h1.2, h2.2]⟩
  have b2 := lift_bound 0 (φ := fun s => f2 (x + s) - f2 (x - s)) (fun s hs => (plus hf2 hs).fun_sub (minus hf2 hs)) (by simp) b3
  have b1 := lift_bound 1 (φ := fun s => f1 (x + s) + f1 (x - s) - 2 * f1 x) (φ' := fun s => f2 (x + s) - f2 (x - s))
    (fun s hs => (((plus hf1 hs).fun_add (minus hf1 hs)).sub_const _).congr_deriv (by ring)) (by simp; ring)
    (fun s hs => (b2 s hs).trans (by norm_num; rfl))
  have b0 := lift_bound 2 (φ := fun s => f (x + s) - f (x - s) - 2 * f1 x * s) (φ' := fun s => f1 (x + s) + f1 (x - s) - 2 * f1 x)
    (fun s hs => (((plus hf hs).fun_sub (minus hf hs)).fun_sub ((hasDerivAt_id' s).const_mul _)).congr_deriv (by ring)) (by simp)
    (fun s hs => (b1 s hs).trans (by norm_num; rfl)) h ⟨hh.le, le_rfl⟩
  have e : (f (x + h) - f (x - h)) / (2 * h) - f1 x = (f (x + h) - f (x - h) - 2 * f1 x * h) / (2 * h) := by field_simp
  rw [e, abs_div, abs_of_pos (by linarith : 0 < 2 * h), div_le_iff₀ (by linarith)]
  refine b0.trans (le_of_eq ?_)
  norm_num
  ring

/-- The second central difference. -/
lemma central_second {M : ℝ} (hh : 0 < h) (hf : ∀ s ∈ Icc (x - h) (x + h), HasDerivAt f (f1 s) s)
    (hf1 : ∀ s ∈ Icc (x - h) (x + h), HasDerivAt f1 (f2 s) s) (hf2 : ∀ s ∈ Icc (x - h) (x + h), HasDerivAt f2 (f3 s) s)
    (hf3 : ∀ s ∈ Icc (x - h) (x + h), HasDerivAt f3 (f4 s) s) (hM : ∀ s ∈ Icc (x - h) (x + h), |f4 s| ≤ M) :
    |(f (x + h) + f (x - h) - 2 * f x) / h ^ 2 - f2 x| ≤ M * h ^ 2 / 12 := by
  have hp (s : ℝ) (hs : s ∈ Icc 0 h) : x + s ∈ Icc (x - h) (x + h) := ⟨by linarith [hs.1, hs.2], by linarith [hs.2]⟩
  have hm (s : ℝ) (hs : s ∈ Icc 0 h) : x - s ∈ Icc (x - h) (x + h) := ⟨by linarith [hs.2], by linarith [hs.1, hs.2]⟩
  have b4 : ∀ s ∈ Icc 0 h, |f4 (x + s) - -f4 (x - s)| ≤ 2 * M * s ^ 0 := fun s hs => by
    have h1 := abs_le.mp (hM _ (hp s hs))
    have h2 := abs_le.mp (hM _ (hm s hs))
    rw [pow_zero, mul_one]
    exact abs_le.mpr ⟨by linarith [h1.1, h2.1], by linarith [h1.2, h2.2]⟩
  have b3 := lift_bound 0 (φ := fun s => f3 (x + s) - f3 (x - s)) (fun s hs => (plus hf3 hs).fun_sub (minus hf3 hs)) (by simp) b4
  have b2 := lift_bound 1 (φ := fun s => f2 (x + s) + f2 (x - s) - 2 * f2 x) (φ' := fun s => f3 (x + s) - f3 (x - s))
    (fun s hs => (((plus hf2 hs).fun_add (minus hf2 hs)).sub_const _).congr_deriv (by ring)) (by simp; ring)
    (fun s hs => (b3 s hs).trans (by norm_num; rfl))
  have b1 := lift_bound 2 (φ := fun s => f1 (x + s) - f1 (x - s) - 2 * f2 x * s) (φ' := fun s => f2 (x + s) + f2 (x - s) - 2 * f2 x)
    (fun s hs => (((plus hf1 hs).fun_sub (minus hf1 hs)).fun_sub ((hasDerivAt_id' s).const_mul _)).congr_deriv (by ring)) (by simp)
    (fun s hs => (b2 s hs).trans (by norm_num; rfl))
  have b0 := lift_bound 3 (φ := fun s => f (x + s) + f (x - s) - 2 * f x - f2 x * s ^ 2)
    (φ' := fun s => f1 (x + s) - f1 (x - s) - 2 * f2 x * s)
    (fun s hs => ((((plus hf hs).fun_add (minus hf hs)).sub_const _).fun_sub ((hasDerivAt_pow 2 s).const_mul _)).congr_deriv
      (by push_cast; ring)) (by simp; ring)
    (fun s hs => (b1 s hs).trans (by norm_num; rfl)) h ⟨hh.le, le_rfl⟩
  have e : (f (x + h) + f (x - h) - 2 * f x) / h ^ 2 - f2 x = (f (x + h) + f (x - h) - 2 * f x - f2 x * h ^ 2) / h ^ 2 := by field_simp
  rw [e, abs_div, abs_of_pos (by positivity : 0 < h ^ 2), div_le_iff₀ (by positivity)]
  refine b0.trans (le_of_eq ?_)
  norm_num
  ring

end

end ThermoFun
