import Verif.Model.WaterElectro
import Verif.Lemmas.CentralDiff
import Mathlib.Analysis.SpecialFunctions.Pow.Deriv
import Mathlib.Analysis.SpecialFunctions.Log.Deriv
import Mathlib.Analysis.SpecialFunctions.ExpDeriv

/-!
C81: the dielectric models differentiated numerically (Sverjensky 2014, Fernandez 1997).
C82: the Zhang-Duan equation of state.
C83: the dielectric constant of Fernandez solves the Harris-Alder equation.
-/

set_option linter.unusedSimpArgs false

namespace ThermoFun

open Set

/-! ### C81 -/

/-- A function of one variable with four derivatives on [x - h, x + h], the third bounded by `M3`, the fourth by `M4`. -/
structure Smooth4 (f f1 f2 f3 f4 : ℝ → ℝ) (x h M3 M4 : ℝ) : Prop where
  d1 : ∀ s ∈ Icc (x - h) (x + h), HasDerivAt f (f1 s) s
  d2 : ∀ s ∈ Icc (x - h) (x + h), HasDerivAt f1 (f2 s) s
  d3 : ∀ s ∈ Icc (x - h) (x + h), HasDerivAt f2 (f3 s) s
  d4 : ∀ s ∈ Icc (x - h) (x + h), HasDerivAt f3 (f4 s) s
  b3 : ∀ s ∈ Icc (x - h) (x + h), |f3 s| ≤ M3
  b4 : ∀ s ∈ Icc (x - h) (x + h), |f4 s| ≤ M4

/-- What C81 demands of the derivatives with respect to one variable: second-order accuracy of the step of one part in a thousand. -/
def SecondOrder (r1 r2 d1 d2 h M3 M4 : ℝ) : Prop := |r1 - d1| ≤ M3 * h ^ 2 / 6 ∧ |r2 - d2| ≤ M4 * h ^ 2 / 12

lemma central {f f1 f2 f3 f4 : ℝ → ℝ} {x M3 M4 : ℝ} (hx : 0 < x) (hf : Smooth4 f f1 f2 f3 f4 x (0.001 * x) M3 M4) :
    SecondOrder ((f (x + x * 0.001) - f (x - x * 0.001)) / (x + x * 0.001 - (x - x * 0.001)))
      ((f (x + x * 0.001) + f (x - x * 0.001) - 2 * f x) / ((x + x * 0.001 - (x - x * 0.001)) * 0.5) ^ 2) (f1 x) (f2 x) (0.001 * x) M3 M4 := by
  have hh : 0 < 0.001 * x := by positivity
  have e1 : x * 0.001 = 0.001 * x := by ring
  have e2 : x + 0.001 * x - (x - 0.001 * x) = 2 * (0.001 * x) := by ring
  have e3 : 2 * (0.001 * x) * 0.5 = 0.001 * x := by ring
  rw [e1, e2, e3]
  exact ⟨central_first hh hf.d1 hf.d2 hf.d3 hf.b3, central_second hh hf.d1 hf.d2 hf.d3 hf.d4 hf.b4⟩

/-- **C81, the part that holds.**  At temperatures above 0 °C and positive pressures the derivatives reported by the numerically
differentiated dielectric models have second-order accuracy for every smooth dielectric function, and Z, Y, Q, X follow from them (P in
bar in `epsilonP`, in Pa in Q).  Missing: the zero of the Celsius scale and of the pressure (`C81_refuted`), the functions U and N and the
mixed derivative, which are not computed (`C81_mixed_refuted`), and the unit of `epsilonP` (`C81_unit_refuted`). -/
theorem C81_partial (eps : ℝ → ℝ → ℝ) (TC P : ℝ) (hT : 0 < TC) (hP : 0 < P) {t1 t2 t3 t4 p1 p2 p3 p4 : ℝ → ℝ} {M3 M4 N3 N4 : ℝ}
    (ht : Smooth4 (fun t => eps t P) t1 t2 t3 t4 TC (0.001 * TC) M3 M4) (hp : Smooth4 (eps TC) p1 p2 p3 p4 P (0.001 * P) N3 N4) :
    let e := electroFD eps TC P
    SecondOrder e.epsilonT e.epsilonTT (t1 TC) (t2 TC) (0.001 * TC) M3 M4 ∧
    SecondOrder e.epsilonP e.epsilonPP (p1 P) (p2 P) (0.001 * P) N3 N4 ∧
    e.epsilon = eps TC P ∧ e.bornZ = -1 / e.epsilon ∧ e.bornY = e.epsilonT / e.epsilon ^ 2 ∧
    e.bornQ = e.epsilonP / e.epsilon ^ 2 / 100000 ∧
    e.bornX = e.epsilonTT / e.epsilon ^ 2 - 2 * e.bornY ^ 2 * e.epsilon := by
  refine ⟨central hT ht, central hP hp, rfl, ?_, ?_, ?_, ?_⟩ <;> simp only [electroFD] <;> norm_num <;> ring

/-- For a dielectric constant that is quadratic in each variable the bounds are zero, so the derivatives are exact. -/
example : (electroFD (fun t p => 80 - t / 4 + t ^ 2 / 1000 + p / 100) 25 1).epsilonT = -1 / 4 + 2 * 25 / 1000 := by
  have h := C81_partial (fun t p => 80 - t / 4 + t ^ 2 / 1000 + p / 100) 25 1 (by norm_num) (by norm_num)
    (t1 := fun t => -1 / 4 + 2 * t / 1000) (t2 := fun _ => 2 / 1000) (t3 := fun _ => 0) (t4 := fun _ => 0)
    (p1 := fun _ => 1 / 100) (p2 := fun _ => 0) (p3 := fun _ => 0) (p4 := fun _ => 0) (M3 := 0) (M4 := 0) (N3 := 0) (N4 := 0)
    ⟨fun s _ => by
      have := ((((hasDerivAt_id' s).div_const 4).const_sub 80).fun_add ((hasDerivAt_pow 2 s).div_const 1000)).add_const (1 / 100 : ℝ)
      exact this.congr_deriv (by push_cast; ring), fun s _ => by
      have := ((((hasDerivAt_id' s).const_mul 2).div_const 1000)).const_add (-1 / 4 : ℝ)
      exact this.congr_deriv (by ring), fun s _ => hasDerivAt_const s _, fun s _ => hasDerivAt_const s _,
      fun s _ => by simp, fun s _ => by simp⟩
    ⟨fun s _ => by
      have := ((hasDerivAt_id' s).div_const 100).const_add (80 - (25 : ℝ) / 4 + 25 ^ 2 / 1000)
      exact this.congr_deriv (by ring), fun s _ => hasDerivAt_const s _, fun s _ => hasDerivAt_const s _, fun s _ => hasDerivAt_const s _,
      fun s _ => by simp, fun s _ => by simp⟩
  have h1 := h.1.1
  norm_num at h1
  linarith

/-- **C81 refuted at 0 °C and at zero pressure**: the step is proportional to the Celsius temperature (and to the pressure, zero being the
convention for the saturation curve), so the difference quotient is 0/0 there (not a number in the code, 0 in the model). -/
theorem C81_refuted :
    (¬ ∀ (eps : ℝ → ℝ → ℝ) (TC P : ℝ) (t1 : ℝ → ℝ), 0 < P → Smooth4 (fun t => eps t P) t1 (fun _ => 0) (fun _ => 0) (fun _ => 0) TC 1 0 0 →
      (electroFD eps TC P).epsilonT = t1 TC) ∧
    (¬ ∀ (eps : ℝ → ℝ → ℝ) (TC P : ℝ) (p1 : ℝ → ℝ), 0 < TC → Smooth4 (eps TC) p1 (fun _ => 0) (fun _ => 0) (fun _ => 0) P 1 0 0 →
      (electroFD eps TC P).epsilonP = p1 P) := by
  constructor <;> intro h
  · have := h (fun t _ => 80 - t) 0 1 (fun _ => -1) one_pos
      ⟨fun s _ => (hasDerivAt_id' s).const_sub 80, fun s _ => hasDerivAt_const s _, fun s _ => hasDerivAt_const s _,
        fun s _ => hasDerivAt_const s _, fun s _ => by simp, fun s _ => by simp⟩
    norm_num [electroFD] at this
  · have := h (fun _ p => 80 - p) 1 0 (fun _ => -1) one_pos
      ⟨fun s _ => (hasDerivAt_id' s).const_sub 80, fun s _ => hasDerivAt_const s _, fun s _ => hasDerivAt_const s _,
        fun s _ => hasDerivAt_const s _, fun s _ => by simp, fun s _ => by simp⟩
    norm_num [electroFD] at this

/-- **C81 refuted for the mixed derivative**: it and the Born functions U and N are never set, so they are zero for every dielectric
constant. -/
theorem C81_mixed_refuted : ∀ eps TC P, (electroFD eps TC P).epsilonTP = 0 ∧ (electroFD eps TC P).bornU = 0 ∧
    (electroFD eps TC P).bornN = 0 := fun _ _ _ => ⟨rfl, rfl, rfl⟩

/-- **C81 refuted for the unit**: the Johnson-Norton model reports `epsilonP` per Pa, so that Q = epsilonP/ε²; here it is per bar. -/
theorem C81_unit_refuted :
    (∀ T wt, (johnsonNorton T wt).bornQ = (johnsonNorton T wt).epsilonP / (johnsonNorton T wt).epsilon ^ 2) ∧
    ¬ ∀ eps TC P, (electroFD eps TC P).bornQ = (electroFD eps TC P).epsilonP / (electroFD eps TC P).epsilon ^ 2 := by
  refine ⟨fun T wt => by simp only [johnsonNorton, bornFunctions, sq], fun h => ?_⟩
  have := h (fun _ p => p) 1 1
  norm_num [electroFD] at this

/-! ### C83 -/

/-- **C83**: the value is a root of the Harris-Alder equation
(ε-1)/(ε+2) = N ρ/(3 M) (α/ε₀ + g μ²/(3 k T ε₀) · 9 ε/((2ε+1)(ε+2))), the positive one, for a nonnegative correlation factor and densities
below the polarisation catastrophe. -/
theorem C83_harrisAlder (T rho : ℝ) (hT : 0 < T) (hr : 0 ≤ rho) (hg : 0 ≤ fernandezG T rho)
    (hB : 6.0221367e23 * 1.636e-40 * rho / (3 * 0.018015268 * 8.854187817e-12) < 1) :
    let ε := epsilonF T rho
    1 ≤ ε ∧ (ε - 1) / (ε + 2) = 6.0221367e23 * rho / (3 * 0.018015268) * (1.636e-40 / 8.854187817e-12 +
      fernandezG T rho * 6.138e-30 ^ 2 / (3 * 1.380658e-23 * T * 8.854187817e-12) * (9 * ε / ((2 * ε + 1) * (ε + 2)))) := by
  intro ε
  obtain ⟨A, hA⟩ : ∃ A : ℝ, A = 6.0221367e23 * 6.138e-30 ^ 2 * rho * fernandezG T rho / 0.018015268 / 8.854187817e-12 / 1.380658e-23 / T := ⟨_, rfl⟩
  obtain ⟨B, hBd⟩ : ∃ B : ℝ, B = 6.0221367e23 * 1.636e-40 * rho / 3 / 0.018015268 / 8.854187817e-12 := ⟨_, rfl⟩
  have hA0 : 0 ≤ A := by rw [hA]; positivity
  have hB0 : 0 ≤ B := by rw [hBd]; positivity
  have hB1 : B < 1 := by
    refine lt_of_eq_of_lt ?_ hB
    rw [hBd]; field_simp
  have hε : ε = (1 + A + 5 * B + (9 + 2 * A + 18 * B + A ^ 2 + 10 * A * B + 9 * B ^ 2) ^ (0.5 : ℝ)) / 4 / (1 - B) := by
    simp only [ε, epsilonF, ← hA, ← hBd]
  obtain ⟨s, hs⟩ : ∃ s : ℝ, s = (9 + 2 * A + 18 * B + A ^ 2 + 10 * A * B + 9 * B ^ 2) ^ (0.5 : ℝ) := ⟨_, rfl⟩
  have hs2 : s ^ 2 = 9 + 2 * A + 18 * B + A ^ 2 + 10 * A * B + 9 * B ^ 2 := by
    rw [hs, show (0.5 : ℝ) = 1 / 2 by norm_num, ← Real.sqrt_eq_rpow, Real.sq_sqrt (by positivity)]
  have hs0 : 0 ≤ s := by rw [hs]; exact Real.rpow_nonneg (by positivity) _
  rw [← hs] at hε
  have h1B : (1 - B) ≠ 0 := by linarith [hB1]
  have hquad : 2 * (1 - B) * ε ^ 2 - (1 + A + 5 * B) * ε - (1 + 2 * B) = 0 := by
    rw [hε]; field_simp; linear_combination (2 : ℝ) * hs2
  have hs3 : 3 - 3 * B ≤ s := by nlinarith [mul_nonneg hA0 hB0]
  have h1 : 1 ≤ ε := by
    rw [hε, div_div, le_div_iff₀ (by linarith)]; linarith
  refine ⟨h1, ?_⟩
  have e1 : 6.0221367e23 * rho / (3 * 0.018015268) * (1.636e-40 / 8.854187817e-12 +
      fernandezG T rho * 6.138e-30 ^ 2 / (3 * 1.380658e-23 * T * 8.854187817e-12) * (9 * ε / ((2 * ε + 1) * (ε + 2))))
      = B + A * (ε / ((2 * ε + 1) * (ε + 2))) := by
    rw [hA, hBd]; field_simp; ring
  rw [e1]
  have h2 : ε + 2 ≠ 0 := by linarith
  have h3 : 2 * ε + 1 ≠ 0 := by linarith
  field_simp
  linear_combination hquad

/-- At the critical temperature and density. -/
example : 1 ≤ epsilonF 647.096 322 := by
  refine (C83_harrisAlder 647.096 322 (by norm_num) (by norm_num) ?_ (by norm_num)).1
  have h : (0 : ℝ) ≤ (647.096 / 228 / (647.096 / 647.096) - 1) ^ (1.2 : ℝ) := Real.rpow_nonneg (by norm_num) _
  have h2 : (0 : ℝ) ≤ 0.196096504426e-2 * (322 / 322) / (647.096 / 228 / (647.096 / 647.096) - 1) ^ (1.2 : ℝ) :=
    div_nonneg (by norm_num) h
  simp only [fernandezG, fernandezTab, List.foldl]
  generalize (0.196096504426e-2 * (322 / 322) / (647.096 / 228 / (647.096 / 647.096) - 1) ^ (1.2 : ℝ) : ℝ) = q at h2 ⊢
  rw [div_self (by norm_num : (647.096 : ℝ) ≠ 0), div_self (by norm_num : (322 : ℝ) ≠ 0)]
  simp only [Real.one_rpow]
  norm_num
  linarith

/-! ### C82 -/

lemma inv_pow_deriv (n : ℕ) {v : ℝ} (hv : v ≠ 0) : HasDerivAt (fun v : ℝ => (v ^ n)⁻¹) (-n / v ^ (n + 1)) v := by
  have h := (hasDerivAt_pow n v).inv (pow_ne_zero n hv)
  refine HasDerivAt.congr_deriv h ?_
  cases n with
  | zero => simp
  | succ m => simp only [Nat.succ_sub_one, Nat.cast_succ, pow_succ]; field_simp

lemma zd_exp_deriv (γ : ℝ) {v : ℝ} (hv : v ≠ 0) :
    HasDerivAt (fun v : ℝ => Real.exp (-γ / v ^ 2)) (Real.exp (-γ / v ^ 2) * (2 * γ / v ^ 3)) v := by
  have h := ((inv_pow_deriv 2 hv).const_mul (-γ)).exp
  refine (h.congr_deriv ?_).congr_of_eventuallyEq (.of_forall fun x => by simp only [div_eq_mul_inv])
  simp only [← div_eq_mul_inv]
  push_cast
  ring

/-- The compressibility factor with free coefficients. -/
noncomputable def zGen (B C D E F G γ v : ℝ) : ℝ :=
  1 + B / v + C / v ^ 2 + D / v ^ 4 + E / v ^ 5 + (F / v ^ 2 + G / v ^ 4) * Real.exp (-γ / v ^ 2)

/-- Its derivative. -/
noncomputable def zGen' (B C D E F G γ v : ℝ) : ℝ :=
  -B / v ^ 2 - 2 * C / v ^ 3 - 4 * D / v ^ 5 - 5 * E / v ^ 6 -
    (2 * Real.exp (-γ / v ^ 2) * (-F * γ * v ^ 2 + F * v ^ 4 - γ * G + 2 * G * v ^ 2)) / v ^ 7

lemma zGen_deriv (B C D E F G γ : ℝ) {v : ℝ} (hv : v ≠ 0) : HasDerivAt (zGen B C D E F G γ) (zGen' B C D E F G γ v) v := by
  have h1 := (((((inv_pow_deriv 1 hv).const_mul B).const_add 1).fun_add ((inv_pow_deriv 2 hv).const_mul C)).fun_add
    ((inv_pow_deriv 4 hv).const_mul D)).fun_add ((inv_pow_deriv 5 hv).const_mul E)
  have h2 := (((inv_pow_deriv 2 hv).const_mul F).fun_add ((inv_pow_deriv 4 hv).const_mul G)).fun_mul (zd_exp_deriv γ hv)
  refine ((h1.fun_add h2).congr_deriv ?_).congr_of_eventuallyEq (.of_forall fun x => by
    simp only [zGen, div_eq_mul_inv, pow_one])
  simp only [zGen']
  generalize Real.exp (-γ / v ^ 2) = e
  push_cast
  field_simp
  ring

/-- The slope used by the Newton iteration for the volume is the derivative of the residual. -/
theorem C82_newton (T P v : ℝ) (hv : v ≠ 0) : HasDerivAt (zdF T P) (zdDF T P v) v := by
  have h := zGen_deriv (3.49824207e-01 + -2.91046273e+00 / (T / 647.25) ^ 2 + 2.00914688e+00 / (T / 647.25) ^ 3)
    (1.12819964e-01 + 7.48997714e-01 / (T / 647.25) ^ 2 + -8.73207040e-01 / (T / 647.25) ^ 3)
    (1.70609505e-02 + -1.46355822e-02 / (T / 647.25) ^ 2 + 5.79768283e-02 / (T / 647.25) ^ 3)
    (-8.41246372e-04 + 4.95186474e-03 / (T / 647.25) ^ 2 + -9.16248538e-03 / (T / 647.25) ^ 3)
    (-1.00358152e-01 / (T / 647.25)) (-1.82674744e-03 * (T / 647.25)) 1.05999998e-02 hv
  have h2 := (((h.mul_const 83.14467).mul_const T).div_const P).fun_sub ((hasDerivAt_id' v).mul_const 55.9480373)
  refine (h2.congr_deriv ?_).congr_of_eventuallyEq (.of_forall fun x => ?_)
  · simp only [zdDF, zGen', one_mul]
  · simp only [zdF, zdZ, zGen]

example : HasDerivAt (zdF 1000 10000) (zdDF 1000 10000 0.3) 0.3 := C82_newton _ _ _ (by norm_num)

/-- Isothermal pressure (bar) of the equation of state at the reduced volume v: Z R T / V. -/
noncomputable def zdP (T v : ℝ) : ℝ := zdZ (T / 647.25) v * (83.14467 * T) / (v * 55.9480373)

/-- The logarithm of the fugacity coefficient satisfies d ln φ = (Z - 1) dP / P along every isotherm. -/
theorem C82_fugacity (T v p' : ℝ) (hT : T ≠ 0) (hv : v ≠ 0) (hZ : zdZ (T / 647.25) v ≠ 0) (hp : HasDerivAt (zdP T) p' v) :
    HasDerivAt (fun v => zdLnPhi T (zdP T v) v (v * 55.9480373)) ((zdZ (T / 647.25) v - 1) / zdP T v * p') v := by
  obtain ⟨B, hB⟩ : ∃ B : ℝ, B = 3.49824207e-01 + -2.91046273e+00 / (T / 647.25) ^ 2 + 2.00914688e+00 / (T / 647.25) ^ 3 := ⟨_, rfl⟩
  obtain ⟨C, hC⟩ : ∃ B : ℝ, B = 1.12819964e-01 + 7.48997714e-01 / (T / 647.25) ^ 2 + -8.73207040e-01 / (T / 647.25) ^ 3 := ⟨_, rfl⟩
  obtain ⟨D, hD⟩ : ∃ B : ℝ, B = 1.70609505e-02 + -1.46355822e-02 / (T / 647.25) ^ 2 + 5.79768283e-02 / (T / 647.25) ^ 3 := ⟨_, rfl⟩
  obtain ⟨E, hE⟩ : ∃ B : ℝ, B = -8.41246372e-04 + 4.95186474e-03 / (T / 647.25) ^ 2 + -9.16248538e-03 / (T / 647.25) ^ 3 := ⟨_, rfl⟩
  obtain ⟨F, hF⟩ : ∃ B : ℝ, B = -1.00358152e-01 / (T / 647.25) := ⟨_, rfl⟩
  obtain ⟨G, hG⟩ : ∃ B : ℝ, B = -1.82674744e-03 * (T / 647.25) := ⟨_, rfl⟩
  have hz : ∀ v, zdZ (T / 647.25) v = zGen B C D E F G 1.05999998e-02 v := fun v => by simp only [zdZ, zGen, hB, hC, hD, hE, hF, hG]
  have hP : ∀ v, zdP T v = zGen B C D E F G 1.05999998e-02 v * (83.14467 * T) / (v * 55.9480373) := fun v => by rw [zdP, hz]
  rw [hz] at hZ
  have h := zGen_deriv B C D E F G 1.05999998e-02 hv
  have hp2 : HasDerivAt (zdP T) _ v :=
    ((h.mul_const (83.14467 * T)).fun_div ((hasDerivAt_id' v).mul_const 55.9480373) (mul_ne_zero hv (by norm_num))).congr_of_eventuallyEq (.of_forall hP)
  have ep := hp.unique hp2
  have hlog := h.log hZ
  have h1 := (((((inv_pow_deriv 1 hv).const_mul B).fun_add ((inv_pow_deriv 2 hv).const_mul (C / 2))).fun_add
    ((inv_pow_deriv 4 hv).const_mul (D / 4))).fun_add ((inv_pow_deriv 5 hv).const_mul (E / 5)))
  have hx := zd_exp_deriv 1.05999998e-02 hv
  have h2 := (((hx.mul_const (F / (2 * 1.05999998e-02))).fun_add (hx.mul_const (G / (2 * 1.05999998e-02 ^ 2)))).fun_add
    ((hx.fun_mul (inv_pow_deriv 2 hv)).mul_const (G / (2 * 1.05999998e-02)))).const_sub
    (F / (2 * 1.05999998e-02) + G / (2 * 1.05999998e-02 ^ 2))
  have key := (((h.sub_const 1).fun_sub hlog).fun_add h1).fun_add h2
  refine (key.congr_deriv ?_).congr_of_eventuallyEq ?_
  · rw [ep, hz, hP]
    have hZ' : zGen B C D E F G 1.05999998e-02 v ≠ 0 := hZ
    have hzv : zGen B C D E F G 1.05999998e-02 v - 1 =
        B / v + C / v ^ 2 + D / v ^ 4 + E / v ^ 5 + (F / v ^ 2 + G / v ^ 4) * Real.exp (-1.05999998e-02 / v ^ 2) := by
      simp only [zGen]; ring
    have e1 : (zGen B C D E F G 1.05999998e-02 v - 1) / (zGen B C D E F G 1.05999998e-02 v * (83.14467 * T) / (v * 55.9480373)) *
        ((zGen' B C D E F G 1.05999998e-02 v * (83.14467 * T) * (v * 55.9480373) -
          zGen B C D E F G 1.05999998e-02 v * (83.14467 * T) * (1 * 55.9480373)) / (v * 55.9480373) ^ 2)
        = zGen' B C D E F G 1.05999998e-02 v - zGen' B C D E F G 1.05999998e-02 v / zGen B C D E F G 1.05999998e-02 v
          - (zGen B C D E F G 1.05999998e-02 v - 1) / v := by
      generalize zGen B C D E F G 1.05999998e-02 v = z at hZ' ⊢
      field_simp
    rw [e1, hzv]
    generalize zGen B C D E F G 1.05999998e-02 v = z
    generalize zGen' B C D E F G 1.05999998e-02 v = z'
    generalize Real.exp (-1.05999998e-02 / v ^ 2) = e
    push_cast
    field_simp
    ring
  · have : ∀ᶠ x in nhds v, x ≠ 0 := isOpen_ne.mem_nhds hv
    filter_upwards [this] with x hx
    have eZ : zdP T x * (x * 55.9480373) / (83.14467 * T) = zGen B C D E F G 1.05999998e-02 x := by
      rw [hP]; field_simp
    simp only [zdLnPhi, ← hB, ← hC, ← hD, ← hE, ← hF, ← hG, eZ]
    generalize Real.exp (-1.05999998e-02 / x ^ 2) = e
    generalize zGen B C D E F G 1.05999998e-02 x = z
    generalize Real.log z = l
    field_simp
    ring

/-- At the critical temperature and volume the hypotheses hold. -/
example : ∃ p', HasDerivAt (fun v => zdLnPhi 647.25 (zdP 647.25 v) v (v * 55.9480373)) ((zdZ (647.25 / 647.25) 1 - 1) / zdP 647.25 1 * p') 1 := by
  have hd : DifferentiableAt ℝ (zdP 647.25) 1 := by
    unfold zdP zdZ
    simp only [one_ne_zero, ne_eq, not_false_eq_true]
    fun_prop (disch := norm_num)
  refine ⟨_, C82_fugacity 647.25 1 _ (by norm_num) one_ne_zero ?_ hd.hasDerivAt⟩
  have h1 : Real.exp (-1.05999998e-02 / 1 ^ 2) ≤ 1 := Real.exp_le_one_iff.mpr (by norm_num)
  simp only [zdZ]
  rw [div_self (by norm_num : (647.25 : ℝ) ≠ 0)]
  generalize Real.exp (-1.05999998e-02 / 1 ^ 2) = e at h1 ⊢
  norm_num
  intro h
  linarith

/-- The density derivatives of the Zhang-Duan model: second-order accuracy, in K and Pa, of all but the second pressure derivative. -/
theorem C82_density_partial (vol : ℝ → ℝ → ℝ) (T P : ℝ) (hT : 0 < T) (hP : 0 < P) {t1 t2 t3 t4 p1 p2 p3 p4 : ℝ → ℝ} {M3 M4 N3 N4 : ℝ}
    (ht : Smooth4 (fun t => 18.015268 / vol t P * 100) t1 t2 t3 t4 T (0.001 * T) M3 M4)
    (hp : Smooth4 (fun p => 18.015268 / vol T p * 100) p1 p2 p3 p4 P (0.001 * P) N3 N4) :
    let w := zhangDuan vol T P
    w.density = 1801.5268 / vol T P ∧ SecondOrder w.densityT w.densityTT (t1 T) (t2 T) (0.001 * T) M3 M4 ∧
    |w.densityP - p1 P / 100000| ≤ N3 * (0.001 * P) ^ 2 / 600000 ∧
    |w.densityPP * 100000 - p2 P| ≤ N4 * (0.001 * P) ^ 2 / 12 := by
  have h1 := central hT ht
  have h2 := central hP hp
  refine ⟨?_, h1, ?_, ?_⟩
  · simp only [zhangDuan]; ring
  · have h3 := h2.1
    simp only [zhangDuan]
    generalize (18.015268 / vol T (P + P * 0.001) * 100 - 18.015268 / vol T (P - P * 0.001) * 100) /
        (P + P * 0.001 - (P - P * 0.001)) = q at h3 ⊢
    rw [show q * 1e-05 - p1 P / 100000 = (q - p1 P) / 100000 by norm_num; ring, abs_div]
    norm_num at h3 ⊢
    linarith
  · have h3 := h2.2
    simp only [zhangDuan]
    refine le_of_eq_of_le ?_ h3
    congr 1
    rw [mul_assoc]
    norm_num

/-- A density linear in T and P. -/
example : (zhangDuan (fun T P => 1801.5268 / (1000 - T + P)) 500 1000).densityP = 1 / 100000 := by
  have h := (C82_density_partial (fun T P => 1801.5268 / (1000 - T + P)) 500 1000 (by norm_num) (by norm_num)
    (t1 := fun _ => -1) (t2 := fun _ => 0) (t3 := fun _ => 0) (t4 := fun _ => 0)
    (p1 := fun _ => 1) (p2 := fun _ => 0) (p3 := fun _ => 0) (p4 := fun _ => 0) (M3 := 0) (M4 := 0) (N3 := 0) (N4 := 0)
    ⟨fun s _ => by
      have := ((hasDerivAt_id' s).const_sub 1000).add_const (1000 : ℝ)
      refine this.congr_of_eventuallyEq (.of_forall fun x => ?_)
      beta_reduce; rw [div_div_eq_mul_div]; ring, fun s _ => hasDerivAt_const s _, fun s _ => hasDerivAt_const s _, fun s _ => hasDerivAt_const s _,
      fun s _ => by simp, fun s _ => by simp⟩
    ⟨fun s _ => by
      have := (hasDerivAt_id' s).const_add (1000 - 500 : ℝ)
      refine this.congr_of_eventuallyEq (.of_forall fun x => ?_)
      beta_reduce; rw [div_div_eq_mul_div]; ring, fun s _ => hasDerivAt_const s _, fun s _ => hasDerivAt_const s _, fun s _ => hasDerivAt_const s _,
      fun s _ => by simp, fun s _ => by simp⟩).2.2.1
  norm_num at h
  linarith

/-- **C82 refuted for the second pressure derivative**: it is converted from 1/bar² to 1/Pa² with the factor for 1/bar.  The density
1000 + P² (bar) has the second derivative 2e-10 per Pa²; reported is 2e-5. -/
theorem C82_refuted : (zhangDuan (fun _ P => 1801.5268 / (1000 + P ^ 2)) 1000 1).densityPP = 2e-05 ∧
    (∀ p : ℝ, HasDerivAt (fun p : ℝ => (zhangDuan (fun _ P => 1801.5268 / (1000 + P ^ 2)) 1000 (p / 100000)).density) (2 * p / 10 ^ 10) p) ∧
    (∀ p : ℝ, HasDerivAt (fun p : ℝ => 2 * p / 10 ^ 10) 2e-10 p) := by
  refine ⟨?_, fun p => ?_, fun p => ?_⟩
  · norm_num [zhangDuan]
  · have e : (fun p : ℝ => (zhangDuan (fun _ P => 1801.5268 / (1000 + P ^ 2)) 1000 (p / 100000)).density) = fun p => 1000 + (p / 100000) ^ 2 := by
      funext p
      have : 1000 + (p / 100000) ^ 2 ≠ 0 := by positivity
      simp only [zhangDuan]
      generalize (1000 + (p / 100000) ^ 2) = q at this ⊢
      field_simp
      norm_num
    rw [e]
    have := (((hasDerivAt_id' p).div_const 100000).fun_pow 2).const_add 1000
    exact this.congr_deriv (by push_cast; ring)
  · have := ((hasDerivAt_id' p).const_mul 2).div_const (10 ^ 10)
    exact this.congr_deriv (by norm_num)

end ThermoFun
