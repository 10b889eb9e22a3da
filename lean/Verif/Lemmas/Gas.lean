import Verif.Model.Gas
import Mathlib.Analysis.Real.Pi.Bounds
import Mathlib.Analysis.SpecialFunctions.Trigonometric.Bounds
import Mathlib.Analysis.SpecialFunctions.Log.Deriv
import Mathlib.Analysis.SpecialFunctions.Pow.Deriv
import Mathlib.Analysis.Calculus.Deriv.Abs
import Mathlib.Tactic

/-!
Facts about the cubic solver and about cubic equations of state used by Props/Gas.lean.
-/

namespace ThermoFun.Gas

/-- The quantities of Cardano's method. -/
noncomputable def cq (a2 a1 : ℝ) : ℝ := (a2 ^ 2 - 3 * a1) / 9
/-- The quantities of Cardano's method. -/
noncomputable def cr (a2 a1 a0 : ℝ) : ℝ := (2 * a2 ^ 3 - 9 * a2 * a1 + 27 * a0) / 54

/-- The cubic in terms of the shifted unknown. -/
lemma depressed (a2 a1 a0 z : ℝ) :
    z ^ 3 + a2 * z ^ 2 + a1 * z + a0 = (z + a2 / 3) ^ 3 - 3 * cq a2 a1 * (z + a2 / 3) + 2 * cr a2 a1 a0 := by
  unfold cq cr; ring

/-- The single root. -/
noncomputable def oneRoot (a2 a1 a0 : ℝ) : ℝ :=
  let ac := (-1) * cr a2 a1 a0 / |cr a2 a1 a0|
    * (|cr a2 a1 a0| + Real.sqrt (cr a2 a1 a0 ^ 2 - cq a2 a1 ^ 3)) ^ (1 / 3 : ℝ)
  ac + cq a2 a1 / ac - a2 / 3

lemma cardano_one {a2 a1 a0 : ℝ} (h : cq a2 a1 ^ 3 ≤ cr a2 a1 a0 ^ 2) (h0 : cr a2 a1 a0 ≠ 0) :
    cardano a2 a1 a0 = some (oneRoot a2 a1 a0, oneRoot a2 a1 a0, oneRoot a2 a1 a0) := by
  unfold cardano oneRoot
  unfold cq cr at *
  dsimp only
  rw [if_neg (not_lt.mpr h), if_neg h0]
  have e : ∀ x y : ℝ, (if x ≠ 0 then y / x else 0) = y / x := by
    intro x y; split_ifs with hx
    · rfl
    · simp only [not_not] at hx; simp [hx]
  simp only [e]

lemma oneRoot_root {a2 a1 a0 : ℝ} (h : cq a2 a1 ^ 3 ≤ cr a2 a1 a0 ^ 2) (h0 : cr a2 a1 a0 ≠ 0) :
    (oneRoot a2 a1 a0) ^ 3 + a2 * (oneRoot a2 a1 a0) ^ 2 + a1 * oneRoot a2 a1 a0 + a0 = 0 := by
  rw [depressed]
  unfold oneRoot
  dsimp only
  generalize cr a2 a1 a0 = r at *
  generalize cq a2 a1 = q at *
  have hr : 0 < |r| := abs_pos.mpr h0
  have hs := Real.sqrt_nonneg (r ^ 2 - q ^ 3)
  have hs2 : Real.sqrt (r ^ 2 - q ^ 3) ^ 2 = r ^ 2 - q ^ 3 := Real.sq_sqrt (by linarith)
  generalize Real.sqrt (r ^ 2 - q ^ 3) = s at *
  have hu : 0 < |r| + s := by linarith
  have hc : ((|r| + s) ^ (1 / 3 : ℝ)) ^ 3 = |r| + s := by
    rw [← Real.rpow_natCast, ← Real.rpow_mul hu.le]; norm_num
  have hcp : 0 < (|r| + s) ^ (1 / 3 : ℝ) := Real.rpow_pos_of_pos hu _
  generalize (|r| + s) ^ (1 / 3 : ℝ) = c at *
  have hr2 : |r| ^ 2 = r ^ 2 := sq_abs r
  have hg : (-1 * r / |r|) ^ 2 = 1 := by
    rw [div_pow, mul_pow, hr2]; field_simp
  have hgr : (-1 * r / |r|) * |r| = -r := by field_simp
  generalize (-1 * r / |r|) = g at *
  have hgn : g ≠ 0 := by intro hh; rw [hh] at hg; norm_num at hg
  have hx : g * c ≠ 0 := mul_ne_zero hgn hcp.ne'
  have hx3 : (g * c) ^ 3 = g * (|r| + s) := by rw [mul_pow, hc, pow_succ, hg]; ring
  have hy3 : (q / (g * c)) ^ 3 = g * (|r| - s) := by
    rw [div_pow, hx3, div_eq_iff (mul_ne_zero hgn hu.ne')]
    have : q ^ 3 = |r| ^ 2 - s ^ 2 := by rw [hr2, hs2]; ring
    rw [this]
    linear_combination (-(|r| ^ 2 - s ^ 2)) * hg
  have hxy : (g * c) * (q / (g * c)) = q := by field_simp
  generalize q / (g * c) = y at *
  generalize g * c = x at *
  have : x + y - a2 / 3 + a2 / 3 = x + y := by ring
  rw [this]
  linear_combination hx3 + hy3 + 2 * hgr + 3 * (x + y) * hxy

/-- If the discriminant is negative the real root is unique. -/
lemma root_unique {a2 a1 a0 z z' : ℝ} (h : cq a2 a1 ^ 3 < cr a2 a1 a0 ^ 2)
    (hz : z ^ 3 + a2 * z ^ 2 + a1 * z + a0 = 0) (hz' : z' ^ 3 + a2 * z' ^ 2 + a1 * z' + a0 = 0) : z = z' := by
  rw [depressed] at hz hz'
  generalize cr a2 a1 a0 = r at *
  generalize cq a2 a1 = q at *
  by_contra hne
  have hd : (z + a2 / 3) - (z' + a2 / 3) ≠ 0 := by
    intro hh; exact hne (by linarith)
  generalize z + a2 / 3 = y at *
  generalize z' + a2 / 3 = y' at *
  have h1 : (y - y') * (y ^ 2 + y * y' + y' ^ 2 - 3 * q) = 0 := by linear_combination hz - hz'
  have h2 : y ^ 2 + y * y' + y' ^ 2 = 3 * q := by
    rcases mul_eq_zero.mp h1 with h | h
    · exact absurd h hd
    · linarith
  have h3 : 0 ≤ 4 * q - y ^ 2 := by nlinarith [sq_nonneg (y + 2 * y')]
  have h4 : q ^ 3 - r ^ 2 = (4 * q - y ^ 2) * (y ^ 2 - q) ^ 2 / 4 := by
    have : r = -(y ^ 3 - 3 * q * y) / 2 := by linarith
    rw [this]; ring
  have h5 : 0 ≤ (4 * q - y ^ 2) * (y ^ 2 - q) ^ 2 := mul_nonneg h3 (sq_nonneg _)
  linarith

/-- The value of the cubic at `-2 √q cos φ - a2/3`. -/
lemma cubic_cos {a2 a1 a0 : ℝ} (φ : ℝ) (hq : 0 ≤ cq a2 a1) :
    ((-2) * Real.sqrt (cq a2 a1) * Real.cos φ - a2 / 3) ^ 3 + a2 * ((-2) * Real.sqrt (cq a2 a1) * Real.cos φ - a2 / 3) ^ 2
      + a1 * ((-2) * Real.sqrt (cq a2 a1) * Real.cos φ - a2 / 3) + a0
      = 2 * cr a2 a1 a0 - 2 * (cq a2 a1 * Real.sqrt (cq a2 a1)) * Real.cos (3 * φ) := by
  rw [depressed, Real.cos_three_mul]
  have h := Real.sq_sqrt hq
  generalize Real.sqrt (cq a2 a1) = s at *
  rw [← h]; ring

lemma three_facts {a2 a1 a0 : ℝ} (h : cr a2 a1 a0 ^ 2 < cq a2 a1 ^ 3) :
    0 < cq a2 a1 ∧ cq a2 a1 * Real.sqrt (cq a2 a1) * Real.cos (Real.arccos (cr a2 a1 a0 / Real.sqrt (cq a2 a1 ^ 3))) = cr a2 a1 a0 := by
  generalize cr a2 a1 a0 = r at *
  generalize cq a2 a1 = q at *
  have hq3 : 0 < q ^ 3 := lt_of_le_of_lt (sq_nonneg r) h
  have hq : 0 < q := by
    by_contra hn
    have : q ^ 3 ≤ 0 := by nlinarith [sq_nonneg q, not_lt.mp hn, mul_nonneg_of_nonpos_of_nonpos (not_lt.mp hn) (not_lt.mp hn)]
    linarith
  have hs : Real.sqrt (q ^ 3) = q * Real.sqrt q := by
    rw [show q ^ 3 = q ^ 2 * q by ring, Real.sqrt_mul (sq_nonneg q), Real.sqrt_sq hq.le]
  have hsp : 0 < Real.sqrt (q ^ 3) := Real.sqrt_pos.mpr hq3
  have hss : Real.sqrt (q ^ 3) ^ 2 = q ^ 3 := Real.sq_sqrt hq3.le
  have habs : |r / Real.sqrt (q ^ 3)| ≤ 1 := by
    rw [abs_div, abs_of_pos hsp, div_le_one hsp]
    apply abs_le_of_sq_le_sq _ hsp.le
    rw [hss]; exact h.le
  refine ⟨hq, ?_⟩
  rw [Real.cos_arccos (neg_le_of_abs_le habs) (le_of_abs_le habs), ← hs]
  field_simp

/-- The angle of Cardano's method. -/
noncomputable def cth (a2 a1 a0 : ℝ) : ℝ := Real.arccos (cr a2 a1 a0 / Real.sqrt (cq a2 a1 ^ 3))

/-- `-2 √q cos φ - a2/3`. -/
noncomputable def cosRoot (a2 a1 φ : ℝ) : ℝ := (-2) * Real.sqrt (cq a2 a1) * Real.cos φ - a2 / 3

lemma cardano_three {a2 a1 a0 : ℝ} (h : cr a2 a1 a0 ^ 2 < cq a2 a1 ^ 3) :
    cardano a2 a1 a0 = some (cosRoot a2 a1 (cth a2 a1 a0 / 3), cosRoot a2 a1 (cth a2 a1 a0 / 3 + 2 / 3 * 3.1415927),
      cosRoot a2 a1 (cth a2 a1 a0 / 3 - 2 / 3 * 3.1415927)) := by
  unfold cardano cosRoot cth
  unfold cq cr at *
  dsimp only
  rw [if_pos h]

lemma cosRoot_eval {a2 a1 a0 : ℝ} (h : cr a2 a1 a0 ^ 2 < cq a2 a1 ^ 3) (φ : ℝ) :
    (cosRoot a2 a1 φ) ^ 3 + a2 * (cosRoot a2 a1 φ) ^ 2 + a1 * cosRoot a2 a1 φ + a0
      = 2 * (cq a2 a1 * Real.sqrt (cq a2 a1)) * (Real.cos (cth a2 a1 a0) - Real.cos (3 * φ)) := by
  obtain ⟨hq, hc⟩ := three_facts h
  have := cubic_cos (a2 := a2) (a1 := a1) (a0 := a0) φ hq.le
  unfold cosRoot
  rw [this]
  have hc' : cq a2 a1 * Real.sqrt (cq a2 a1) * Real.cos (cth a2 a1 a0) = cr a2 a1 a0 := hc
  linear_combination (-2) * hc'

lemma pi_lit : |(3.1415927 : ℝ) - Real.pi| ≤ 5e-8 := by
  have h1 := Real.pi_gt_d20
  have h2 := Real.pi_lt_d20
  rw [abs_le]; constructor <;> norm_num at * <;> linarith

/-- All real roots, if there are three. -/
lemma three_all {a2 a1 a0 z : ℝ} (h : cr a2 a1 a0 ^ 2 < cq a2 a1 ^ 3) (hz : z ^ 3 + a2 * z ^ 2 + a1 * z + a0 = 0) :
    z = cosRoot a2 a1 (cth a2 a1 a0 / 3) ∨ z = cosRoot a2 a1 (cth a2 a1 a0 / 3 + 2 / 3 * Real.pi) ∨
      z = cosRoot a2 a1 (cth a2 a1 a0 / 3 - 2 / 3 * Real.pi) := by
  obtain ⟨hq, hc⟩ := three_facts h
  have hs := Real.sq_sqrt hq.le
  have hc3 : cq a2 a1 * Real.sqrt (cq a2 a1) * Real.cos (cth a2 a1 a0) = cr a2 a1 a0 := hc
  rw [depressed] at hz
  unfold cosRoot
  have e3 : Real.cos (cth a2 a1 a0) = 4 * Real.cos (cth a2 a1 a0 / 3) ^ 3 - 3 * Real.cos (cth a2 a1 a0 / 3) := by
    rw [← Real.cos_three_mul]; congr 1; ring
  rw [e3] at hc3
  have hcs : Real.cos (2 / 3 * Real.pi) = -(1 / 2) := by
    rw [show 2 / 3 * Real.pi = Real.pi - Real.pi / 3 by ring, Real.cos_pi_sub, Real.cos_pi_div_three]
  have hsn : Real.sin (2 / 3 * Real.pi) = Real.sqrt 3 / 2 := by
    rw [show 2 / 3 * Real.pi = Real.pi - Real.pi / 3 by ring, Real.sin_pi_sub, Real.sin_pi_div_three]
  rw [Real.cos_add, Real.cos_sub, hcs, hsn]
  have h1 := Real.sin_sq_add_cos_sq (cth a2 a1 a0 / 3)
  have h3 : Real.sqrt 3 ^ 2 = 3 := Real.sq_sqrt (by norm_num)
  generalize Real.cos (cth a2 a1 a0 / 3) = c at *
  generalize Real.sin (cth a2 a1 a0 / 3) = n at *
  generalize Real.sqrt 3 = t at *
  generalize Real.sqrt (cq a2 a1) = s at *
  generalize cr a2 a1 a0 = r at *
  generalize cq a2 a1 = q at *
  have key : (z + a2 / 3 - (-2) * s * c) * (z + a2 / 3 - (-2) * s * (c * -(1 / 2) - n * (t / 2)))
      * (z + a2 / 3 - (-2) * s * (c * -(1 / 2) + n * (t / 2))) = 0 := by
    have hn : n ^ 2 = 1 - c ^ 2 := by linarith
    subst hs
    generalize z + a2 / 3 = y at *
    have : (y - (-2) * s * c) * (y - (-2) * s * (c * -(1 / 2) - n * (t / 2))) * (y - (-2) * s * (c * -(1 / 2) + n * (t / 2)))
        = (y + 2 * s * c) * ((y - s * c) ^ 2 - s ^ 2 * n ^ 2 * t ^ 2) := by ring
    rw [this, hn, h3]
    linear_combination hz + 2 * hc3
  rcases mul_eq_zero.mp key with hk | hk
  · rcases mul_eq_zero.mp hk with hk | hk
    · left; linarith
    · right; left; linarith
  · right; right; linarith

/-- The single root depends differentiably on the coefficients. -/
lemma oneRoot_diff {f2 f1 f0 : ℝ → ℝ} {x : ℝ} (h2 : DifferentiableAt ℝ f2 x) (h1 : DifferentiableAt ℝ f1 x) (h0 : DifferentiableAt ℝ f0 x)
    (hd : cq (f2 x) (f1 x) ^ 3 < cr (f2 x) (f1 x) (f0 x) ^ 2) (hr : cr (f2 x) (f1 x) (f0 x) ≠ 0) :
    DifferentiableAt ℝ (fun t => oneRoot (f2 t) (f1 t) (f0 t)) x := by
  have dq : DifferentiableAt ℝ (fun t => cq (f2 t) (f1 t)) x := by unfold cq; fun_prop
  have dr : DifferentiableAt ℝ (fun t => cr (f2 t) (f1 t) (f0 t)) x := by unfold cr; fun_prop
  have dra : DifferentiableAt ℝ (fun t => |cr (f2 t) (f1 t) (f0 t)|) x := dr.abs hr
  have hap : 0 < |cr (f2 x) (f1 x) (f0 x)| := abs_pos.mpr hr
  have ds : DifferentiableAt ℝ (fun t => Real.sqrt (cr (f2 t) (f1 t) (f0 t) ^ 2 - cq (f2 t) (f1 t) ^ 3)) x := by
    apply DifferentiableAt.sqrt (by fun_prop)
    exact (sub_pos.mpr hd).ne'
  have hu : 0 < |cr (f2 x) (f1 x) (f0 x)| + Real.sqrt (cr (f2 x) (f1 x) (f0 x) ^ 2 - cq (f2 x) (f1 x) ^ 3) := by
    have := Real.sqrt_nonneg (cr (f2 x) (f1 x) (f0 x) ^ 2 - cq (f2 x) (f1 x) ^ 3); linarith
  have dp : DifferentiableAt ℝ (fun t => (|cr (f2 t) (f1 t) (f0 t)|
      + Real.sqrt (cr (f2 t) (f1 t) (f0 t) ^ 2 - cq (f2 t) (f1 t) ^ 3)) ^ (1 / 3 : ℝ)) x :=
    (dra.add ds).rpow_const (Or.inl hu.ne')
  have dac : DifferentiableAt ℝ (fun t => (-1) * cr (f2 t) (f1 t) (f0 t) / |cr (f2 t) (f1 t) (f0 t)| * (|cr (f2 t) (f1 t) (f0 t)|
      + Real.sqrt (cr (f2 t) (f1 t) (f0 t) ^ 2 - cq (f2 t) (f1 t) ^ 3)) ^ (1 / 3 : ℝ)) x :=
    ((dr.const_mul (-1)).div dra hap.ne').mul dp
  unfold oneRoot
  dsimp only
  apply DifferentiableAt.sub (dac.add (dq.div dac _)) (h2.div_const 3)
  refine mul_ne_zero (div_ne_zero (mul_ne_zero (by norm_num) hr) hap.ne') (Real.rpow_pos_of_pos hu _).ne'

/-! ### Residual functions of a cubic equation of state -/

section
variable {R T P a b u w : ℝ}

/-- The residual Gibbs energy of `P = RT/(v-b) - a/((v+ub)(v+wb))`. -/
noncomputable def gres (R u w P T a b v : ℝ) : ℝ :=
  P * v - R * T - R * T * Real.log (P * (v - b) / (R * T)) - a / (b * (u - w)) * Real.log ((v + u * b) / (v + w * b))

lemma log_part {v : ℝ → ℝ} {v' x : ℝ} (hv : HasDerivAt v v' x) (h1 : 0 < v x + u * b) (h2 : 0 < v x + w * b) :
    HasDerivAt (fun t => Real.log ((v t + u * b) / (v t + w * b))) (-(b * (u - w)) * v' / ((v x + u * b) * (v x + w * b))) x := by
  have := ((hv.add_const (u * b)).fun_div (hv.add_const (w * b)) h2.ne').log (by positivity)
  refine this.congr_deriv ?_
  field_simp
  ring

lemma gres_P {v : ℝ → ℝ} {v' : ℝ} (hR : 0 < R) (hT : 0 < T) (hP : 0 < P) (hb : 0 < b) (huw : u ≠ w) (hv : HasDerivAt v v' P)
    (h0 : b < v P) (h1 : 0 < v P + u * b) (h2 : 0 < v P + w * b)
    (eos : P = R * T / (v P - b) - a / ((v P + u * b) * (v P + w * b))) :
    HasDerivAt (fun p => gres R u w p T a b (v p)) (v P - R * T / P) P := by
  have hvb : 0 < v P - b := by linarith
  have huw' : u - w ≠ 0 := sub_ne_zero.mpr huw
  have l1 : HasDerivAt (fun p => Real.log (p * (v p - b) / (R * T))) (1 / P + v' / (v P - b)) P := by
    have := (((hasDerivAt_id' P).fun_mul (hv.sub_const b)).div_const (R * T)).log (by positivity)
    refine this.congr_deriv ?_
    field_simp
  have l2 := log_part (u := u) (w := w) (b := b) hv h1 h2
  have := ((((hasDerivAt_id' P).fun_mul hv).sub_const (R * T)).fun_sub (l1.const_mul (R * T))).fun_sub (l2.const_mul (a / (b * (u - w))))
  unfold gres
  refine this.congr_deriv ?_
  have e : a / (b * (u - w)) * (-(b * (u - w)) * v' / ((v P + u * b) * (v P + w * b))) = -(a / ((v P + u * b) * (v P + w * b))) * v' := by
    field_simp
  rw [e]
  have e2 : R * T * (1 / P + v' / (v P - b)) = R * T / P + R * T / (v P - b) * v' := by ring
  rw [e2]
  generalize R * T / (v P - b) = X at *
  generalize a / ((v P + u * b) * (v P + w * b)) = Y at *
  linear_combination v' * eos

lemma gres_T {v A : ℝ → ℝ} {v' a' : ℝ} (hR : 0 < R) (hT : 0 < T) (hP : 0 < P) (hb : 0 < b) (huw : u ≠ w) (hv : HasDerivAt v v' T)
    (hA : HasDerivAt A a' T) (h0 : b < v T) (h1 : 0 < v T + u * b) (h2 : 0 < v T + w * b)
    (eos : P = R * T / (v T - b) - A T / ((v T + u * b) * (v T + w * b))) :
    HasDerivAt (fun t => gres R u w P t (A t) b (v t))
      (-R * Real.log (P * (v T - b) / (R * T)) - a' / (b * (u - w)) * Real.log ((v T + u * b) / (v T + w * b))) T := by
  have hvb : 0 < v T - b := by linarith
  have huw' : u - w ≠ 0 := sub_ne_zero.mpr huw
  have l1 : HasDerivAt (fun t => Real.log (P * (v t - b) / (R * t))) (v' / (v T - b) - 1 / T) T := by
    have := (((hv.sub_const b).const_mul P).fun_div ((hasDerivAt_id' T).const_mul R) (by positivity)).log
      (by positivity)
    refine this.congr_deriv ?_
    field_simp
  have l2 := log_part (u := u) (w := w) (b := b) hv h1 h2
  have := (((hv.const_mul P).fun_sub ((hasDerivAt_id' T).const_mul R)).fun_sub
    (((hasDerivAt_id' T).const_mul R).fun_mul l1)).fun_sub ((hA.div_const (b * (u - w))).fun_mul l2)
  unfold gres
  refine this.congr_deriv ?_
  have e : A T / (b * (u - w)) * (-(b * (u - w)) * v' / ((v T + u * b) * (v T + w * b))) = -(A T / ((v T + u * b) * (v T + w * b))) * v' := by
    field_simp
  rw [e]
  have e2 : R * T * (v' / (v T - b) - 1 / T) = R * T / (v T - b) * v' - R := by field_simp
  rw [e2]
  generalize R * T / (v T - b) = X at *
  generalize A T / ((v T + u * b) * (v T + w * b)) = Y at *
  linear_combination v' * eos

/-- The residual enthalpy. -/
noncomputable def hres (R u w P T a a' b v : ℝ) : ℝ :=
  P * v - R * T - (a - T * a') / (b * (u - w)) * Real.log ((v + u * b) / (v + w * b))

/-- `G/T` has the derivative `-H/T²`. -/
lemma gres_over_T {v A : ℝ → ℝ} {v' a' : ℝ} (hR : 0 < R) (hT : 0 < T) (hP : 0 < P) (hb : 0 < b) (huw : u ≠ w) (hv : HasDerivAt v v' T)
    (hA : HasDerivAt A a' T) (h0 : b < v T) (h1 : 0 < v T + u * b) (h2 : 0 < v T + w * b)
    (eos : P = R * T / (v T - b) - A T / ((v T + u * b) * (v T + w * b))) :
    HasDerivAt (fun t => gres R u w P t (A t) b (v t) / t) (-hres R u w P T (A T) a' b (v T) / T ^ 2) T := by
  have := (gres_T hR hT hP hb huw hv hA h0 h1 h2 eos).fun_div (hasDerivAt_id' T) hT.ne'
  refine this.congr_deriv ?_
  unfold hres gres
  congr 1
  have huw' : u - w ≠ 0 := sub_ne_zero.mpr huw
  field_simp
  ring

/-- The derivative of the volume from the equation of state. -/
lemma vol_T {v A : ℝ → ℝ} {v' a' : ℝ} (hv : HasDerivAt v v' T)
    (hA : HasDerivAt A a' T) (h0 : b < v T) (h1 : 0 < v T + u * b) (h2 : 0 < v T + w * b)
    (eos : ∀ᶠ t in nhds T, P = R * t / (v t - b) - A t / ((v t + u * b) * (v t + w * b))) :
    (R / (v T - b) - a' / ((v T + u * b) * (v T + w * b)))
      + (-R * T / (v T - b) ^ 2 + A T * (2 * v T + (u + w) * b) / ((v T + u * b) * (v T + w * b)) ^ 2) * v' = 0 := by
  have hvb : v T - b ≠ 0 := by linarith
  have hd := (((hasDerivAt_id' T).const_mul R).fun_div (hv.sub_const b) hvb).fun_sub
    (hA.fun_div ((hv.add_const (u * b)).fun_mul (hv.add_const (w * b))) (by positivity))
  have hc : HasDerivAt (fun t => R * t / (v t - b) - A t / ((v t + u * b) * (v t + w * b))) 0 T :=
    (hasDerivAt_const T P).congr_of_eventuallyEq (eos.mono fun t ht => ht.symm)
  have := hd.unique hc
  rw [← this]
  have h1' := h1.ne'
  have h2' := h2.ne'
  rw [show 2 * v T + (u + w) * b = (v T + u * b) + (v T + w * b) by ring]
  clear this hd hc eos
  generalize v T + u * b = x at *
  generalize v T + w * b = x' at *
  generalize v T - b = y at *
  field_simp
  ring

/-- The derivative of the residual enthalpy. -/
lemma hres_T {v A A' : ℝ → ℝ} {v' a' a'' : ℝ} (hb : 0 < b) (huw : u ≠ w) (hv : HasDerivAt v v' T)
    (hA : HasDerivAt A (A' T) T) (hA' : HasDerivAt A' a'' T) (h1 : 0 < v T + u * b) (h2 : 0 < v T + w * b) (_ : a' = A' T) :
    HasDerivAt (fun t => hres R u w P t (A t) (A' t) b (v t))
      (T * a'' / (b * (u - w)) * Real.log ((v T + u * b) / (v T + w * b)) - R
        + (P + (A T - T * A' T) / ((v T + u * b) * (v T + w * b))) * v') T := by
  have huw' : u - w ≠ 0 := sub_ne_zero.mpr huw
  have l2 := log_part (u := u) (w := w) (b := b) hv h1 h2
  have := ((hv.const_mul P).fun_sub ((hasDerivAt_id' T).const_mul R)).fun_sub
    (((hA.fun_sub ((hasDerivAt_id' T).fun_mul hA')).div_const (b * (u - w))).fun_mul l2)
  unfold hres
  refine this.congr_deriv ?_
  field_simp
  ring

end

end ThermoFun.Gas
