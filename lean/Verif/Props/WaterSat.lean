import Verif.Model.WaterSat
import Verif.Lemmas.Carries
import Verif.Lemmas.PolyCover
import Mathlib.Analysis.Calculus.Deriv.MeanValue

/-!
C135, C136: the saturation curves of water and the start of the density search.
-/

namespace ThermoFun

open WP

/-! ### The published curves -/

/-- 1 - T/Tc. -/
noncomputable def theta95 (T : ℝ) : ℝ := 1 - T / 647.096

/-- Wagner and Pruss (1993), vapour pressure. -/
noncomputable def psat95 (T : ℝ) : ℝ :=
  22.064e6 * Real.exp (647.096 / T * (-7.85951783 * theta95 T + 1.84408259 * theta95 T ^ (1.5 : ℝ) - 11.7866497 * theta95 T ^ (3 : ℝ) +
    22.6807411 * theta95 T ^ (3.5 : ℝ) - 15.9618719 * theta95 T ^ (4 : ℝ) + 1.80122502 * theta95 T ^ (7.5 : ℝ)))

/-- Wagner and Pruss (1993), density of the saturated liquid. -/
noncomputable def dliq95 (T : ℝ) : ℝ :=
  322 * (1 + 1.99274064 * theta95 T ^ (1 / 3 : ℝ) + 1.09965342 * theta95 T ^ (2 / 3 : ℝ) - 0.510839303 * theta95 T ^ (5 / 3 : ℝ) -
    1.75493479 * theta95 T ^ (16 / 3 : ℝ) - 45.5170352 * theta95 T ^ (43 / 3 : ℝ) - 6.74694450e5 * theta95 T ^ (110 / 3 : ℝ))

/-- Wagner and Pruss (1993), density of the saturated vapour. -/
noncomputable def dvap95 (T : ℝ) : ℝ :=
  322 * Real.exp (647.096 / T * (-2.03150240 * theta95 T ^ (2 / 6 : ℝ) - 2.68302940 * theta95 T ^ (4 / 6 : ℝ) -
    5.38626492 * theta95 T ^ (8 / 6 : ℝ) - 17.2991605 * theta95 T ^ (18 / 6 : ℝ) - 44.7586581 * theta95 T ^ (37 / 6 : ℝ) -
    63.9201063 * theta95 T ^ (71 / 6 : ℝ)))

/-! ### The code computes them -/

lemma theta95_nonneg {T : ℝ} (h : T ≤ 647.096) : 0 ≤ theta95 T := by
  rw [theta95, sub_nonneg, div_le_one (by norm_num)]; exact h

lemma theta95_pos {T : ℝ} (h : T < 647.096) : 0 < theta95 T := by
  rw [theta95, sub_pos, div_lt_one (by norm_num)]; exact h

lemma powR_val (a : TS) (c : ℝ) : (TS.powR a c).val = a.val ^ c := by
  simp only [TS.powR]; split <;> rfl

lemma rpow_eq_pow {t : ℝ} (h : 0 ≤ t) (a b : ℝ) (n : ℕ) (e : a = b * n) : t ^ a = (t ^ b) ^ n := by
  rw [e, Real.rpow_mul_natCast h]

lemma satPressure_val {T : ℝ} (h : T ≤ 647.096) : (satPressure (TS.temperature T)).val = psat95 T := by
  have h0 := theta95_nonneg h
  have e : (theta95 T) = (theta95 T ^ (0.5 : ℝ)) ^ 2 := by
    rw [← Real.rpow_mul_natCast h0]; norm_num
  simp only [satPressure, TS.op_val_mulL, TS.op_val_mul, TS.op_val_add, TS.op_val_divL, TS.op_val_divR, TS.op_val_subL, powR_val,
    show ∀ a : TS, (TS.exp a).val = Real.exp a.val from fun _ => rfl, show (TS.temperature T).val = T from rfl, critT, waterCriticalPressure, psat95]
  rw [show (1 : ℝ) - T / 647.096 = theta95 T from rfl, rpow_eq_pow h0 1.5 0.5 3 (by norm_num), rpow_eq_pow h0 3 0.5 6 (by norm_num),
    rpow_eq_pow h0 3.5 0.5 7 (by norm_num), rpow_eq_pow h0 4 0.5 8 (by norm_num), rpow_eq_pow h0 7.5 0.5 15 (by norm_num)]
  generalize theta95 T ^ (0.5 : ℝ) = s at *
  rw [e]
  congr 2
  ring

lemma satLiquid_val {T : ℝ} (h : T ≤ 647.096) : (satLiquid (TS.temperature T)).val = dliq95 T := by
  have h0 := theta95_nonneg h
  have e : (theta95 T) = (theta95 T ^ (1 / 3 : ℝ)) ^ 3 := by
    rw [← Real.rpow_mul_natCast h0]; norm_num
  simp only [satLiquid, TS.op_val_mulL, TS.op_val_mul, TS.op_val_add, TS.op_val_addL, TS.op_val_divR, TS.op_val_subL, powR_val,
    show (TS.temperature T).val = T from rfl, critT, critD, dliq95]
  rw [show (1 : ℝ) - T / 647.096 = theta95 T from rfl, rpow_eq_pow h0 (2 / 3) (1 / 3) 2 (by norm_num),
    rpow_eq_pow h0 (5 / 3) (1 / 3) 5 (by norm_num), rpow_eq_pow h0 (16 / 3) (1 / 3) 16 (by norm_num),
    rpow_eq_pow h0 (43 / 3) (1 / 3) 43 (by norm_num), rpow_eq_pow h0 (110 / 3) (1 / 3) 110 (by norm_num)]
  generalize theta95 T ^ (1 / 3 : ℝ) = s at *
  rw [e, show (322.0 : ℝ) = 322 by norm_num]
  ring

lemma satVapour_val {T : ℝ} (h : T ≤ 647.096) : (satVapour (TS.temperature T)).val = dvap95 T := by
  have h0 := theta95_nonneg h
  simp only [satVapour, TS.op_val_mulL, TS.op_val_mul, TS.op_val_add, TS.op_val_divL, TS.op_val_divR, TS.op_val_subL, powR_val,
    show ∀ a : TS, (TS.exp a).val = Real.exp a.val from fun _ => rfl, show (TS.temperature T).val = T from rfl, critT, critD, dvap95]
  rw [show (1 : ℝ) - T / 647.096 = theta95 T from rfl, rpow_eq_pow h0 (2 / 6) (1 / 6) 2 (by norm_num),
    rpow_eq_pow h0 (4 / 6) (1 / 6) 4 (by norm_num), rpow_eq_pow h0 (8 / 6) (1 / 6) 8 (by norm_num),
    rpow_eq_pow h0 (18 / 6) (1 / 6) 18 (by norm_num), rpow_eq_pow h0 (37 / 6) (1 / 6) 37 (by norm_num),
    rpow_eq_pow h0 (71 / 6) (1 / 6) 71 (by norm_num)]
  generalize theta95 T ^ (1 / 6 : ℝ) = s at *
  norm_num only
  congr 2
  ring

lemma theta_ne {T : ℝ} (h1 : T < 647.096) : ((1 : ℝ) - TS.temperature T / critT).val ≠ 0 := by
  rw [TS.op_val_subL, TS.op_val_divR]; exact (theta95_pos h1).ne'

lemma satPressure_carries {T P : ℝ} (h0 : 0 < T) (h1 : T < 647.096) : Carries (fun t _ => satPressure (TS.temperature t)) T P := by
  have hT : Carries (fun t _ => TS.temperature t) T P := Carries.temp
  have ht := (hT.divR critT).subL 1
  have hv : ((1 : ℝ) - TS.temperature T / critT).val ≠ 0 := theta_ne h1
  have h15 := ht.powR 1.5 (.inl hv)
  exact ((hT.divL critT h0.ne').mul ((((((ht.mulL _).add (h15.mulL _)).add ((h15.mul h15).mulL _)).add (((h15.mul ht).mul ht).mulL _)).add
    (((h15.mul h15).mul ht).mulL _)).add ((((h15.mul ht).mul ht).mul ((h15.mul h15).mul ht)).mulL _))).exp.mulL _

lemma satLiquid_carries {T P : ℝ} (h1 : T < 647.096) : Carries (fun t _ => satLiquid (TS.temperature t)) T P := by
  have hT : Carries (fun t _ => TS.temperature t) T P := Carries.temp
  have ht := (hT.divR critT).subL 1
  have hv : ((1 : ℝ) - TS.temperature T / critT).val ≠ 0 := theta_ne h1
  have h13 := ht.powR (1 / 3) (.inl hv)
  have h23 := h13.mul h13
  have h53 := (h13.mul h23).mul h23
  have h163 := ((h13.mul h53).mul h53).mul h53
  have h433 := (((h163.mul h163).mul h53).mul ht).mul ht
  have h1103 := (((h433.mul h433).mul h163).mul h53).mul ht
  exact (((((((h13.mulL _).addL 1).add (h23.mulL _)).add (h53.mulL _)).add (h163.mulL _)).add (h433.mulL _)).add (h1103.mulL _)).mulL _

lemma satVapour_carries {T P : ℝ} (h0 : 0 < T) (h1 : T < 647.096) : Carries (fun t _ => satVapour (TS.temperature t)) T P := by
  have hT : Carries (fun t _ => TS.temperature t) T P := Carries.temp
  have ht := (hT.divR critT).subL 1
  have hv : ((1 : ℝ) - TS.temperature T / critT).val ≠ 0 := theta_ne h1
  have h16 := ht.powR (1 / 6) (.inl hv)
  have h26 := h16.mul h16
  have h46 := h26.mul h26
  have h86 := h46.mul h46
  have h186 := (h86.mul h86).mul h26
  have h376 := (h186.mul h186).mul h16
  have h716 := ((h376.mul h186).mul h86).mul h86
  exact ((hT.divL critT h0.ne').mul ((((((h26.mulL _).add (h46.mulL _)).add (h86.mulL _)).add (h186.mulL _)).add (h376.mulL _)).add
    (h716.mulL _))).exp.mulL _

/-! ### Signs and order -/

/-- The bracket of the vapour pressure divided by θ, as a polynomial in √θ. -/
def psatPoly : List (ℚ × ℕ) :=
  [(-7.85951783, 0), (1.84408259, 1), (-11.7866497, 4), (22.6807411, 5), (-15.9618719, 6), (1.80122502, 13)]

/-- The numerator of the derivative of θ·`psatPoly`/(1 - θ) by √θ, divided by √θ. -/
def psatSlope : List (ℚ × ℕ) :=
  [(2 * -7.85951783, 0), (3 * 1.84408259, 1), (-1.84408259, 3), (6 * -11.7866497, 4), (7 * 22.6807411, 5), (8 * -15.9618719 - 4 * -11.7866497, 6),
    (-5 * 22.6807411, 7), (-6 * -15.9618719, 8), (15 * 1.80122502, 13), (-13 * 1.80122502, 15)]

/-- The liquid density curve: 1 - ρ/ρc divided by θ^(1/3), as a polynomial in θ^(1/3). -/
def dliqPoly : List (ℚ × ℕ) :=
  [(-1.99274064, 0), (-1.09965342, 1), (0.510839303, 4), (1.75493479, 15), (45.5170352, 42), (6.74694450e5, 109)]

lemma psatPoly_neg {s : ℝ} (h0 : 0 ≤ s) (h1 : s ≤ 39 / 50) : Poly.eval psatPoly s < 0 :=
  Poly.neg_of_cover psatPoly 50 39 (by norm_num) (by decide +kernel) s h0 (by exact_mod_cast h1) (by norm_num)

lemma psatSlope_neg {s : ℝ} (h0 : 0 ≤ s) (h1 : s ≤ 39 / 50) : Poly.eval psatSlope s < 0 :=
  Poly.neg_of_cover psatSlope 50 39 (by norm_num) (by decide +kernel) s h0 (by exact_mod_cast h1) (by norm_num)

lemma dliqPoly_neg {s : ℝ} (h0 : 0 ≤ s) (h1 : s ≤ 43 / 50) : Poly.eval dliqPoly s < 0 :=
  Poly.neg_of_cover dliqPoly 50 43 (by norm_num) (by decide +kernel) s h0 (by exact_mod_cast h1) (by norm_num)

/-- ln(psat/pc) as a function of √θ. -/
noncomputable def lnPsat (s : ℝ) : ℝ := s ^ 2 * Poly.eval psatPoly s / (1 - s ^ 2)

lemma lnPsat_anti : StrictAntiOn lnPsat (Set.Icc 0 (39 / 50)) := by
  have hd : ∀ s ∈ Set.Icc (0 : ℝ) (39 / 50), HasDerivAt lnPsat (s * Poly.eval psatSlope s / (1 - s ^ 2) ^ 2) s := by
    intro s hs
    have h1 : (1 - s ^ 2 : ℝ) ≠ 0 := by nlinarith [hs.1, hs.2]
    have e : lnPsat = fun s => (-7.85951783 * s ^ 2 + 1.84408259 * s ^ 3 + -11.7866497 * s ^ 6 + 22.6807411 * s ^ 7 + -15.9618719 * s ^ 8 +
        1.80122502 * s ^ 15) / (1 - s ^ 2) := by
      funext s; simp only [lnPsat, psatPoly, Poly.eval, List.map, List.sum_cons, List.sum_nil]; push_cast; congr 1; ring
    rw [e]
    have hp : ∀ (c : ℝ) (n : ℕ), HasDerivAt (fun s : ℝ => c * s ^ n) (c * (n * s ^ (n - 1))) s := fun c n => (hasDerivAt_pow n s).const_mul c
    have hn := (((((hp (-7.85951783) 2).fun_add (hp 1.84408259 3)).fun_add (hp (-11.7866497) 6)).fun_add (hp 22.6807411 7)).fun_add
      (hp (-15.9618719) 8)).fun_add (hp 1.80122502 15)
    refine (hn.fun_div ((hasDerivAt_pow 2 s).const_sub 1) h1).congr_deriv ?_
    simp only [psatSlope, Poly.eval, List.map, List.sum_cons, List.sum_nil]
    push_cast
    congr 1
    ring
  refine strictAntiOn_of_deriv_neg (convex_Icc _ _) (fun s hs => (hd s hs).continuousAt.continuousWithinAt) ?_
  intro s hs
  rw [interior_Icc] at hs
  have hs' : s ∈ Set.Icc (0 : ℝ) (39 / 50) := ⟨hs.1.le, hs.2.le⟩
  rw [(hd s hs').deriv]
  have h1 : 0 < (1 - s ^ 2 : ℝ) := by nlinarith [hs.1, hs.2]
  exact div_neg_of_neg_of_pos (mul_neg_of_pos_of_neg hs.1 (psatSlope_neg hs'.1 hs'.2)) (by positivity)

lemma psat95_eq {T : ℝ} (h0 : 0 < T) (h : T ≤ 647.096) : psat95 T = 22.064e6 * Real.exp (lnPsat (theta95 T ^ (0.5 : ℝ))) := by
  have ht := theta95_nonneg h
  have e : (theta95 T) = (theta95 T ^ (0.5 : ℝ)) ^ 2 := by
    rw [← Real.rpow_mul_natCast ht]; norm_num
  have e2 : 647.096 / T = 1 / (1 - theta95 T) := by rw [theta95, sub_sub_cancel, one_div_div]
  rw [psat95, e2, rpow_eq_pow ht 1.5 0.5 3 (by norm_num), rpow_eq_pow ht 3 0.5 6 (by norm_num),
    rpow_eq_pow ht 3.5 0.5 7 (by norm_num), rpow_eq_pow ht 4 0.5 8 (by norm_num), rpow_eq_pow ht 7.5 0.5 15 (by norm_num)]
  generalize theta95 T ^ (0.5 : ℝ) = s at *
  rw [e]
  simp only [lnPsat, psatPoly, Poly.eval, List.map, List.sum_cons, List.sum_nil]
  push_cast
  congr 2
  ring

lemma root_mem {T : ℝ} (h0 : 255 ≤ T) (h : T ≤ 647.096) : theta95 T ^ (0.5 : ℝ) ∈ Set.Icc (0 : ℝ) (39 / 50) := by
  have ht := theta95_nonneg h
  refine ⟨Real.rpow_nonneg ht _, ?_⟩
  have e : theta95 T = (theta95 T ^ (0.5 : ℝ)) ^ 2 := by
    rw [← Real.rpow_mul_natCast ht]; norm_num
  have : theta95 T ≤ 0.606 := by rw [theta95]; linarith [div_le_div_of_nonneg_right h0 (by norm_num : (0 : ℝ) ≤ 647.096), (by norm_num : (0.394 : ℝ) ≤ 255 / 647.096)]
  refine le_of_pow_le_pow_left₀ (n := 2) (by norm_num) (by norm_num) ?_
  rw [← e]; norm_num; linarith

lemma cbrt_mem {T : ℝ} (h0 : 255 ≤ T) (h : T ≤ 647.096) : theta95 T ^ (1 / 3 : ℝ) ∈ Set.Icc (0 : ℝ) (43 / 50) := by
  have ht := theta95_nonneg h
  refine ⟨Real.rpow_nonneg ht _, ?_⟩
  have e : theta95 T = (theta95 T ^ (1 / 3 : ℝ)) ^ 3 := by
    rw [← Real.rpow_mul_natCast ht]; norm_num
  have : theta95 T ≤ 0.606 := by rw [theta95]; linarith [div_le_div_of_nonneg_right h0 (by norm_num : (0 : ℝ) ≤ 647.096), (by norm_num : (0.394 : ℝ) ≤ 255 / 647.096)]
  refine le_of_pow_le_pow_left₀ (n := 3) (by norm_num) (by norm_num) ?_
  rw [← e]; norm_num; linarith

lemma psat95_strictMono : StrictMonoOn psat95 (Set.Icc 255 647.096) := by
  intro x hx y hy hxy
  rw [psat95_eq (by linarith [hx.1]) hx.2, psat95_eq (by linarith [hy.1]) hy.2]
  refine mul_lt_mul_of_pos_left (Real.exp_lt_exp.2 (lnPsat_anti (root_mem hy.1 hy.2) (root_mem hx.1 hx.2) ?_)) (by norm_num)
  refine Real.rpow_lt_rpow (theta95_nonneg hy.2) ?_ (by norm_num)
  rw [theta95, theta95]
  have := div_lt_div_of_pos_right hxy (by norm_num : (0 : ℝ) < 647.096)
  linarith

lemma psat95_crit : psat95 647.096 = 22.064e6 := by
  rw [psat95_eq (by norm_num) le_rfl]
  have : theta95 647.096 = 0 := by norm_num [theta95]
  rw [this, Real.zero_rpow (by norm_num)]
  simp [lnPsat]

lemma dliq95_gt {T : ℝ} (h0 : 255 ≤ T) (h : T < 647.096) : 322 < dliq95 T := by
  have ht := theta95_pos h
  have h1 := cbrt_mem h0 h.le
  have hp := dliqPoly_neg h1.1 h1.2
  have hs : 0 < theta95 T ^ (1 / 3 : ℝ) := Real.rpow_pos_of_pos ht _
  have e : dliq95 T = 322 * (1 - theta95 T ^ (1 / 3 : ℝ) * Poly.eval dliqPoly (theta95 T ^ (1 / 3 : ℝ))) := by
    rw [dliq95, rpow_eq_pow ht.le (2 / 3) (1 / 3) 2 (by norm_num),
      rpow_eq_pow ht.le (5 / 3) (1 / 3) 5 (by norm_num), rpow_eq_pow ht.le (16 / 3) (1 / 3) 16 (by norm_num),
      rpow_eq_pow ht.le (43 / 3) (1 / 3) 43 (by norm_num), rpow_eq_pow ht.le (110 / 3) (1 / 3) 110 (by norm_num)]
    simp only [dliqPoly, Poly.eval, List.map, List.sum_cons, List.sum_nil]
    push_cast
    ring
  rw [e]
  nlinarith [mul_neg_of_pos_of_neg hs hp]

lemma dvap95_pos (T : ℝ) : 0 < dvap95 T := mul_pos (by norm_num) (Real.exp_pos _)

lemma dvap95_strictMono : StrictMonoOn dvap95 (Set.Ioc 0 647.096) := by
  intro x hx y hy hxy
  have h1 := theta95_nonneg hy.2
  have h2 : theta95 y < theta95 x := by
    rw [theta95, theta95]
    have := div_lt_div_of_pos_right hxy (by norm_num : (0 : ℝ) < 647.096)
    linarith
  have hp : ∀ a : ℝ, 0 < a → theta95 y ^ a < theta95 x ^ a := fun a ha => Real.rpow_lt_rpow h1 h2 ha
  have hn : ∀ a : ℝ, 0 ≤ theta95 y ^ a := fun a => Real.rpow_nonneg h1 a
  refine mul_lt_mul_of_pos_left (Real.exp_lt_exp.2 ?_) (by norm_num)
  have hT : 647.096 / y ≤ 647.096 / x := div_le_div_of_nonneg_left (by norm_num) hx.1 hxy.le
  have hT0 : 0 < 647.096 / y := div_pos (by norm_num) hy.1
  have i1 := hp (2 / 6) (by norm_num)
  have i2 := hp (4 / 6) (by norm_num)
  have i3 := hp (8 / 6) (by norm_num)
  have i4 := hp (18 / 6) (by norm_num)
  have i5 := hp (37 / 6) (by norm_num)
  have i6 := hp (71 / 6) (by norm_num)
  have j1 := hn (2 / 6)
  have j2 := hn (4 / 6)
  have j3 := hn (8 / 6)
  have j4 := hn (18 / 6)
  have j5 := hn (37 / 6)
  have j6 := hn (71 / 6)
  set A := -2.03150240 * theta95 x ^ (2 / 6 : ℝ) - 2.68302940 * theta95 x ^ (4 / 6 : ℝ) -
    5.38626492 * theta95 x ^ (8 / 6 : ℝ) - 17.2991605 * theta95 x ^ (18 / 6 : ℝ) - 44.7586581 * theta95 x ^ (37 / 6 : ℝ) -
    63.9201063 * theta95 x ^ (71 / 6 : ℝ) with hA
  set B := -2.03150240 * theta95 y ^ (2 / 6 : ℝ) - 2.68302940 * theta95 y ^ (4 / 6 : ℝ) -
    5.38626492 * theta95 y ^ (8 / 6 : ℝ) - 17.2991605 * theta95 y ^ (18 / 6 : ℝ) - 44.7586581 * theta95 y ^ (37 / 6 : ℝ) -
    63.9201063 * theta95 y ^ (71 / 6 : ℝ) with hB
  have hAB : A < B := by rw [hA, hB]; linarith
  have hB0 : B ≤ 0 := by rw [hB]; linarith
  have hA0 : A ≤ 0 := (hAB.trans_le hB0).le
  calc 647.096 / x * A ≤ 647.096 / y * A := mul_le_mul_of_nonpos_right hT hA0
    _ < 647.096 / y * B := mul_lt_mul_of_pos_left hAB hT0

lemma dvap95_crit : dvap95 647.096 = 322 := by
  have : theta95 647.096 = 0 := by norm_num [theta95]
  simp only [dvap95, this]
  rw [Real.zero_rpow (by norm_num), Real.zero_rpow (by norm_num), Real.zero_rpow (by norm_num), Real.zero_rpow (by norm_num),
    Real.zero_rpow (by norm_num), Real.zero_rpow (by norm_num)]
  norm_num

/-! ### C135 -/

/-- **C135.**  Below the critical temperature the three saturation curves have the values of the published equations and carry their exact
derivatives; from 255 K to the critical temperature the vapour pressure and the vapour density increase strictly, the pressure stays below
the critical pressure, and the critical density separates the vapour from the liquid. -/
theorem C135_curves :
    (∀ T P : ℝ, 0 < T → T < 647.096 →
      ((satPressure (TS.temperature T)).val = psat95 T ∧ (satLiquid (TS.temperature T)).val = dliq95 T ∧
        (satVapour (TS.temperature T)).val = dvap95 T) ∧
      Carries (fun t _ => satPressure (TS.temperature t)) T P ∧ Carries (fun t _ => satLiquid (TS.temperature t)) T P ∧
      Carries (fun t _ => satVapour (TS.temperature t)) T P) ∧
    (∀ T1 T2 : ℝ, 255 ≤ T1 → T1 < T2 → T2 ≤ 647.096 →
      (satPressure (TS.temperature T1)).val < (satPressure (TS.temperature T2)).val ∧
      (satVapour (TS.temperature T1)).val < (satVapour (TS.temperature T2)).val) ∧
    (∀ T : ℝ, 255 ≤ T → T < 647.096 → 0 < (satPressure (TS.temperature T)).val ∧ (satPressure (TS.temperature T)).val < 22.064e6 ∧
      0 < (satVapour (TS.temperature T)).val ∧ (satVapour (TS.temperature T)).val < 322 ∧ 322 < (satLiquid (TS.temperature T)).val) := by
  refine ⟨fun T P h0 h1 => ⟨⟨satPressure_val h1.le, satLiquid_val h1.le, satVapour_val h1.le⟩, satPressure_carries h0 h1, satLiquid_carries h1,
    satVapour_carries h0 h1⟩, fun T1 T2 h1 h12 h2 => ?_, fun T h0 h1 => ?_⟩
  · have h1' : T1 ≤ 647.096 := h12.le.trans h2
    rw [satPressure_val h1', satPressure_val h2, satVapour_val h1', satVapour_val h2]
    exact ⟨psat95_strictMono ⟨h1, h1'⟩ ⟨h1.trans h12.le, h2⟩ h12,
      dvap95_strictMono ⟨by linarith, h1'⟩ ⟨by linarith, h2⟩ h12⟩
  · rw [satPressure_val h1.le, satVapour_val h1.le, satLiquid_val h1.le]
    have hv := dvap95_strictMono ⟨by linarith, h1.le⟩ ⟨by norm_num, le_rfl⟩ h1
    have hp := psat95_strictMono ⟨h0, h1.le⟩ ⟨by norm_num, le_rfl⟩ h1
    rw [dvap95_crit] at hv
    rw [psat95_crit] at hp
    exact ⟨mul_pos (by norm_num) (Real.exp_pos _), hp, dvap95_pos T, hv, dliq95_gt h0 h1⟩

/-! ### C136 -/

lemma phase_req {T P : TS} {r : ℤ} (h : 0 ≤ r) (hc : T.val ≤ critT) : phase T P r = r := if_pos ⟨h, hc⟩

/-- At 25 and 100 °C, with the curve rising between. -/
example : (satPressure (TS.temperature 298.15)).val < (satPressure (TS.temperature 373.15)).val ∧
    (satLiquid (TS.temperature 298.15)).val = dliq95 298.15 :=
  ⟨(C135_curves.2.1 298.15 373.15 (by norm_num) (by norm_num) (by norm_num)).1,
    (C135_curves.1 298.15 0 (by norm_num) (by norm_num)).1.2.1⟩

/-- **C136, the part that holds.**  From 255 K to the critical temperature, when no state is asked for, the density search starts between 0
and the critical density if the pressure is below the vapour pressure, and above the critical density if not; a pressure of at least the
critical pressure always gives the liquid; if liquid (0) or vapour (1) is asked for, the start is on that side whatever the pressure; above
the critical temperature it starts at 99 % of the critical density.  Missing: the critical temperature itself, see `C136_refuted`. -/
theorem C136_partial (T P : ℝ) :
    (255 ≤ T → T < 647.096 →
      (∀ r < 0, P < psat95 T → 0 < (startDensity (TS.temperature T) (TS.pressure P) r).val ∧
        (startDensity (TS.temperature T) (TS.pressure P) r).val < 322) ∧
      (∀ r < 0, psat95 T ≤ P → 322 < (startDensity (TS.temperature T) (TS.pressure P) r).val) ∧
      (22.064e6 ≤ P → psat95 T ≤ P) ∧
      322 < (startDensity (TS.temperature T) (TS.pressure P) 0).val ∧
      0 < (startDensity (TS.temperature T) (TS.pressure P) 1).val ∧ (startDensity (TS.temperature T) (TS.pressure P) 1).val < 322) ∧
    (647.096 < T → ∀ r, (startDensity (TS.temperature T) (TS.pressure P) r).val = 318.78) := by
  have hTv : (TS.temperature T).val = T := rfl
  have hPv : (TS.pressure P).val = P := rfl
  refine ⟨fun h0 h1 => ?_, fun h r => ?_⟩
  · obtain ⟨hp0, hp, hv0, hv, hl⟩ := C135_curves.2.2 T h0 h1
    have hc : (TS.temperature T).val ≤ critT := h1.le
    have e0 : startDensity (TS.temperature T) (TS.pressure P) 0 = satLiquid (TS.temperature T) := by
      rw [startDensity, phase_req (by norm_num) hc]; rfl
    have e1 : startDensity (TS.temperature T) (TS.pressure P) 1 = satVapour (TS.temperature T) := by
      rw [startDensity, phase_req (by norm_num) hc]; rfl
    refine ⟨fun r hr hP => ?_, fun r hr hP => ?_, fun hP => ?_, by rw [e0]; exact hl, by rw [e1]; exact hv0, by rw [e1]; exact hv⟩
    · have hr' : ¬ (r ≥ 0 ∧ (TS.temperature T).val ≤ critT) := fun h => by omega
      have hs : (TS.pressure P).val < (satPressure (TS.temperature T)).val := by rw [satPressure_val h1.le]; exact hP
      have e : startDensity (TS.temperature T) (TS.pressure P) r = satVapour (TS.temperature T) := by
        simp only [startDensity, phase, if_neg hr', if_pos hc, if_pos hs]; rfl
      rw [e]; exact ⟨hv0, hv⟩
    · have hr' : ¬ (r ≥ 0 ∧ (TS.temperature T).val ≤ critT) := fun h => by omega
      have hs : ¬ (TS.pressure P).val < (satPressure (TS.temperature T)).val := by rw [satPressure_val h1.le, not_lt]; exact hP
      have e : startDensity (TS.temperature T) (TS.pressure P) r = satLiquid (TS.temperature T) := by
        simp only [startDensity, phase, if_neg hr', if_pos hc, if_neg hs]; rfl
      rw [e]; exact hl
    · rw [satPressure_val h1.le] at hp; linarith
  · have hc : ¬ (TS.temperature T).val ≤ critT := not_le.2 h
    have hr' : ¬ (r ≥ 0 ∧ (TS.temperature T).val ≤ critT) := fun h => hc h.2
    have e : startDensity (TS.temperature T) (TS.pressure P) r = TS.assign TS.default (critD * 0.99) := by
      simp only [startDensity, phase, if_neg hr', if_neg hc]; rfl
    rw [e]
    show critD * 0.99 = 318.78
    norm_num [critD]

/-- At 25 °C: 1 bar is above the vapour pressure's upper limit and the start is the liquid. -/
example : 322 < (startDensity (TS.temperature 298.15) (TS.pressure 2.5e7) (-1)).val :=
  ((C136_partial 298.15 2.5e7).1 (by norm_num) (by norm_num)).2.1 (-1) (by norm_num)
    (((C136_partial 298.15 2.5e7).1 (by norm_num) (by norm_num)).2.2.1 (by norm_num))

/-- **C136 does not hold** at the critical temperature: the search then starts exactly at the critical density, liquid or vapour, where the
reduced density is 1 and the critical terms of the Helmholtz function divide by δ - 1 = 0, which the source means to avoid; a state other than
0, 1, 2 that is asked for below the critical temperature gives the start 0, where the Helmholtz function divides by δ = 0. -/
theorem C136_refuted (P : ℝ) :
    (∀ r < 2, (startDensity (TS.temperature 647.096) (TS.pressure P) r).val / 322 - 1 = 0) ∧
    (∀ T < 647.096, (startDensity (TS.temperature T) (TS.pressure P) 3).val / 322 = 0) := by
  have hc : (TS.temperature 647.096).val ≤ critT := le_rfl
  have hθ : theta95 647.096 = 0 := by norm_num [theta95]
  have hl : (satLiquid (TS.temperature 647.096)).val = 322 := by
    rw [satLiquid_val le_rfl, dliq95, hθ]
    rw [Real.zero_rpow (by norm_num), Real.zero_rpow (by norm_num), Real.zero_rpow (by norm_num), Real.zero_rpow (by norm_num),
      Real.zero_rpow (by norm_num), Real.zero_rpow (by norm_num)]
    norm_num
  have hv : (satVapour (TS.temperature 647.096)).val = 322 := by rw [satVapour_val le_rfl, dvap95_crit]
  refine ⟨fun r hr => ?_, fun T hT => ?_⟩
  · have : startDensity (TS.temperature 647.096) (TS.pressure P) r = satLiquid (TS.temperature 647.096) ∨
        startDensity (TS.temperature 647.096) (TS.pressure P) r = satVapour (TS.temperature 647.096) := by
      by_cases h : r ≥ 0
      · have : r = 0 ∨ r = 1 := by omega
        rcases this with rfl | rfl
        · left; rw [startDensity, phase_req (by norm_num) hc]; rfl
        · right; rw [startDensity, phase_req (by norm_num) hc]; rfl
      · have hr' : ¬ (r ≥ 0 ∧ (TS.temperature 647.096).val ≤ critT) := fun h' => h h'.1
        by_cases hs : (TS.pressure P).val < (satPressure (TS.temperature 647.096)).val
        · right; simp only [startDensity, phase, if_neg hr', if_pos hc, if_pos hs]; rfl
        · left; simp only [startDensity, phase, if_neg hr', if_pos hc, if_neg hs]; rfl
    rcases this with h | h <;> rw [h]
    · rw [hl]; norm_num
    · rw [hv]; norm_num
  · have hc' : (TS.temperature T).val ≤ critT := hT.le
    have e : startDensity (TS.temperature T) (TS.pressure P) 3 = TS.default := by
      rw [startDensity, phase_req (by norm_num) hc']; rfl
    rw [e]
    show (0 : ℝ) / 322 = 0
    norm_num

end ThermoFun
