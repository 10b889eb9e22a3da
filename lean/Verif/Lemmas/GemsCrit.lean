import Verif.Model.GemsCrit
import Verif.Lemmas.Interval
import Mathlib.Analysis.Calculus.MeanValue
import Mathlib.Analysis.SpecialFunctions.Pow.Deriv

/-!
# The near-critical saturation curve of the gems water code

Closed forms for `Pfind` at saturation, its slope, and bounds for both between 639 K and the critical temperature.
-/

namespace ThermoFun

namespace Gems

namespace Crit

open WP (el)

/-- The temperature `Pfind` computes with. -/
noncomputable def adj (T : ℝ) : ℝ := if |T - Tc| < 1.0e-7 then Tc else T

/-- `dTw`. -/
noncomputable def xOf (T : ℝ) : ℝ := 1 + -Tc / T

/-- `r1` at saturation. -/
noncomputable def rOf (T : ℝ) : ℝ := xOf T / (1 - besq)

/-- The saturation pressure in MPa. -/
noncomputable def pS (T : ℝ) : ℝ := (Pw0 (xOf T) + 0 + dPwOf (rOf T) (-1)) * Pcon * T

/-- The slope `dPdT` the program uses. -/
noncomputable def slopeS (T : ℝ) : ℝ :=
  Pcon * (Pw0 (xOf T) + 0 + dPwOf (rOf T) (-1) - -Tc / T * (dP0 (xOf T) + (ssAt 0 (rOf T) (-1) + ssAt 1 (rOf T) (-1))))

theorem pfind_p (m : Mem) (T D : ℝ) : (Pfind m true T D).2 = pS (adj T) := by
  simp [Pfind, Mem.ss, Mem.aux, pS, adj, xOf, rOf]

theorem pfind_th1 (m : Mem) (T D : ℝ) : (Pfind m true T D).1.th1 = -1 := by simp [Pfind, Mem.ss, Mem.aux]

theorem pfind_r1 (m : Mem) (T D : ℝ) : (Pfind m true T D).1.r1 = rOf (adj T) := by simp [Pfind, Mem.ss, Mem.aux, adj, xOf, rOf]

theorem pfind_r (m : Mem) (T D : ℝ) : (Pfind m true T D).1.r = rOf (adj T) := by simp [Pfind, Mem.ss, Mem.aux, adj, xOf, rOf]

theorem pfind_dTw (m : Mem) (T D : ℝ) : (Pfind m true T D).1.dTw = xOf (adj T) := by simp [Pfind, Mem.ss, Mem.aux, adj, xOf]

theorem pfind_Tw (m : Mem) (T D : ℝ) : (Pfind m true T D).1.Tw = -Tc / adj T := by simp [Pfind, Mem.ss, Mem.aux, adj]

theorem pfind_amu (m : Mem) (T D : ℝ) : (Pfind m true T D).1.amu = 0 := by simp [Pfind, Mem.ss, Mem.aux]

theorem pfind_Pw (m : Mem) (T D : ℝ) : (Pfind m true T D).1.Pw = Pw0 (xOf (adj T)) + 0 + dPwOf (rOf (adj T)) (-1) := by
  simp [Pfind, Mem.ss, Mem.aux, adj, xOf, rOf]

theorem pfind_dPdT (m : Mem) (T D : ℝ) : (Pfind m true T D).1.dPdT = slopeS (adj T) := by
  simp [Pfind, Mem.ss, Mem.aux, slopeS, adj, xOf, rOf]; ring_nf; simp

theorem adj_Tc : adj Tc = Tc := by simp [adj]

theorem xOf_Tc : xOf Tc = 0 := by
  have : Tc ≠ 0 := by norm_num [Tc]
  unfold xOf; field_simp; ring

theorem rOf_Tc : rOf Tc = 0 := by simp [rOf, xOf_Tc]

theorem el_num (l : List ℚ) (i : ℕ) : el l i = ((l.getD i 0 : ℚ) : ℝ) := rfl

theorem xk0 : xk 0 = 1.4403 := by norm_num [xk, el_num, coA]
theorem xk1 : xk 1 = 0.2942 := by norm_num [xk, el_num, coA]
theorem cal0 : cal 0 = 0.1085 := by norm_num [cal, el_num, coQ]
theorem cal1 : cal 1 = -0.3915 := by norm_num [cal, el_num, coQ]
theorem cbe0 : cbe 0 = 0.325 := by norm_num [cbe, el_num, coA]
theorem cbe1 : cbe 1 = 0.825 := by norm_num [cbe, el_num, coQ]
theorem besq_val : besq = 1.3757 := by norm_num [besq, el_num, coA]
theorem aa_val : aa = 23.6666 := by norm_num [aa, el_num, coA]
theorem cc_val : cc = -0.017762 := by norm_num [cc, el_num, coA]

/-- The amplitudes of the singular part of the pressure on the coexistence curve. -/
noncomputable def kP (i : ℕ) : ℝ := aa * xk i * pth i (-1)

/-- The amplitudes of the singular part of the slope on the coexistence curve. -/
noncomputable def kS (i : ℕ) : ℝ := aa * xk i * sx i (-1)

theorem kP0 : 5.9 < kP 0 ∧ kP 0 < 5.91 := by
  constructor <;> norm_num [kP, aa_val, xk0, pth, el_num, coQ]
theorem kP1 : 0.65 < kP 1 ∧ kP 1 < 0.66 := by
  constructor <;> norm_num [kP, aa_val, xk1, pth, el_num, coQ]
theorem kS0 : -29.73 < kS 0 ∧ kS 0 < -29.72 := by
  constructor <;> norm_num [kS, aa_val, xk0, sx, s0c, s2c, el_num, coA]
theorem kS1 : -4.16 < kS 1 ∧ kS 1 < -4.15 := by
  constructor <;> norm_num [kS, aa_val, xk1, sx, s0c, s2c, el_num, coA]

/-- The coefficients fit: the slope is the derivative of the pressure, up to the digits the table has. -/
theorem kPS0 : |kP 0 * (2 - cal 0) / (1 - besq) - kS 0| < 1e-24 := by
  rw [abs_lt]; constructor <;> norm_num [kP, kS, aa_val, xk0, pth, sx, s0c, s2c, cal0, besq_val, el_num, coA, coQ]
theorem kPS1 : |kP 1 * (2 - cal 1) / (1 - besq) - kS 1| < 1e-24 := by
  rw [abs_lt]; constructor <;> norm_num [kP, kS, aa_val, xk1, pth, sx, s0c, s2c, cal1, besq_val, el_num, coA, coQ]

theorem Pw0_eq (x : ℝ) : Pw0 x = 1 + x * (6.8445 + x * (-25.4915 + x * 5.238)) := by norm_num [Pw0, el_num, coA]
theorem dP0_eq (x : ℝ) : dP0 x = 6.8445 + x * (-50.983 + 15.714 * x) := by norm_num [dP0, el_num, coA]

theorem dPw_eq (r : ℝ) : dPwOf r (-1) = kP 0 * r ^ (2 - cal 0) + kP 1 * r ^ (2 - cal 1) := by unfold dPwOf kP; ring
theorem ss_eq (i : ℕ) (r : ℝ) : ssAt i r (-1) = kS i * r ^ (1 - cal i) := by unfold ssAt kS; ring

/-- A function of the shape of the slope, with the amplitudes free. -/
noncomputable def slopeG (c0 c1 T : ℝ) : ℝ :=
  Pcon * (Pw0 (xOf T) + (kP 0 * rOf T ^ (2 - cal 0) + kP 1 * rOf T ^ (2 - cal 1))
    + Tc / T * (dP0 (xOf T) + (c0 * rOf T ^ (1 - cal 0) + c1 * rOf T ^ (1 - cal 1))))

theorem slopeS_eq (T : ℝ) : slopeS T = slopeG (kS 0) (kS 1) T := by
  unfold slopeS slopeG; rw [dPw_eq, ss_eq, ss_eq]; ring

/-- The derivative of the saturation pressure. -/
noncomputable def derivS (T : ℝ) : ℝ := slopeG (kP 0 * (2 - cal 0) / (1 - besq)) (kP 1 * (2 - cal 1) / (1 - besq)) T

theorem xOf_neg {T : ℝ} (h0 : 0 < T) (h : T < Tc) : xOf T < 0 := by
  have : 1 < Tc / T := by rw [lt_div_iff₀ h0]; linarith
  unfold xOf; rw [neg_div]; linarith

theorem rOf_pos {T : ℝ} (h0 : 0 < T) (h : T < Tc) : 0 < rOf T := by
  have := xOf_neg h0 h
  unfold rOf; rw [besq_val]
  exact div_pos_of_neg_of_neg this (by norm_num)

theorem xOf_deriv {T : ℝ} (h0 : T ≠ 0) : HasDerivAt xOf (Tc / T ^ 2) T := by
  have h := ((hasDerivAt_const T (-Tc)).div (hasDerivAt_id T) h0).const_add 1
  exact h.congr_deriv (by simp)

theorem pS_deriv {T : ℝ} (h0 : 0 < T) (h : T < Tc) : HasDerivAt pS (derivS T) T := by
  have hx := xOf_deriv h0.ne'
  have hr : HasDerivAt rOf (Tc / T ^ 2 / (1 - besq)) T := hx.div_const _
  have hrp := rOf_pos h0 h
  have h1 := hr.rpow_const (p := 2 - cal 0) (Or.inl hrp.ne')
  have h2 := hr.rpow_const (p := 2 - cal 1) (Or.inl hrp.ne')
  have hw : HasDerivAt (fun t => Pw0 (xOf t)) (dP0 (xOf T) * (Tc / T ^ 2)) T := by
    have : HasDerivAt Pw0 (dP0 (xOf T)) (xOf T) := by
      have hid := hasDerivAt_id (xOf T)
      have e := (hid.mul (((hid.mul (((hid.mul_const (5.238 : ℝ)).const_add (-25.4915)))).const_add 6.8445))).const_add 1
      have ef : Pw0 = fun x => 1 + (id x * (6.8445 + id x * (-25.4915 + id x * 5.238))) := by funext x; simp [Pw0_eq]
      rw [ef]
      refine e.congr_deriv ?_
      rw [dP0_eq]; simp only [id, Pi.mul_apply]; ring
    exact this.comp T hx
  have e := ((hw.add ((h1.const_mul (kP 0)).add (h2.const_mul (kP 1)))).mul_const Pcon).mul (hasDerivAt_id T)
  have ef : pS = fun t => (Pw0 (xOf t) + (kP 0 * rOf t ^ (2 - cal 0) + kP 1 * rOf t ^ (2 - cal 1))) * Pcon * id t := by
    funext t; simp [pS, dPw_eq]
  rw [ef]
  refine e.congr_deriv ?_
  have e1 : (2 - cal 0 - 1 : ℝ) = 1 - cal 0 := by ring
  have e2 : (2 - cal 1 - 1 : ℝ) = 1 - cal 1 := by ring
  rw [e1, e2]
  unfold derivS slopeG
  have hb : (1 - besq) ≠ 0 := by rw [besq_val]; norm_num
  simp only [id, Pi.add_apply]
  field_simp
  ring

theorem xOf_bounds {T : ℝ} (h0 : 639.9 ≤ T) (h : T ≤ Tc) : -0.0113 ≤ xOf T ∧ xOf T ≤ 0 := by
  have hT : 0 < T := by linarith
  have hc : Tc = 647.067 := by norm_num [Tc]
  unfold xOf
  rw [neg_div]
  constructor
  · have : Tc / T ≤ 1.0113 := by rw [div_le_iff₀ hT, hc]; linarith
    linarith
  · have : 1 ≤ Tc / T := by rw [le_div_iff₀ hT]; linarith
    linarith

theorem rOf_bounds {T : ℝ} (h0 : 639.9 ≤ T) (h : T ≤ Tc) : 0 ≤ rOf T ∧ rOf T ≤ 0.0301 := by
  obtain ⟨h1, h2⟩ := xOf_bounds h0 h
  unfold rOf
  rw [besq_val]
  constructor
  · exact div_nonneg_of_nonpos h2 (by norm_num)
  · rw [div_le_iff_of_neg (by norm_num)]; linarith

/-- Bounds for the two powers. -/
theorem pow_bounds {r : ℝ} (h0 : 0 ≤ r) (h : r ≤ 0.0301) :
    (0 ≤ r ^ (1 - cal 0) ∧ r ^ (1 - cal 0) ≤ 0.0468) ∧ (0 ≤ r ^ (1 - cal 1) ∧ r ^ (1 - cal 1) ≤ 0.0301) := by
  refine ⟨⟨Real.rpow_nonneg h0 _, ?_⟩, ⟨Real.rpow_nonneg h0 _, ?_⟩⟩
  · have h1 : r ^ (1 - cal 0) ≤ 0.0301 ^ (1 - cal 0) := Real.rpow_le_rpow h0 h (by rw [cal0]; norm_num)
    have h2 : (0.0301 : ℝ) ^ (1 - cal 0) ≤ 0.0301 ^ (7 / 8 : ℝ) :=
      Real.rpow_le_rpow_of_exponent_ge (by norm_num) (by norm_num) (by rw [cal0]; norm_num)
    have h3 : (0.0301 : ℝ) ^ (7 / 8 : ℝ) ≤ 0.0468 := by
      have e : (0.0301 : ℝ) ^ (7 / 8 : ℝ) = ((0.0301 : ℝ) ^ (7 : ℕ)) ^ (1 / 8 : ℝ) := by
        rw [← Real.rpow_natCast, ← Real.rpow_mul (by norm_num)]; norm_num
      rw [e]
      have e2 : (0.0468 : ℝ) = (0.0468 ^ (8 : ℕ)) ^ (1 / 8 : ℝ) := by
        rw [← Real.rpow_natCast, ← Real.rpow_mul (by norm_num)]; norm_num
      rw [e2]
      exact Real.rpow_le_rpow (by norm_num) (by norm_num) (by norm_num)
    linarith
  · have h1 : r ^ (1 - cal 1) ≤ 0.0301 ^ (1 - cal 1) := Real.rpow_le_rpow h0 h (by rw [cal1]; norm_num)
    have h2 : (0.0301 : ℝ) ^ (1 - cal 1) ≤ 0.0301 ^ (1 : ℝ) :=
      Real.rpow_le_rpow_of_exponent_ge (by norm_num) (by norm_num) (by rw [cal1]; norm_num)
    rw [Real.rpow_one] at h2
    linarith

theorem pow_two (i : ℕ) {r : ℝ} (h0 : 0 ≤ r) (hi : 0 < 1 - cal i) : r ^ (2 - cal i) = r * r ^ (1 - cal i) := by
  have e : 2 - cal i = 1 + (1 - cal i) := by ring
  rw [e, Real.rpow_add' h0 (by linarith), Real.rpow_one]

theorem W_bounds {x : ℝ} (hx1 : -0.0113 ≤ x) (hx2 : x ≤ 0) :
    0.919 ≤ 1 + x * (6.8445 + x * (-25.4915 + x * 5.238)) ∧ 1 + x * (6.8445 + x * (-25.4915 + x * 5.238)) ≤ 1 := by
  have hx3 : 0 ≤ x * x ∧ x * x ≤ 0.000128 := ⟨by nlinarith, by nlinarith⟩
  have hx4 : -0.00001 ≤ x * (x * x) ∧ x * (x * x) ≤ 0 := ⟨by nlinarith, by nlinarith⟩
  constructor <;> linarith

theorem V_bounds {x : ℝ} (hx1 : -0.0113 ≤ x) (hx2 : x ≤ 0) :
    6.8445 ≤ 6.8445 + x * (-50.983 + 15.714 * x) ∧ 6.8445 + x * (-50.983 + 15.714 * x) ≤ 7.423 := by
  have hx3 : 0 ≤ x * x ∧ x * x ≤ 0.000128 := ⟨by nlinarith, by nlinarith⟩
  constructor <;> linarith

theorem mul_bounds {a b l u : ℝ} (ha : 0 ≤ a) (hb : 0 ≤ b) (hal : a ≤ l) (hbu : b ≤ u) : 0 ≤ a * b ∧ a * b ≤ l * u :=
  ⟨mul_nonneg ha hb, mul_le_mul hal hbu hb (ha.trans hal)⟩

theorem slopeG_bounds {c0 c1 T : ℝ} (h0 : 639.9 ≤ T) (h : T ≤ Tc) (hc0 : -29.73 ≤ c0 ∧ c0 ≤ -29.72) (hc1 : -4.16 ≤ c1 ∧ c1 ≤ -4.15) :
    0.21 < slopeG c0 c1 T ∧ slopeG c0 c1 T < 0.2905 := by
  have hT : 0 < T := by linarith
  obtain ⟨hx1, hx2⟩ := xOf_bounds h0 h
  obtain ⟨hr1, hr2⟩ := rOf_bounds h0 h
  obtain ⟨⟨hy1, hy2⟩, ⟨hz1, hz2⟩⟩ := pow_bounds hr1 hr2
  have hk0 := kP0
  have hk1 := kP1
  have hc : Tc = 647.067 := by norm_num [Tc]
  have hq1 : 1 ≤ Tc / T := by rw [le_div_iff₀ hT]; linarith
  have hq2 : Tc / T ≤ 1.0113 := by rw [div_le_iff₀ hT, hc]; linarith
  have hP : 0.03407 < Pcon ∧ Pcon < 0.034071 := by constructor <;> norm_num [Pcon]
  unfold slopeG
  rw [pow_two 0 hr1 (by rw [cal0]; norm_num), pow_two 1 hr1 (by rw [cal1]; norm_num), Pw0_eq, dP0_eq]
  have hW := W_bounds hx1 hx2
  have hV := V_bounds hx1 hx2
  have hry := mul_bounds hr1 hy1 hr2 hy2
  have hrz := mul_bounds hr1 hz1 hr2 hz2
  have hA := mul_bounds (by linarith : 0 ≤ kP 0) hry.1 hk0.2.le hry.2
  have hB := mul_bounds (by linarith : 0 ≤ kP 1) hrz.1 hk1.2.le hrz.2
  have hC := mul_bounds (by linarith : 0 ≤ -c0) hy1 (by linarith : -c0 ≤ 29.73) hy2
  have hD := mul_bounds (by linarith : 0 ≤ -c1) hz1 (by linarith : -c1 ≤ 4.16) hz2
  have hS : 5.32 ≤ 6.8445 + xOf T * (-50.983 + 15.714 * xOf T) + (c0 * rOf T ^ (1 - cal 0) + c1 * rOf T ^ (1 - cal 1)) ∧
      6.8445 + xOf T * (-50.983 + 15.714 * xOf T) + (c0 * rOf T ^ (1 - cal 0) + c1 * rOf T ^ (1 - cal 1)) ≤ 7.423 := ⟨by linarith, by linarith⟩
  have hqS := mul_bounds (by linarith : 0 ≤ Tc / T) (le_trans (by norm_num) hS.1) hq2 hS.2
  have hqL : 1 * 5.32 ≤ Tc / T * (6.8445 + xOf T * (-50.983 + 15.714 * xOf T) + (c0 * rOf T ^ (1 - cal 0) + c1 * rOf T ^ (1 - cal 1))) :=
    mul_le_mul hq1 hS.1 (by norm_num) (by linarith)
  constructor
  · refine lt_of_lt_of_le (by norm_num : (0.21 : ℝ) < 0.03407 * 6.2) (mul_le_mul hP.1.le ?_ (by norm_num) (by linarith))
    linarith
  · refine lt_of_le_of_lt (mul_le_mul (d := 8.52) hP.2.le ?_ ?_ (by norm_num)) (by norm_num)
    · linarith
    · linarith

theorem slopeS_bounds {T : ℝ} (h0 : 639.9 ≤ T) (h : T ≤ Tc) : 0.21 < slopeS T ∧ slopeS T < 0.2905 := by
  rw [slopeS_eq]
  exact slopeG_bounds h0 h ⟨kS0.1.le, kS0.2.le⟩ ⟨kS1.1.le, kS1.2.le⟩

theorem derivS_bounds {T : ℝ} (h0 : 639.9 ≤ T) (h : T ≤ Tc) : 0.21 < derivS T ∧ derivS T < 0.2905 := by
  refine slopeG_bounds h0 h ?_ ?_
  · constructor <;> norm_num [kP, aa_val, xk0, pth, cal0, besq_val, el_num, coQ]
  · constructor <;> norm_num [kP, aa_val, xk1, pth, cal1, besq_val, el_num, coQ]

theorem pS_cont : ContinuousOn pS (Set.Icc 639.9 Tc) := by
  have hx : ContinuousOn xOf (Set.Icc 639.9 Tc) := fun T hT =>
    (xOf_deriv (by linarith [hT.1] : (0 : ℝ) < T).ne').continuousAt.continuousWithinAt
  have hr : ContinuousOn rOf (Set.Icc 639.9 Tc) := hx.div_const _
  have ef : pS = fun t => (Pw0 (xOf t) + (kP 0 * rOf t ^ (2 - cal 0) + kP 1 * rOf t ^ (2 - cal 1))) * Pcon * t := by
    funext t; simp [pS, dPw_eq]
  have hw : ContinuousOn (fun t => Pw0 (xOf t)) (Set.Icc 639.9 Tc) := by
    simp only [Pw0_eq]
    fun_prop
  rw [ef]
  have h1 := hr.rpow_const (p := 2 - cal 0) (fun _ _ => Or.inr (by rw [cal0]; norm_num))
  have h2 := hr.rpow_const (p := 2 - cal 1) (fun _ _ => Or.inr (by rw [cal1]; norm_num))
  exact ((hw.add ((h1.const_smul (kP 0)).add (h2.const_smul (kP 1)))).mul continuousOn_const).mul continuousOn_id

/-- The saturation pressure rises with slopes between 0.21 and 0.2905 MPa/K. -/
theorem pS_slope {a b : ℝ} (ha : 639.9 ≤ a) (hab : a ≤ b) (hb : b ≤ Tc) : 0.21 * (b - a) ≤ pS b - pS a ∧ pS b - pS a ≤ 0.2905 * (b - a) := by
  have hint : interior (Set.Icc (639.9 : ℝ) Tc) = Set.Ioo 639.9 Tc := interior_Icc
  have hd : ∀ T ∈ interior (Set.Icc (639.9 : ℝ) Tc), HasDerivAt pS (derivS T) T := fun T hT => by
    rw [hint] at hT
    exact pS_deriv (by linarith [hT.1]) hT.2
  have hdo : DifferentiableOn ℝ pS (interior (Set.Icc (639.9 : ℝ) Tc)) := fun T hT => (hd T hT).differentiableAt.differentiableWithinAt
  constructor
  · refine (convex_Icc 639.9 Tc).mul_sub_le_image_sub_of_le_deriv pS_cont hdo (fun T hT => ?_) a ⟨ha, hab.trans hb⟩ b ⟨ha.trans hab, hb⟩ hab
    rw [(hd T hT).deriv]
    rw [hint] at hT
    exact (derivS_bounds hT.1.le hT.2.le).1.le
  · refine (convex_Icc 639.9 Tc).image_sub_le_mul_sub_of_deriv_le pS_cont hdo (fun T hT => ?_) a ⟨ha, hab.trans hb⟩ b ⟨ha.trans hab, hb⟩ hab
    rw [(hd T hT).deriv]
    rw [hint] at hT
    exact (derivS_bounds hT.1.le hT.2.le).2.le

theorem Tc_val : Tc = 647.067 := by norm_num [Tc]

theorem adj_near (T : ℝ) : |adj T - T| < 1e-7 := by
  unfold adj
  split_ifs with h
  · rw [abs_sub_comm]; norm_num at h ⊢; exact h
  · norm_num

theorem adj_le {T : ℝ} (h : T ≤ Tc) : adj T ≤ Tc := by
  unfold adj; split_ifs <;> simp [h]

theorem le_adj {T : ℝ} (h : T ≤ Tc) : T ≤ adj T := by
  unfold adj; split_ifs <;> simp [h]

/-- One step of the search for the saturation temperature `t` from `T`: it goes at least 0.72 and at most 1.39 times the way. -/
theorem newton_ratio {t T : ℝ} (ht : 639.9 ≤ t) (ht' : t ≤ Tc) (hT : 639.9 ≤ T) (hT' : T ≤ Tc) :
    ∃ c, 0.72 ≤ c ∧ c ≤ 1.3834 ∧ (pS T - pS t) / slopeS T = c * (T - t) := by
  obtain ⟨s1, s2⟩ := slopeS_bounds hT hT'
  have hs : 0 < slopeS T := by linarith
  rcases lt_trichotomy T t with h | h | h
  · obtain ⟨a, b⟩ := pS_slope hT h.le ht'
    refine ⟨(pS T - pS t) / slopeS T / (T - t), ?_, ?_, ?_⟩
    · rw [div_div, le_div_iff_of_neg (mul_neg_of_pos_of_neg hs (by linarith))]
      nlinarith
    · rw [div_div, div_le_iff_of_neg (mul_neg_of_pos_of_neg hs (by linarith))]
      nlinarith
    · have : T - t ≠ 0 := by linarith
      field_simp
  · exact ⟨1, by norm_num, by norm_num, by rw [h]; simp⟩
  · obtain ⟨a, b⟩ := pS_slope ht h.le hT'
    refine ⟨(pS T - pS t) / slopeS T / (T - t), ?_, ?_, ?_⟩
    · rw [div_div, le_div_iff₀ (mul_pos hs (by linarith))]
      nlinarith
    · rw [div_div, div_le_iff₀ (mul_pos hs (by linarith))]
      nlinarith
    · have : T - t ≠ 0 := by linarith
      field_simp

/-- The temperature after one round. -/
noncomputable def tsNext (P T : ℝ) : ℝ :=
  let T' := T - (pS (adj T) - P) / slopeS (adj T)
  if T' > Tc then Tc else T'

theorem tsNext_le (P T : ℝ) : tsNext P T ≤ Tc := by
  unfold tsNext; simp only; split_ifs with h
  · exact le_rfl
  · exact not_lt.1 h

theorem tsNext_err {t T : ℝ} (ht : 639.9 ≤ t) (ht' : t ≤ Tc) (hT : 639.9 ≤ T) (hT' : T ≤ Tc) :
    |tsNext (pS t) T - t| ≤ 0.384 * |T - t| + 1.4e-7 ∧ |(pS (adj T) - pS t) / slopeS (adj T)| ≤ 1.384 * |T - t| + 1.4e-7 ∧
      0.72 * |T - t| - 1e-7 ≤ |(pS (adj T) - pS t) / slopeS (adj T)| := by
  have ha := adj_near T
  obtain ⟨c, c1, c2, e⟩ := newton_ratio ht ht' (hT.trans (le_adj hT')) (adj_le hT')
  have h1 : |adj T - t| ≤ |T - t| + 1e-7 := by
    have := abs_add_le (adj T - T) (T - t)
    rw [sub_add_sub_cancel] at this
    linarith
  have h2 : |T - t| ≤ |adj T - t| + 1e-7 := by
    have := abs_add_le (T - adj T) (adj T - t)
    rw [sub_add_sub_cancel, abs_sub_comm T (adj T)] at this
    linarith
  have h3 : |(pS (adj T) - pS t) / slopeS (adj T)| = c * |adj T - t| := by rw [e, abs_mul, abs_of_pos (by linarith)]
  refine ⟨?_, ?_, ?_⟩
  · have h4 : |T - (pS (adj T) - pS t) / slopeS (adj T) - t| ≤ 0.384 * |T - t| + 1.4e-7 := by
      rw [e]
      have e2 : T - c * (adj T - t) - t = (T - adj T) + (1 - c) * (adj T - t) := by ring
      rw [e2]
      have h5 := abs_add_le (T - adj T) ((1 - c) * (adj T - t))
      rw [abs_mul, abs_sub_comm T (adj T)] at h5
      have h6 : |1 - c| ≤ 0.3834 := by rw [abs_le]; constructor <;> linarith
      have h7 : |1 - c| * |adj T - t| ≤ 0.3834 * |adj T - t| := mul_le_mul_of_nonneg_right h6 (abs_nonneg _)
      have h8 := abs_nonneg (T - t)
      linarith
    unfold tsNext
    simp only
    split_ifs with h
    · rw [abs_of_nonneg (by linarith)]
      rw [abs_of_nonneg (by linarith)] at h4
      linarith
    · exact h4
  · rw [h3]
    have := mul_le_mul_of_nonneg_right c2 (abs_nonneg (adj T - t))
    have h8 := abs_nonneg (T - t)
    linarith
  · rw [h3]
    have := mul_le_mul_of_nonneg_right c1 (abs_nonneg (adj T - t))
    linarith

theorem tsLoop_succ (P : ℝ) (fuel i : ℕ) (m : Mem) {T : ℝ} (h0 : 639.9 ≤ T) (h : T ≤ Tc) :
    tsLoop true P (fuel + 1) i m T =
      if i + 1 > 20 ∨ |(pS (adj T) - P) / slopeS (adj T) / tsNext P T| > 1.0e-8 then tsLoop true P fuel (i + 1) (Pfind m true T rhoC).1 (tsNext P T)
      else some ((Pfind m true T rhoC).1, some (tsNext P T)) := by
  have hs := (slopeS_bounds (h0.trans (le_adj h)) (adj_le h)).1
  rw [tsLoop]
  simp only [pfind_p, pfind_dPdT]
  rw [if_neg (by linarith)]
  rfl

/-- The bound for the error after `k` rounds. -/
noncomputable def eB (k : ℕ) : ℝ := 3.07 * 0.384 ^ k + 2.3e-7

theorem eB_le (k : ℕ) : eB k ≤ 3.0700003 := by
  unfold eB
  have : (0.384 : ℝ) ^ k ≤ 1 := pow_le_one₀ (by norm_num) (by norm_num)
  linarith

/-- The search for the saturation temperature ends after at most 16 rounds, near the temperature sought; the members are those of the last `Pfind`. -/
theorem tsLoop_ends {t : ℝ} (ht : 643 ≤ t) (ht' : t ≤ Tc) (n : ℕ) : ∀ (k : ℕ) (m : Mem) (T : ℝ) (fuel : ℕ), k + n = 16 → n ≤ fuel →
    639.9 ≤ T → T ≤ Tc → |T - t| ≤ eB k → ∀ (_ : 0 < n), ∃ (m' : Mem) (T1 T2 : ℝ),
      tsLoop true (pS t) fuel k m T = some ((Pfind m' true T1 rhoC).1, some T2) ∧ |T1 - t| ≤ 1e-5 ∧ |T2 - t| ≤ 1e-5 ∧ T1 ≤ Tc ∧ T2 ≤ Tc := by
  have h643 : 639.9 ≤ t := by linarith
  induction n with
  | zero => intro k m T fuel _ _ _ _ _ h; exact absurd h (lt_irrefl 0)
  | succ n ih =>
    intro k m T fuel hk hf hT hT' he _
    obtain ⟨f, rfl⟩ : ∃ f, fuel = f + 1 := ⟨fuel - 1, by omega⟩
    rw [tsLoop_succ _ _ _ _ hT hT']
    obtain ⟨e1, e2, e3⟩ := tsNext_err h643 ht' hT hT'
    have hb := eB_le k
    have hn0 : |tsNext (pS t) T - t| ≤ 3.0700003 := by linarith
    have hn1 : 639.9 ≤ tsNext (pS t) T := by
      have := (abs_le.1 hn0).1
      linarith
    have hk20 : ¬ k + 1 > 20 := by omega
    by_cases hc : |(pS (adj T) - pS t) / slopeS (adj T) / tsNext (pS t) T| > 1.0e-8
    · rw [if_pos (Or.inr hc)]
      rcases Nat.eq_zero_or_pos n with h | h
      · exfalso
        subst h
        have hk15 : k = 15 := by omega
        subst hk15
        have hb15 : eB 15 ≤ 3e-6 := by norm_num [eB]
        rw [abs_div, gt_iff_lt, lt_div_iff₀ (abs_pos.2 (by linarith : tsNext (pS t) T ≠ 0))] at hc
        rw [abs_of_pos (by linarith)] at hc
        nlinarith
      · refine ih (k + 1) _ _ f (by omega) (by omega) hn1 (tsNext_le _ _) ?_ h
        have : eB (k + 1) = 0.384 * eB k + 0.616 * 2.3e-7 := by unfold eB; ring
        rw [this]
        linarith
    · rw [if_neg (by rintro (h | h); exacts [hk20 h, hc h])]
      refine ⟨m, T, tsNext (pS t) T, rfl, ?_, ?_, hT', tsNext_le _ _⟩ <;>
      · rw [gt_iff_lt, not_lt, abs_div, div_le_iff₀ (abs_pos.2 (by linarith : tsNext (pS t) T ≠ 0)), abs_of_pos (by linarith : 0 < tsNext (pS t) T)] at hc
        have := tsNext_le (pS t) T
        rw [Tc_val] at this
        linarith

theorem TsLVS_ends {t : ℝ} (ht : 643 ≤ t) (ht' : t ≤ Tc) (fuel : ℕ) (hf : 16 ≤ fuel) (m : Mem) : ∃ (m' : Mem) (T1 T2 : ℝ),
    TsLVS fuel m true (pS t) = some ((Pfind m' true T1 rhoC).1, some T2) ∧ |T1 - t| ≤ 1e-5 ∧ |T2 - t| ≤ 1e-5 ∧ T1 ≤ Tc ∧ T2 ≤ Tc := by
  have hc := Tc_val
  refine tsLoop_ends ht ht' 16 0 m _ fuel rfl hf (by rw [hc]; norm_num) (by linarith) ?_ (by norm_num)
  have : eB 0 = 3.07 + 2.3e-7 := by norm_num [eB]
  rw [this, abs_le, hc]
  rw [hc] at ht'
  constructor <;> linarith

/-- From 1 K below, the first step reaches the critical temperature. -/
theorem overshoot : slopeS (Tc - 1) ≤ pS Tc - pS (Tc - 1) := by
  have hc := Tc_val
  have hx : xOf (Tc - 1) = -(1 / 646.067) := by rw [xOf, hc]; norm_num
  have hr : rOf (Tc - 1) = 1 / (646.067 * 0.3757) := by rw [rOf, hx, besq_val]; norm_num
  have hr0 : (0 : ℝ) < 1 / (646.067 * 0.3757) := by norm_num
  have hy : 0.0065 ≤ (1 / (646.067 * 0.3757) : ℝ) ^ (1 - cal 0) := by
    have h2 : (1 / (646.067 * 0.3757) : ℝ) ^ (9 / 10 : ℝ) ≤ (1 / (646.067 * 0.3757) : ℝ) ^ (1 - cal 0) :=
      Real.rpow_le_rpow_of_exponent_ge hr0 (by norm_num) (by rw [cal0]; norm_num)
    have e : (1 / (646.067 * 0.3757) : ℝ) ^ (9 / 10 : ℝ) = ((1 / (646.067 * 0.3757) : ℝ) ^ (9 : ℕ)) ^ (1 / 10 : ℝ) := by
      rw [← Real.rpow_natCast, ← Real.rpow_mul hr0.le]; norm_num
    have e2 : (0.0065 : ℝ) = (0.0065 ^ (10 : ℕ)) ^ (1 / 10 : ℝ) := by
      rw [← Real.rpow_natCast, ← Real.rpow_mul (by norm_num)]; norm_num
    have h3 : (0.0065 : ℝ) ≤ (1 / (646.067 * 0.3757) : ℝ) ^ (9 / 10 : ℝ) := by
      rw [e, e2]; exact Real.rpow_le_rpow (by norm_num) (by norm_num) (by norm_num)
    exact h3.trans h2
  have hz : 0 ≤ (1 / (646.067 * 0.3757) : ℝ) ^ (1 - cal 1) := Real.rpow_nonneg hr0.le _
  have e0 : pS Tc = Pcon * Tc := by
    rw [pS, xOf_Tc, rOf_Tc, dPw_eq, Pw0_eq, Real.zero_rpow (by rw [cal0]; norm_num), Real.zero_rpow (by rw [cal1]; norm_num)]
    ring
  have e1 : pS (Tc - 1) = Pcon * (Tc - 1) * (Pw0 (xOf (Tc - 1)) + (kP 0 * rOf (Tc - 1) ^ (2 - cal 0) + kP 1 * rOf (Tc - 1) ^ (2 - cal 1))) := by
    rw [pS, dPw_eq]; ring
  rw [slopeS_eq, slopeG, e0, e1, hr, pow_two 0 hr0.le (by rw [cal0]; norm_num), pow_two 1 hr0.le (by rw [cal1]; norm_num), hx, Pw0_eq, dP0_eq, hc]
  have hk0 := kP0
  have hk1 := kP1
  have hs0 := kS0
  have hs1 := kS1
  generalize (1 / (646.067 * 0.3757) : ℝ) ^ (1 - cal 0) = y at *
  generalize (1 / (646.067 * 0.3757) : ℝ) ^ (1 - cal 1) = z at *
  have hP : 0 < Pcon := by norm_num [Pcon]
  have a1 : kP 0 * y ≤ 5.91 * y := by nlinarith
  have a2 : kP 1 * z ≤ 0.66 * z := by nlinarith
  have a3 : kS 0 * y ≤ -29.72 * y := by nlinarith
  have a4 : kS 1 * z ≤ -4.15 * z := by nlinarith
  rw [← sub_nonneg]
  have : 0 ≤ Pcon * (647.067 - (647.067 - 1) * (1 + -(1 / 646.067) * (6.8445 + -(1 / 646.067) * (-25.4915 + -(1 / 646.067) * 5.238))
      + (kP 0 * (1 / (646.067 * 0.3757) * y) + kP 1 * (1 / (646.067 * 0.3757) * z)))
      - (1 + -(1 / 646.067) * (6.8445 + -(1 / 646.067) * (-25.4915 + -(1 / 646.067) * 5.238))
      + (kP 0 * (1 / (646.067 * 0.3757) * y) + kP 1 * (1 / (646.067 * 0.3757) * z))
      + 647.067 / (647.067 - 1) * (6.8445 + -(1 / 646.067) * (-50.983 + 15.714 * -(1 / 646.067)) + (kS 0 * y + kS 1 * z)))) := by
    apply mul_nonneg hP.le
    norm_num
    linarith
  linarith

end Crit

end Gems

end ThermoFun
