import Verif.Props.GasIdeal

/-!
# Residual properties of gases at low pressure

Theorems about /repo/ThermoFun/Substances/Gases/s_solmod2_.cpp:487-581, 2884-2971, 3692-3786 as modelled in Model/Gas.lean: the residual Gibbs
energy, enthalpy, entropy and heat capacity vanish in proportion to the pressure (C165).
-/

namespace ThermoFun.Gas

/-! ### Lemmas -/

lemma ratio_near {X Y u w : ℝ} (hX : |X - 1| ≤ u) (hY : |Y - 1| ≤ w) (hu : u ≤ 1 / 2) (hw : w ≤ 1 / 2) : |X ^ 2 / Y - 1| ≤ 5 * u + 2 * w := by
  have h1 := abs_le.1 hX
  have h2 := abs_le.1 hY
  have hY0 : 0 < Y := by linarith
  have hu0 : 0 ≤ u := (abs_nonneg _).trans hX
  have hw0 : 0 ≤ w := (abs_nonneg _).trans hY
  rw [div_sub_one hY0.ne', abs_div, abs_of_pos hY0, div_le_iff₀ hY0]
  have h3 : |X ^ 2 - Y| ≤ 5 / 2 * u + w := by
    rw [abs_le]
    constructor <;> nlinarith
  nlinarith

lemma log1p_le {x : ℝ} (hx : 0 ≤ x) : |Real.log (1 + x)| ≤ x := by
  have := Real.log_le_sub_one_of_pos (show 0 < 1 + x by linarith)
  rw [abs_of_nonneg (Real.log_nonneg (by linarith))]
  linarith

lemma frac_near {D z n d : ℝ} (hz : 17 / 20 ≤ z) (hd : 0 < d) (hn0 : 0 ≤ n) (hn : n * z ≤ d) : |(1 - D * n / d) - 1| ≤ 5 / 4 * |D| := by
  have e : (1 - D * n / d) - 1 = -(D * (n / d)) := by ring
  rw [e, abs_neg, abs_mul, abs_of_nonneg (div_nonneg hn0 hd.le), mul_comm (5 / 4)]
  apply mul_le_mul_of_nonneg_left _ (abs_nonneg D)
  rw [div_le_iff₀ hd]
  nlinarith

/-- The term of the heat capacity, SRK. -/
lemma srk_cp {R T P z A B D : ℝ} (hR : 0 < R) (hT : 0 < T) (hP : 0 < P) (hB : 0 < B) (hB2 : B ≤ 1 / 20) (hz : 17 / 20 ≤ z) (hA : 0 ≤ A)
    (hA2 : A ≤ 1 / 20) (hD : |D| ≤ 1 / 20) (b a da : ℝ) (eb : b = B * R * T / P) (ea : a = A * (R * T) ^ 2 / P) (ed : da = D * R ^ 2 * T / P) :
    |T * (R / (z * R * T / P - b) - da / (z * R * T / P * (z * R * T / P + b)))
      * ((-1) * (1 / (-R * T / (z * R * T / P - b) ^ 2 + a * (2 * (z * R * T / P) + b) / (z * R * T / P * (z * R * T / P + b)) ^ 2))
        * (R / (z * R * T / P - b) - da / (z * R * T / P * (z * R * T / P + b)))) - R| ≤ R * (7 * |D| + 5 * A) := by
  have hzB : 0 < z - B := by linarith
  have hz0 : 0 < z := by linarith
  subst eb ea ed
  have e1 : z * R * T / P - B * R * T / P = (z - B) * (R * T / P) := by ring
  have e2 : z * R * T / P + B * R * T / P = (z + B) * (R * T / P) := by ring
  have e3 : 2 * (z * R * T / P) + B * R * T / P = (2 * z + B) * (R * T / P) := by ring
  have e4 : z * R * T / P = z * (R * T / P) := by ring
  rw [e1, e2, e3, e4]
  have hX := frac_near (D := D) (z := z) (n := z - B) (d := z * (z + B)) hz (by positivity) hzB.le (by nlinarith)
  have hY := frac_near (D := 2 * A) (z := z) (n := (2 * z + B) * (z - B) ^ 2 / 2) (d := (z * (z + B)) ^ 2) hz (by positivity) (by positivity)
    (by
      have h1 : (2 * z + B) * (z - B) ^ 2 / 2 ≤ (z + B) * z ^ 2 := by nlinarith [mul_pos hB hz0, mul_pos (mul_pos hB hz0) hz0, mul_pos hB (mul_pos hB hz0)]
      have h2 : (z + B) * z ^ 2 * z ≤ (z * (z + B)) ^ 2 := by nlinarith [mul_pos hB (pow_pos hz0 3), mul_pos (mul_pos hB hB) (pow_pos hz0 2)]
      nlinarith)
  rw [abs_of_nonneg (show 0 ≤ 2 * A by linarith)] at hY
  have e5 : 1 - 2 * A * ((2 * z + B) * (z - B) ^ 2 / 2) / (z * (z + B)) ^ 2 = 1 - A * (2 * z + B) * (z - B) ^ 2 / (z * (z + B)) ^ 2 := by ring
  rw [e5] at hY
  have hr := ratio_near hX hY (by linarith) (by linarith)
  set X := 1 - D * (z - B) / (z * (z + B)) with hXd
  set Y := 1 - A * (2 * z + B) * (z - B) ^ 2 / (z * (z + B)) ^ 2 with hYd
  have hY0 : 0 < Y := by linarith [(abs_le.1 hY).1]
  have f1 : R / ((z - B) * (R * T / P)) - D * R ^ 2 * T / P / (z * (R * T / P) * ((z + B) * (R * T / P))) = P / (T * (z - B)) * X := by
    rw [hXd]; field_simp
  have f2 : -R * T / ((z - B) * (R * T / P)) ^ 2 + A * (R * T) ^ 2 / P * ((2 * z + B) * (R * T / P)) / (z * (R * T / P) * ((z + B) * (R * T / P))) ^ 2
      = -(P ^ 2 / (R * T * (z - B) ^ 2)) * Y := by
    rw [hYd]; field_simp; ring
  rw [f1, f2]
  have f3 : T * (P / (T * (z - B)) * X) * (-1 * (1 / (-(P ^ 2 / (R * T * (z - B) ^ 2)) * Y)) * (P / (T * (z - B)) * X)) - R = R * (X ^ 2 / Y - 1) := by
    field_simp
  rw [f3, abs_mul, abs_of_pos hR]
  exact mul_le_mul_of_nonneg_left (hr.trans (by linarith [abs_nonneg D])) hR.le

/-- The term of the heat capacity, Peng-Robinson. -/
lemma pr_cp {R T P z A B D : ℝ} (hR : 0 < R) (hT : 0 < T) (hP : 0 < P) (hB : 0 < B) (hB2 : B ≤ 1 / 20) (hz : 17 / 20 ≤ z) (hA : 0 ≤ A)
    (hA2 : A ≤ 1 / 20) (hD : |D| ≤ 1 / 20) (b a da : ℝ) (eb : b = B * R * T / P) (ea : a = A * (R * T) ^ 2 / P) (ed : da = D * R ^ 2 * T / P) :
    |T * (R / (z * R * T / P - b) - da / (z * R * T / P * (z * R * T / P + b) + b * (z * R * T / P - b)))
      * ((-1) * (1 / (-R * T / (z * R * T / P - b) ^ 2
          + 2 * a * (z * R * T / P + b) / (z * R * T / P * (z * R * T / P + b) + b * (z * R * T / P - b)) ^ 2))
        * (R / (z * R * T / P - b) - da / (z * R * T / P * (z * R * T / P + b) + b * (z * R * T / P - b)))) - R| ≤ R * (7 * |D| + 5 * A) := by
  have hzB : 0 < z - B := by linarith
  have hz0 : 0 < z := by linarith
  subst eb ea ed
  have e1 : z * R * T / P - B * R * T / P = (z - B) * (R * T / P) := by ring
  have e2 : z * R * T / P + B * R * T / P = (z + B) * (R * T / P) := by ring
  have e4 : z * R * T / P = z * (R * T / P) := by ring
  have e6 : z * R * T / P * ((z + B) * (R * T / P)) + B * R * T / P * ((z - B) * (R * T / P)) = (z * (z + B) + B * (z - B)) * (R * T / P) ^ 2 := by ring
  rw [e1, e2, e6]
  have hq : 0 < z * (z + B) + B * (z - B) := by positivity
  have hX := frac_near (D := D) (z := z) (n := z - B) (d := z * (z + B) + B * (z - B)) hz hq hzB.le (by nlinarith [mul_pos hB hzB])
  have hY := frac_near (D := 2 * A) (z := z) (n := (z + B) * (z - B) ^ 2) (d := (z * (z + B) + B * (z - B)) ^ 2) hz (by positivity) (by positivity)
    (by
      have h1 : (z + B) * (z - B) ^ 2 ≤ z ^ 3 := by nlinarith [mul_pos hB hz0, mul_pos (mul_pos hB hB) hzB, mul_pos hB (mul_pos hz0 hzB)]
      have h2 : z ^ 2 ≤ z * (z + B) + B * (z - B) := by nlinarith [mul_pos hB hz0, mul_pos hB hzB]
      have h3 : (z ^ 2) ^ 2 ≤ (z * (z + B) + B * (z - B)) ^ 2 := pow_le_pow_left₀ (by positivity) h2 2
      nlinarith)
  rw [abs_of_nonneg (show 0 ≤ 2 * A by linarith)] at hY
  have hr := ratio_near hX hY (by linarith) (by linarith)
  generalize hqd : z * (z + B) + B * (z - B) = q at *
  set X := 1 - D * (z - B) / q with hXd
  set Y := 1 - 2 * A * ((z + B) * (z - B) ^ 2) / q ^ 2 with hYd
  have hY0 : 0 < Y := by linarith [(abs_le.1 hY).1]
  have f1 : R / ((z - B) * (R * T / P)) - D * R ^ 2 * T / P / (q * (R * T / P) ^ 2) = P / (T * (z - B)) * X := by
    rw [hXd]; field_simp
  have f2 : -R * T / ((z - B) * (R * T / P)) ^ 2 + 2 * (A * (R * T) ^ 2 / P) * ((z + B) * (R * T / P)) / (q * (R * T / P) ^ 2) ^ 2
      = -(P ^ 2 / (R * T * (z - B) ^ 2)) * Y := by
    rw [hYd]; field_simp; ring
  rw [f1, f2]
  have f3 : T * (P / (T * (z - B)) * X) * (-1 * (1 / (-(P ^ 2 / (R * T * (z - B) ^ 2)) * Y)) * (P / (T * (z - B)) * X)) - R = R * (X ^ 2 / Y - 1) := by
    field_simp
  rw [f3, abs_mul, abs_of_pos hR]
  exact mul_le_mul_of_nonneg_left (hr.trans (by linarith [abs_nonneg D])) hR.le

/-! ### C165 -/

/-- Spec: the residual properties of a fluid are below `d`, where they are numbers. -/
def ResidualBelow (d : ℝ) (f : Fug) : Prop :=
  |f.g| ≤ d ∧ (∀ h, f.h = some h → |h| ≤ d) ∧ (∀ s, f.s = some s → |s| ≤ d) ∧ |f.cp| ≤ d

lemma srk_h (T P z A B D : ℝ) (p : AB) (hT : 0 < T) (hP : 0 < P) (hb : 0 < p.b) (hB : 0 < B) (hA : 0 ≤ A) (hs : A + B ≤ 1 / 20)
    (hz : |z - 1| ≤ 2 * (A + B)) (hD : |D| ≤ 1 / 20) (eb : p.b = B * Rgas * T / P) (ea : p.a = A * (Rgas * T) ^ 2 / P)
    (ed : p.da = D * Rgas ^ 2 * T / P) :
    |-(1 - z + 1 / (p.b * Rgas * T) * (p.a - T * p.da) * Real.log (1 + B / z)) * Rgas * T| ≤ Rgas * T * (4 * (A + B) + 5 / 4 * |D|) := by
  have hR := Rpos
  have hz' := abs_le.1 hz
  have hz0 : 17 / 20 ≤ z := by linarith
  have hz1 : 0 < z := by linarith
  have hBz : 0 ≤ B / z := by positivity
  have hl := log1p_le hBz
  have hBz2 : B / z ≤ 5 / 4 * B := by
    rw [div_le_iff₀ hz1]; nlinarith
  have hL : |Real.log (1 + B / z)| ≤ 5 / 4 * B := hl.trans hBz2
  have hzb : z * (1 - B / z) = z - B := by field_simp
  have hlog := log_near (y := z - B) (d := 3 * (A + B)) (by rw [abs_le]; constructor <;> linarith) (by linarith)
  have hDA : 0 ≤ |D| := abs_nonneg D
  have e : 1 / (p.b * Rgas * T) * (p.a - T * p.da) * Real.log (1 + B / z) = (A - D) / B * Real.log (1 + B / z) := by
    rw [eb, ea, ed]; field_simp
  rw [e]
  have h1 : |(A - D) / B * Real.log (1 + B / z)| ≤ 5 / 4 * (A + |D|) := by
    rw [abs_mul, abs_div, abs_of_pos hB]
    have h2 : |A - D| ≤ A + |D| := by
      have := abs_sub A D
      rwa [abs_of_nonneg hA] at this
    calc |A - D| / B * |Real.log (1 + B / z)| ≤ (A + |D|) / B * (5 / 4 * B) := by gcongr
      _ = 5 / 4 * (A + |D|) := by field_simp
  have h3 : |1 - z + (A - D) / B * Real.log (1 + B / z)| ≤ 4 * (A + B) + 5 / 4 * |D| := by
    have h1' := abs_le.1 h1
    rw [abs_le]; constructor <;> linarith
  rw [show -(1 - z + (A - D) / B * Real.log (1 + B / z)) * Rgas * T = -((1 - z + (A - D) / B * Real.log (1 + B / z)) * (Rgas * T)) by ring,
    abs_neg, abs_mul, abs_of_pos (mul_pos hR hT), mul_comm]
  exact mul_le_mul_of_nonneg_left h3 (by positivity)

lemma srk_s (T P z A B D : ℝ) (p : AB) (hT : 0 < T) (hP : 0 < P) (hb : 0 < p.b) (hB : 0 < B) (hA : 0 ≤ A) (hs : A + B ≤ 1 / 20)
    (hz : |z - 1| ≤ 2 * (A + B)) (hD : |D| ≤ 1 / 20) (eb : p.b = B * Rgas * T / P) (ea : p.a = A * (Rgas * T) ^ 2 / P)
    (ed : p.da = D * Rgas ^ 2 * T / P) :
    |(Real.log (z * (1 - B / z)) + 1 / (p.b * Rgas) * p.da * Real.log (1 + B / z)) * Rgas| ≤ Rgas * (4 * (A + B) + 5 / 4 * |D|) := by
  have hR := Rpos
  have hz' := abs_le.1 hz
  have hz0 : 17 / 20 ≤ z := by linarith
  have hz1 : 0 < z := by linarith
  have hBz : 0 ≤ B / z := by positivity
  have hl := log1p_le hBz
  have hBz2 : B / z ≤ 5 / 4 * B := by
    rw [div_le_iff₀ hz1]; nlinarith
  have hL : |Real.log (1 + B / z)| ≤ 5 / 4 * B := hl.trans hBz2
  have hzb : z * (1 - B / z) = z - B := by field_simp
  have hlog := log_near (y := z - B) (d := 3 * (A + B)) (by rw [abs_le]; constructor <;> linarith) (by linarith)
  have hDA : 0 ≤ |D| := abs_nonneg D
  have e : 1 / (p.b * Rgas) * p.da * Real.log (1 + B / z) = D / B * Real.log (1 + B / z) := by
    rw [eb, ed]; field_simp
  rw [e, hzb]
  have h1 : |D / B * Real.log (1 + B / z)| ≤ 5 / 4 * |D| := by
    rw [abs_mul, abs_div, abs_of_pos hB]
    calc |D| / B * |Real.log (1 + B / z)| ≤ |D| / B * (5 / 4 * B) := by gcongr
      _ = 5 / 4 * |D| := by field_simp
  have h3 : |Real.log (z - B) + D / B * Real.log (1 + B / z)| ≤ 4 * (A + B) + 5 / 4 * |D| :=
    (abs_add_le _ _).trans (by linarith)
  rw [abs_mul, abs_of_pos hR, mul_comm]
  exact mul_le_mul_of_nonneg_left h3 hR.le

lemma srk_cv (T P z A B D : ℝ) (p : AB) (hT : 0 < T) (hP : 0 < P) (hb : 0 < p.b) (hB : 0 < B) (hA : 0 ≤ A) (hs : A + B ≤ 1 / 20)
    (hz : |z - 1| ≤ 2 * (A + B)) (hD : |D| ≤ 1 / 20) (eb : p.b = B * Rgas * T / P) (ea : p.a = A * (Rgas * T) ^ 2 / P)
    (ed : p.da = D * Rgas ^ 2 * T / P) :
    |T * p.d2a / p.b * Real.log (1 + B / z)| ≤ 5 / 4 * |p.d2a| * P / Rgas := by
  have hR := Rpos
  have hz' := abs_le.1 hz
  have hz0 : 17 / 20 ≤ z := by linarith
  have hz1 : 0 < z := by linarith
  have hBz : 0 ≤ B / z := by positivity
  have hl := log1p_le hBz
  have hBz2 : B / z ≤ 5 / 4 * B := by
    rw [div_le_iff₀ hz1]; nlinarith
  have hL : |Real.log (1 + B / z)| ≤ 5 / 4 * B := hl.trans hBz2
  have hzb : z * (1 - B / z) = z - B := by field_simp
  have hlog := log_near (y := z - B) (d := 3 * (A + B)) (by rw [abs_le]; constructor <;> linarith) (by linarith)
  have hDA : 0 ≤ |D| := abs_nonneg D
  rw [abs_mul, abs_div, abs_mul, abs_of_pos hT, abs_of_pos hb]
  calc T * |p.d2a| / p.b * |Real.log (1 + B / z)| ≤ T * |p.d2a| / p.b * (5 / 4 * B) := by gcongr
    _ = 5 / 4 * |p.d2a| * P / Rgas := by rw [eb]; field_simp

lemma srkProps_near (T P z l A B D : ℝ) (p : AB) (hT : 0 < T) (hP : 0 < P) (hb : 0 < p.b) (hB : 0 < B) (hA : 0 ≤ A) (hs : A + B ≤ 1 / 20)
    (hz : |z - 1| ≤ 2 * (A + B)) (hD : |D| ≤ 1 / 20) (eb : p.b = B * Rgas * T / P) (ea : p.a = A * (Rgas * T) ^ 2 / P)
    (ed : p.da = D * Rgas ^ 2 * T / P) :
    ResidualBelow ((Rgas * T + Rgas + Rgas * T) * (8 * (A + B) + 3 * |D|) + 7 * Rgas * |D| + 5 * Rgas * A + 5 / 4 * |p.d2a| * P / Rgas)
      (srkProps T P p B (z, l)) := by
  have hR := Rpos
  have hz' := abs_le.1 hz
  have hz0 : 17 / 20 ≤ z := by linarith
  have hz1 : 0 < z := by linarith
  have hbv : p.b / (z * Rgas * T / P) = B / z := by rw [eb]; field_simp
  have hh := srk_h T P z A B D p hT hP hb hB hA hs hz hD eb ea ed
  have hS := srk_s T P z A B D p hT hP hb hB hA hs hz hD eb ea ed
  have hcv := srk_cv T P z A B D p hT hP hb hB hA hs hz hD eb ea ed
  have hcp := srk_cp hR hT hP hB (by linarith) hz0 hA (by linarith) hD p.b p.a p.da eb ea ed
  have hRT : 0 < Rgas * T := by positivity
  have n1 : 0 ≤ Rgas * |D| := by positivity
  have n2 : 0 ≤ Rgas * A := by positivity
  have n3 : 0 ≤ 5 / 4 * |p.d2a| * P / Rgas := by positivity
  have n4 : 0 ≤ Rgas * T * (A + B) := by positivity
  have n5 : 0 ≤ Rgas * (A + B) := by positivity
  have n6 : 0 ≤ Rgas * T * |D| := by positivity
  refine ⟨?_, ?_, ?_, ?_⟩
  · change |_ - T * _| ≤ _
    rw [hbv]
    refine (abs_sub _ _).trans ?_
    rw [abs_mul T, abs_of_pos hT]
    have hS' := mul_le_mul_of_nonneg_left hS hT.le
    refine (add_le_add hh hS').trans ?_
    linarith
  · intro h hh'
    have := Option.some.inj hh'
    rw [← this]
    dsimp only
    rw [hbv]
    refine (hh).trans ?_
    linarith
  · intro s hs'
    have := Option.some.inj hs'
    rw [← this]
    dsimp only
    rw [hbv]
    refine (hS).trans ?_
    linarith
  · have k : 0 ≤ (Rgas * T + Rgas + Rgas * T) * (8 * (A + B) + 3 * |D|) := by positivity
    refine le_trans ?_ (show 5 / 4 * |p.d2a| * P / Rgas + Rgas * (7 * |D| + 5 * A) ≤ _ by linarith)
    refine le_trans ?_ (add_le_add hcv hcp)
    refine le_trans (le_of_eq ?_) (abs_add_le _ _)
    unfold srkProps
    dsimp only
    rw [add_sub_assoc]

/-- **C165** (residual properties, SRK): at every temperature there are a constant K and a pressure below which the residual Gibbs energy, enthalpy,
entropy and heat capacity are at most K P, wherever the cubic has one real root: they vanish in proportion to the pressure. -/
theorem C165_residual_srk_partial (T : ℝ) (p : AB) (hT : 0 < T) (ha : 0 ≤ p.a) (hb : 0 < p.b) :
    ∃ K P0, 0 < P0 ∧ ∀ P, 0 < P → P ≤ P0 → SrkSingle p.a p.b T P → ∃ f, srkPure T P p = some f ∧ ResidualBelow (K * P) f := by
  have hR := Rpos
  set α := p.a / (Rgas * T) ^ 2 with hα
  set β := p.b / (Rgas * T) with hβ
  set δ := p.da / (Rgas ^ 2 * T) with hδ
  have a0 : 0 ≤ α := by positivity
  have b0 : 0 < β := by positivity
  have d0 : 0 ≤ |δ| := abs_nonneg δ
  refine ⟨(Rgas * T + Rgas + Rgas * T) * (8 * (α + β) + 3 * |δ|) + 7 * Rgas * |δ| + 5 * Rgas * α + 5 / 4 * |p.d2a| / Rgas,
    1 / (20 * (α + β + |δ|)), by positivity, ?_⟩
  intro P hP hP0 h
  have hle : (α + β + |δ|) * P ≤ 1 / 20 := by
    rw [le_div_iff₀ (by positivity)] at hP0
    linarith
  have eA : p.a * P / (Rgas * T) ^ 2 = α * P := by rw [hα]; ring
  have eB : p.b * P / (Rgas * T) = β * P := by rw [hβ]; ring
  have pA : 0 ≤ α * P := by positivity
  have pB : 0 < β * P := by positivity
  have pD : 0 ≤ |δ| * P := by positivity
  have hs : α * P + β * P ≤ 1 / 20 := by nlinarith
  have hD : |δ * P| ≤ 1 / 20 := by rw [abs_mul, abs_of_pos hP]; nlinarith
  unfold SrkSingle at h
  dsimp only at h
  rw [eA, eB] at h
  obtain ⟨z, hc, -, hu⟩ := C99_one_partial (-1) (α * P - β * P - (β * P) ^ 2) (-(α * P) * (β * P)) h.1.le (by rw [neg_neg]; exact h.2)
  obtain ⟨y, hy, hy1⟩ := root_near (by linarith) (srk_signs pA pB hs)
  have e := hu h.1 y hy
  subst e
  have eA' : p.a * P / (Rgas ^ 2 * T ^ 2) = α * P := by rw [← eA, mul_pow]
  refine ⟨srkProps T P p (β * P) (pick (srkLnf (α * P) (β * P)) (β * P) y y y), ?_, ?_⟩
  · unfold srkPure
    simp only [eA', eB]
    rw [hc]
    rfl
  · have hp : pick (srkLnf (α * P) (β * P)) (β * P) y y y = (y, (pick (srkLnf (α * P) (β * P)) (β * P) y y y).2) := by
      unfold pick; simp
    rw [hp]
    have := srkProps_near T P y (pick (srkLnf (α * P) (β * P)) (β * P) y y y).2 (α * P) (β * P) (δ * P) p hT hP hb pB pA hs hy1 hD
      (by rw [hβ]; field_simp) (by rw [hα]; field_simp) (by rw [hδ]; field_simp)
    rw [abs_mul, abs_of_pos hP] at this
    convert this using 1
    ring

lemma pr_g (T P z A B D : ℝ) (p : AB) (hT : 0 < T) (hP : 0 < P) (hb : 0 < p.b) (hB : 0 < B) (hA : 0 ≤ A) (hs : A + B ≤ 1 / 20)
    (hz : |z - 1| ≤ 2 * (A + B)) (hD : |D| ≤ 1 / 20) (eb : p.b = B * Rgas * T / P) (ea : p.a = A * (Rgas * T) ^ 2 / P)
    (ed : p.da = D * Rgas ^ 2 * T / P) :
    |Rgas * T * (z - 1 - Real.log (z - B) - A / (B * Real.sqrt 8)
      * Real.log ((z + (1 + Real.sqrt 2) * B) / (z + (1 - Real.sqrt 2) * B)))| ≤ Rgas * T * (6 * (A + B)) := by
  have hR := Rpos
  have hz' := abs_le.1 hz
  have hz0 : 17 / 20 ≤ z := by linarith
  have hz1 : 0 < z := by linarith
  have h8 : Real.sqrt 8 = 2 * Real.sqrt 2 := by
    rw [show (8 : ℝ) = 2 ^ 2 * 2 by norm_num, Real.sqrt_mul (by norm_num), Real.sqrt_sq (by norm_num)]
  have h2 := sqrt2_pos
  obtain ⟨t1, t2⟩ := pr_term hA hB (by linarith) hz0
  obtain ⟨u1, u2⟩ := pr_term (A := 1) (by norm_num) hB (by linarith) hz0
  have hn := pr_near hA hB (by linarith) hz (by linarith)
  unfold prLnPhi at hn
  rw [abs_mul, abs_of_pos (mul_pos hR hT), h8, show B * (2 * Real.sqrt 2) = 2 * Real.sqrt 2 * B by ring]
  refine mul_le_mul_of_nonneg_left ?_ (by positivity)
  exact hn.trans (by linarith)

lemma pr_h (T P z A B D : ℝ) (p : AB) (hT : 0 < T) (hP : 0 < P) (hb : 0 < p.b) (hB : 0 < B) (hA : 0 ≤ A) (hs : A + B ≤ 1 / 20)
    (hz : |z - 1| ≤ 2 * (A + B)) (hD : |D| ≤ 1 / 20) (eb : p.b = B * Rgas * T / P) (ea : p.a = A * (Rgas * T) ^ 2 / P)
    (ed : p.da = D * Rgas ^ 2 * T / P) (κ : ℝ) :
    |Rgas * T * (z - 1 - Real.log ((z + (1 + Real.sqrt 2) * B) / (z + (1 - Real.sqrt 2) * B)) * A / (B * Real.sqrt 8) * κ)|
      ≤ Rgas * T * (2 * (A + B) + 5 / 4 * A * |κ|) := by
  have hR := Rpos
  have hz' := abs_le.1 hz
  have hz0 : 17 / 20 ≤ z := by linarith
  have hz1 : 0 < z := by linarith
  have h8 : Real.sqrt 8 = 2 * Real.sqrt 2 := by
    rw [show (8 : ℝ) = 2 ^ 2 * 2 by norm_num, Real.sqrt_mul (by norm_num), Real.sqrt_sq (by norm_num)]
  have h2 := sqrt2_pos
  obtain ⟨t1, t2⟩ := pr_term hA hB (by linarith) hz0
  obtain ⟨u1, u2⟩ := pr_term (A := 1) (by norm_num) hB (by linarith) hz0
  have hn := pr_near hA hB (by linarith) hz (by linarith)
  unfold prLnPhi at hn
  rw [abs_mul, abs_of_pos (mul_pos hR hT), h8]
  refine mul_le_mul_of_nonneg_left ?_ (by positivity)
  have e : Real.log ((z + (1 + Real.sqrt 2) * B) / (z + (1 - Real.sqrt 2) * B)) * A / (B * (2 * Real.sqrt 2))
      = A / (2 * Real.sqrt 2 * B) * Real.log ((z + (1 + Real.sqrt 2) * B) / (z + (1 - Real.sqrt 2) * B)) := by ring
  rw [e]
  refine (abs_sub _ _).trans (add_le_add hz ?_)
  rw [abs_mul, abs_of_nonneg t1]
  exact mul_le_mul_of_nonneg_right t2 (abs_nonneg κ)

lemma pr_cv (T P z A B D : ℝ) (p : AB) (hT : 0 < T) (hP : 0 < P) (hb : 0 < p.b) (hB : 0 < B) (hA : 0 ≤ A) (hs : A + B ≤ 1 / 20)
    (hz : |z - 1| ≤ 2 * (A + B)) (hD : |D| ≤ 1 / 20) (eb : p.b = B * Rgas * T / P) (ea : p.a = A * (Rgas * T) ^ 2 / P)
    (ed : p.da = D * Rgas ^ 2 * T / P) :
    |T * p.d2a / (p.b * Real.sqrt 8) * Real.log ((z + B * (1 + Real.sqrt 2)) / (z + B * (1 - Real.sqrt 2)))|
      ≤ 5 / 4 * |p.d2a| * P / Rgas := by
  have hR := Rpos
  have hz' := abs_le.1 hz
  have hz0 : 17 / 20 ≤ z := by linarith
  have hz1 : 0 < z := by linarith
  have h8 : Real.sqrt 8 = 2 * Real.sqrt 2 := by
    rw [show (8 : ℝ) = 2 ^ 2 * 2 by norm_num, Real.sqrt_mul (by norm_num), Real.sqrt_sq (by norm_num)]
  have h2 := sqrt2_pos
  obtain ⟨t1, t2⟩ := pr_term hA hB (by linarith) hz0
  obtain ⟨u1, u2⟩ := pr_term (A := 1) (by norm_num) hB (by linarith) hz0
  have hn := pr_near hA hB (by linarith) hz (by linarith)
  unfold prLnPhi at hn
  rw [mul_comm B (1 + Real.sqrt 2), mul_comm B (1 - Real.sqrt 2), h8]
  have e : T * p.d2a / (p.b * (2 * Real.sqrt 2)) * Real.log ((z + (1 + Real.sqrt 2) * B) / (z + (1 - Real.sqrt 2) * B))
      = T * p.d2a * B / p.b * (1 / (2 * Real.sqrt 2 * B) * Real.log ((z + (1 + Real.sqrt 2) * B) / (z + (1 - Real.sqrt 2) * B))) := by
    field_simp
  rw [e, abs_mul, abs_of_nonneg u1, abs_div, abs_mul, abs_mul, abs_of_pos hT, abs_of_pos hb, abs_of_pos hB]
  calc T * |p.d2a| * B / p.b * (1 / (2 * Real.sqrt 2 * B) * Real.log ((z + (1 + Real.sqrt 2) * B) / (z + (1 - Real.sqrt 2) * B)))
      ≤ T * |p.d2a| * B / p.b * (5 / 4 * 1) := by gcongr
    _ = 5 / 4 * |p.d2a| * P / Rgas := by rw [eb]; field_simp

lemma prProps_near (c T P Tc Pc z l A B D : ℝ) (p : AB) (hT : 0 < T) (hP : 0 < P) (hb : 0 < p.b) (hB : 0 < B) (hA : 0 ≤ A) (hs : A + B ≤ 1 / 20)
    (hz : |z - 1| ≤ 2 * (A + B)) (hD : |D| ≤ 1 / 20) (eb : p.b = B * Rgas * T / P) (ea : p.a = A * (Rgas * T) ^ 2 / P)
    (ed : p.da = D * Rgas ^ 2 * T / P) (κ : ℝ) (hκ : κ = 1 + (Real.sqrt (p.a / (c * Rgas ^ 2 * Tc ^ 2 / Pc)) - 1) / (1 - Real.sqrt (T / Tc))
      * Real.sqrt (T / Tc) / Real.sqrt (p.a / (c * Rgas ^ 2 * Tc ^ 2 / Pc))) :
    ResidualBelow ((Rgas * T + Rgas) * (8 * (A + B) + 2 * A * |κ|) + 7 * Rgas * |D| + 5 * Rgas * A + 5 / 4 * |p.d2a| * P / Rgas)
      (prProps c T P Tc Pc p A B (z, l)) := by
  have hR := Rpos
  have hz' := abs_le.1 hz
  have hz0 : 17 / 20 ≤ z := by linarith
  have hz1 : 0 < z := by linarith
  have hg := pr_g T P z A B D p hT hP hb hB hA hs hz hD eb ea ed
  have hh := pr_h T P z A B D p hT hP hb hB hA hs hz hD eb ea ed κ
  have hcv := pr_cv T P z A B D p hT hP hb hB hA hs hz hD eb ea ed
  have hcp := pr_cp hR hT hP hB (by linarith) hz0 hA (by linarith) hD p.b p.a p.da eb ea ed
  have hRT : 0 < Rgas * T := by positivity
  have n1 : 0 ≤ Rgas * |D| := by positivity
  have n2 : 0 ≤ Rgas * A := by positivity
  have n3 : 0 ≤ 5 / 4 * |p.d2a| * P / Rgas := by positivity
  have n4 : 0 ≤ Rgas * T * (A + B) := by positivity
  have n5 : 0 ≤ Rgas * (A + B) := by positivity
  have n6 : 0 ≤ Rgas * T * (A * |κ|) := by positivity
  have n7 : 0 ≤ Rgas * (A * |κ|) := by positivity
  refine ⟨?_, ?_, ?_, ?_⟩
  · refine hg.trans ?_
    linarith
  · intro h hh'
    unfold prProps at hh'
    dsimp only at hh'
    split_ifs at hh'
    have := Option.some.inj hh'
    rw [← this, ← hκ]
    refine hh.trans ?_
    linarith
  · intro s hs'
    unfold prProps at hs'
    dsimp only at hs'
    split_ifs at hs'
    have := Option.some.inj hs'
    rw [← this, ← hκ, abs_div, abs_of_pos hT, div_le_iff₀ hT]
    refine (abs_sub _ _).trans ((add_le_add hh hg).trans ?_)
    have k1 : 0 ≤ (Rgas * T * (8 * (A + B) + 2 * A * |κ|) + 7 * Rgas * |D| + 5 * Rgas * A + 5 / 4 * |p.d2a| * P / Rgas) * T := by positivity
    have k2 : Rgas * T * (2 * (A + B) + 5 / 4 * A * |κ|) + Rgas * T * (6 * (A + B)) ≤ Rgas * (8 * (A + B) + 2 * A * |κ|) * T := by
      linarith
    linarith
  · have k : 0 ≤ (Rgas * T + Rgas) * (8 * (A + B) + 2 * A * |κ|) := by positivity
    refine le_trans ?_ (show 5 / 4 * |p.d2a| * P / Rgas + Rgas * (7 * |D| + 5 * A) ≤ _ by linarith)
    refine le_trans ?_ (add_le_add hcv hcp)
    refine le_trans (le_of_eq ?_) (abs_add_le _ _)
    unfold prProps
    dsimp only
    rw [add_sub_assoc]

/-- **C165** (residual properties, Peng-Robinson): the same; enthalpy and entropy where they are numbers (at the critical temperature they are not,
`C102_critical_refuted`). -/
theorem C165_residual_pr_partial (c T Tc Pc : ℝ) (p : AB) (hT : 0 < T) (ha : 0 ≤ p.a) (hb : 0 < p.b) :
    ∃ K P0, 0 < P0 ∧ ∀ P, 0 < P → P ≤ P0 → PrSingle p.a p.b T P → ∃ f, prPure c T P Tc Pc p = some f ∧ ResidualBelow (K * P) f := by
  have hR := Rpos
  obtain ⟨κ, hκ⟩ : ∃ κ, κ = 1 + (Real.sqrt (p.a / (c * Rgas ^ 2 * Tc ^ 2 / Pc)) - 1) / (1 - Real.sqrt (T / Tc))
      * Real.sqrt (T / Tc) / Real.sqrt (p.a / (c * Rgas ^ 2 * Tc ^ 2 / Pc)) := ⟨_, rfl⟩
  set α := p.a / (Rgas * T) ^ 2 with hα
  set β := p.b / (Rgas * T) with hβ
  set δ := p.da / (Rgas ^ 2 * T) with hδ
  have a0 : 0 ≤ α := by positivity
  have b0 : 0 < β := by positivity
  have d0 : 0 ≤ |δ| := abs_nonneg δ
  refine ⟨(Rgas * T + Rgas) * (8 * (α + β) + 2 * α * |κ|) + 7 * Rgas * |δ| + 5 * Rgas * α + 5 / 4 * |p.d2a| / Rgas,
    1 / (20 * (α + β + |δ|)), by positivity, ?_⟩
  intro P hP hP0 h
  have hle : (α + β + |δ|) * P ≤ 1 / 20 := by
    rw [le_div_iff₀ (by positivity)] at hP0
    linarith
  have eA : p.a * P / (Rgas * T) ^ 2 = α * P := by rw [hα]; ring
  have eB : p.b * P / (Rgas * T) = β * P := by rw [hβ]; ring
  have pA : 0 ≤ α * P := by positivity
  have pB : 0 < β * P := by positivity
  have pD : 0 ≤ |δ| * P := by positivity
  have hs : α * P + β * P ≤ 1 / 20 := by nlinarith
  have hD : |δ * P| ≤ 1 / 20 := by rw [abs_mul, abs_of_pos hP]; nlinarith
  unfold PrSingle at h
  dsimp only at h
  rw [eA, eB] at h
  obtain ⟨z, hc, -, hu⟩ := C99_one_partial _ _ _ h.1.le h.2
  obtain ⟨y, hy, hy1⟩ := root_near (by linarith) (pr_signs pA pB hs)
  have e := hu h.1 y hy
  subst e
  have eA' : p.a * P / (Rgas ^ 2 * T ^ 2) = α * P := by rw [← eA, mul_pow]
  refine ⟨prProps c T P Tc Pc p (α * P) (β * P) (pick (prLnf (α * P) (β * P)) (β * P) y y y), ?_, ?_⟩
  · unfold prPure
    simp only [eA', eB]
    rw [hc]
    rfl
  · have hp : pick (prLnf (α * P) (β * P)) (β * P) y y y = (y, (pick (prLnf (α * P) (β * P)) (β * P) y y y).2) := by
      unfold pick; simp
    rw [hp]
    have := prProps_near c T P Tc Pc y (pick (prLnf (α * P) (β * P)) (β * P) y y y).2 (α * P) (β * P) (δ * P) p hT hP hb pB pA hs hy1 hD
      (by rw [hβ]; field_simp) (by rw [hα]; field_simp) (by rw [hδ]; field_simp) κ hκ
    rw [abs_mul, abs_of_pos hP] at this
    convert this using 1
    ring

/-! ### One real root at low pressure -/

lemma pr_low_single {r B : ℝ} (h1 : 1.2 ≤ r) (h2 : r ≤ 6.8) (hB : 0 < B) (hB2 : B ≤ 1e-5) :
    discr (B - 1) (r * B - 3 * B ^ 2 - 2 * B) (B ^ 3 + B ^ 2 - r * B * B) < 0 ∧
    cubic (B - 1) (r * B - 3 * B ^ 2 - 2 * B) (B ^ 3 + B ^ 2 - r * B * B) (-(B - 1) / 3) ≠ 0 := by
  norm_num at h1 h2 hB2
  constructor
  · have e : discr (B - 1) (r * B - 3 * B ^ 2 - 2 * B) (B ^ 3 + B ^ 2 - r * B * B)
        = B ^ 2 * ((r ^ 2 - 8 * r + 8) + B * (64 - 88 * r + 40 * r ^ 2 - 4 * r ^ 3 + B * (160 - 112 * r - 8 * r ^ 2 + B * (128 + 16 * r + 32 * B)))) := by
      unfold discr; ring
    rw [e]
    have q1 : r ^ 2 - 8 * r + 8 ≤ -(4 / 25) := by nlinarith
    have q2 : 128 + 16 * r + 32 * B ≤ 300 := by linarith
    have q3 : B * (128 + 16 * r + 32 * B) ≤ 1 := by nlinarith
    have q4 : 160 - 112 * r - 8 * r ^ 2 + B * (128 + 16 * r + 32 * B) ≤ 161 := by nlinarith
    have q5 : B * (160 - 112 * r - 8 * r ^ 2 + B * (128 + 16 * r + 32 * B)) ≤ 1 := by nlinarith
    have q6 : 64 - 88 * r + 40 * r ^ 2 - 4 * r ^ 3 + B * (160 - 112 * r - 8 * r ^ 2 + B * (128 + 16 * r + 32 * B)) ≤ 2000 := by
      nlinarith [pow_pos (show 0 < r by linarith) 3]
    have q7 : B * (64 - 88 * r + 40 * r ^ 2 - 4 * r ^ 3 + B * (160 - 112 * r - 8 * r ^ 2 + B * (128 + 16 * r + 32 * B))) ≤ 1 / 50 := by nlinarith
    exact mul_neg_of_pos_of_neg (by positivity) (by linarith)
  · have e : cubic (B - 1) (r * B - 3 * B ^ 2 - 2 * B) (B ^ 3 + B ^ 2 - r * B * B) (-(B - 1) / 3)
        = -2 * ((1 - B) / 3) ^ 3 + B * ((r - 3 * B - 2) * ((1 - B) / 3) + B * (B + 1 - r)) := by
      unfold cubic; ring
    rw [e]
    have h3 : (1 / 4 : ℝ) ≤ (1 - B) / 3 := by linarith
    have h4 : (1 / 4 : ℝ) ^ 3 ≤ ((1 - B) / 3) ^ 3 := pow_le_pow_left₀ (by norm_num) h3 3
    have h5 : (r - 3 * B - 2) * ((1 - B) / 3) + B * (B + 1 - r) ≤ 3 := by nlinarith
    have h6 : B * ((r - 3 * B - 2) * ((1 - B) / 3) + B * (B + 1 - r)) ≤ 1 / 1000 := by nlinarith
    apply ne_of_lt
    linarith

lemma srk_low_single {r B : ℝ} (h1 : 0.2 ≤ r) (h2 : r ≤ 5.8) (hB : 0 < B) (hB2 : B ≤ 1e-5) :
    discr (-1) (r * B - B - B ^ 2) (-(r * B) * B) < 0 ∧ cubic (-1) (r * B - B - B ^ 2) (-(r * B) * B) (1 / 3) ≠ 0 := by
  norm_num at h1 h2 hB2
  constructor
  · have e : discr (-1) (r * B - B - B ^ 2) (-(r * B) * B)
        = B ^ 2 * ((r ^ 2 - 6 * r + 1) + B * (6 - 32 * r + 30 * r ^ 2 - 4 * r ^ 3 + B * (13 - 42 * r - 15 * r ^ 2 + B * (12 - 12 * r + 4 * B)))) := by
      unfold discr; ring
    rw [e]
    have q1 : r ^ 2 - 6 * r + 1 ≤ -(4 / 25) := by nlinarith
    have q3 : B * (12 - 12 * r + 4 * B) ≤ 1 := by nlinarith
    have q4 : 13 - 42 * r - 15 * r ^ 2 + B * (12 - 12 * r + 4 * B) ≤ 14 := by nlinarith
    have q5 : B * (13 - 42 * r - 15 * r ^ 2 + B * (12 - 12 * r + 4 * B)) ≤ 1 := by nlinarith
    have q6 : 6 - 32 * r + 30 * r ^ 2 - 4 * r ^ 3 + B * (13 - 42 * r - 15 * r ^ 2 + B * (12 - 12 * r + 4 * B)) ≤ 1100 := by
      nlinarith [pow_pos (show 0 < r by linarith) 3]
    have q7 : B * (6 - 32 * r + 30 * r ^ 2 - 4 * r ^ 3 + B * (13 - 42 * r - 15 * r ^ 2 + B * (12 - 12 * r + 4 * B))) ≤ 1 / 50 := by nlinarith
    exact mul_neg_of_pos_of_neg (by positivity) (by linarith)
  · have e : cubic (-1) (r * B - B - B ^ 2) (-(r * B) * B) (1 / 3) = -(2 / 27) + B * ((r - 1 - B) / 3 - r * B) := by
      unfold cubic; ring
    rw [e]
    have h6 : B * ((r - 1 - B) / 3 - r * B) ≤ 1 / 1000 := by nlinarith
    apply ne_of_lt
    linarith

lemma prSingle_low {a b T P : ℝ} (hT : 0 < T) (hP : 0 < P) (hb : 0 < b) (h1 : 1.2 * (b * (Rgas * T)) ≤ a) (h2 : a ≤ 6.8 * (b * (Rgas * T)))
    (hB : b * P / (Rgas * T) ≤ 1e-5) : PrSingle a b T P := by
  have hR := Rpos
  have hbr : 0 < b * (Rgas * T) := by positivity
  have e : a * P / (Rgas * T) ^ 2 = a / (b * (Rgas * T)) * (b * P / (Rgas * T)) := by field_simp
  unfold PrSingle
  dsimp only
  rw [e]
  exact pr_low_single (by rwa [le_div_iff₀ hbr]) (by rwa [div_le_iff₀ hbr]) (by positivity) hB

lemma srkSingle_low {a b T P : ℝ} (hT : 0 < T) (hP : 0 < P) (hb : 0 < b) (h1 : 0.2 * (b * (Rgas * T)) ≤ a) (h2 : a ≤ 5.8 * (b * (Rgas * T)))
    (hB : b * P / (Rgas * T) ≤ 1e-5) : SrkSingle a b T P := by
  have hR := Rpos
  have hbr : 0 < b * (Rgas * T) := by positivity
  have e : a * P / (Rgas * T) ^ 2 = a / (b * (Rgas * T)) * (b * P / (Rgas * T)) := by field_simp
  unfold SrkSingle
  dsimp only
  rw [e]
  exact srk_low_single (by rwa [le_div_iff₀ hbr]) (by rwa [div_le_iff₀ hbr]) (by positivity) hB

/-- **C165** (residual properties, the three gas models): for a gas with 1.2 bRT ≤ a ≤ 5.8 bRT (from about the critical temperature to three times
that) there are a constant K and a pressure below which what the calculation returns has residual properties of at most K P; the cubic has one
real root there.
Missing: colder and hotter gases, whose cubic has three real roots (`C165_entry_partial` has bounds for volume and fugacity). -/
theorem C165_residual_entry_partial (m : Eos) (Tmin T : ℝ) (k : Nat → ℝ) (hT : 0 < T) (h0 : 0 < k 0) (h1 : 0 < k 1)
    (hlo : 1.2 * ((parsOf m T k).b * (Rgas * T)) ≤ (parsOf m T k).a) (hhi : (parsOf m T k).a ≤ 5.8 * ((parsOf m T k).b * (Rgas * T))) :
    ∃ K P0, 0 < P0 ∧ ∀ P, 0 < P → P ≤ P0 → ∃ f, calcFugPure m Tmin T P k = some f ∧ ResidualBelow (K * P) f := by
  obtain ⟨ha, hb⟩ := parsOf_pos (m := m) (T := T) h0 h1
  have hR := Rpos
  have hbr : 0 < (parsOf m T k).b * (Rgas * T) := by positivity
  have key : ∃ K P0, 0 < P0 ∧ ∀ P, 0 < P → P ≤ P0 → ∃ f, fugacityPT m T P k = some f ∧ ResidualBelow (K * P) f := by
    have hsmall : ∀ P, 0 < P → P ≤ 1e-5 * (Rgas * T) / (parsOf m T k).b → (parsOf m T k).b * P / (Rgas * T) ≤ 1e-5 := by
      intro P hP hP'
      rw [le_div_iff₀ hb] at hP'
      rw [div_le_iff₀ (by positivity)]
      linarith
    cases m
    · obtain ⟨K, P0, hP0, h⟩ := C165_residual_pr_partial 0.457235 T (k 0) (k 1) (parsOf .PRSV T k) hT ha hb
      exact ⟨K, min P0 (1e-5 * (Rgas * T) / (parsOf .PRSV T k).b), by positivity, fun P hP hle => h P hP (hle.trans (min_le_left _ _))
        (prSingle_low hT hP hb hlo (by linarith) (hsmall P hP (hle.trans (min_le_right _ _))))⟩
    · obtain ⟨K, P0, hP0, h⟩ := C165_residual_srk_partial T (parsOf .SRK T k) hT ha hb
      exact ⟨K, min P0 (1e-5 * (Rgas * T) / (parsOf .SRK T k).b), by positivity, fun P hP hle => h P hP (hle.trans (min_le_left _ _))
        (srkSingle_low hT hP hb (by linarith) hhi (hsmall P hP (hle.trans (min_le_right _ _))))⟩
    · obtain ⟨K, P0, hP0, h⟩ := C165_residual_pr_partial 0.457235529 T (k 0) (k 1) (parsOf .PR78 T k) hT ha hb
      exact ⟨K, min P0 (1e-5 * (Rgas * T) / (parsOf .PR78 T k).b), by positivity, fun P hP hle => h P hP (hle.trans (min_le_left _ _))
        (prSingle_low hT hP hb hlo (by linarith) (hsmall P hP (hle.trans (min_le_right _ _))))⟩
  obtain ⟨K, P0, hP0, h⟩ := key
  refine ⟨K, P0, hP0, fun P hP hle => ?_⟩
  obtain ⟨f, hf, hr⟩ := h P hP hle
  have hK : 0 ≤ K * P := (abs_nonneg _).trans hr.1
  unfold calcFugPure
  split_ifs
  · exact ⟨f, hf, hr⟩
  · refine ⟨_, rfl, ?_, ?_, ?_, ?_⟩
    · rw [abs_zero]; exact hK
    · intro x hx; rw [← Option.some.inj hx, abs_zero]; exact hK
    · intro x hx; rw [← Option.some.inj hx, abs_zero]; exact hK
    · rw [abs_zero]; exact hK

/-- The gas of `exCrit` at 432 K. -/
example : ∃ K P0, 0 < P0 ∧ ∀ P, 0 < P → P ≤ P0 → ∃ f, calcFugPure .PR78 200 432 P exCrit = some f ∧ ResidualBelow (K * P) f := by
  have hp : parsOf .PR78 432 exCrit = pr78AB 432 300 74 0.225 := by unfold parsOf; rw [ex0, ex1, ex2]
  have ea : (pr78AB 432 300 74 0.225).a = (1 + (0.37464 + 1.54226 * 0.225 - 0.26992 * 0.225 ^ 2) * (1 - 1.2)) ^ 2
      * (0.457235529 * Rgas ^ 2 * 300 ^ 2 / 74) := by
    unfold pr78AB
    dsimp only
    rw [pr78k_le (by norm_num), sqrt_ex 1.2 (by norm_num) (by norm_num : (432 / 300 : ℝ) = 1.2 ^ 2)]
  have eb : (pr78AB 432 300 74 0.225).b = 0.0777960739 * Rgas * 300 / 74 := rfl
  exact C165_residual_entry_partial .PR78 200 432 exCrit (by norm_num) (by rw [ex0]; norm_num) (by rw [ex1]; norm_num)
    (by rw [hp, ea, eb]; unfold Rgas; norm_num) (by rw [hp, ea, eb]; unfold Rgas; norm_num)

example : ∃ K P0, 0 < P0 ∧ ∀ P, 0 < P → P ≤ P0 → SrkSingle exAB.a exAB.b 100 P → ∃ f, srkPure 100 P exAB = some f ∧ ResidualBelow (K * P) f :=
  C165_residual_srk_partial 100 exAB (by norm_num) exAB_vals.1 exAB_vals.2.1

end ThermoFun.Gas
