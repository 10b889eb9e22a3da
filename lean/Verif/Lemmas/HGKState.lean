import Mathlib.Tactic.IntervalCases
import Verif.Lemmas.HGK
import Mathlib.Analysis.Complex.ExponentialBounds

/-! The Haar–Gallagher–Kell equation at 647.27 K and 1000 log 2 = 693.15 kg/m³, where t = 1 and z = 1/2. -/

namespace ThermoFun

namespace HGK

open WP (add el)

/-- The reduced density. -/
noncomputable def dS : ℝ := Real.log 2 / z0

lemma dS_bounds : 2.18133 < dS ∧ dS < 2.18134 := by
  have h1 := Real.log_two_gt_d9
  have h2 := Real.log_two_lt_d9
  have hz : (0 : ℝ) < z0 := by norm_num [z0]
  unfold dS
  rw [lt_div_iff₀ hz, div_lt_iff₀ hz]
  constructor <;> norm_num [z0] <;> linarith

lemma exp_dS : Real.exp (-z0 * dS) = 1 / 2 := by
  have hz : z0 ≠ 0 := by norm_num [z0]
  have : -z0 * dS = -Real.log 2 := by unfold dS; field_simp
  rw [this, Real.exp_neg, Real.exp_log (by norm_num)]; norm_num

/-! ### Part 1 -/

lemma part1_S : (part1 1 dS).fD = -5.23519046 ∧ (part1 1 dS).fDD = 0 ∧ (part1 1 dS).fTD = 5.76619197 := by
  have hd : dS ≠ 0 := by have := dS_bounds; linarith [this.1]
  have hl : List.range 5 = [0, 1, 2, 3, 4] := by decide
  have e0 : el A1 0 = 1.5383053 := by norm_num [el, A1]
  have e1 : el A1 1 = -0.81048367 := by norm_num [el, A1]
  have e2 : el A1 2 = -6.8305748 := by norm_num [el, A1]
  have e3 : el A1 3 = 0 := by norm_num [el, A1]
  have e4 : el A1 4 = 0.86756271 := by norm_num [el, A1]
  refine ⟨?_, ?_, ?_⟩ <;> simp only [part1, part1Loop, hl, List.foldl_cons, List.foldl_nil, WP.zero, one_zpow, e0, e1, e2, e3, e4]
  · field_simp; ring
  · field_simp; ring

/-! ### Part 2 -/

/-- The slope of y by density and its derivative. -/
noncomputable def yS : ℝ := 0.05969061923
noncomputable def wS : ℝ := -0.02843366567

lemma yy_S : (yy 1 dS).f = dS * yS ∧ (yy 1 dS).fD = yS ∧ (yy 1 dS).fT = dS * wS ∧ (yy 1 dS).fDD = 0 ∧ (yy 1 dS).fTD = wS ∧ (yy 1 dS).fTDD = 0 := by
  have hd : dS ≠ 0 := by have := dS_bounds; linarith [this.1]
  have e0 : el yc 0 = 0.059402227 := by norm_num [el, yc]
  have e1 : el yc 1 = -0.028128238 := by norm_num [el, yc]
  have e2 : el yc 2 = 0.00056826674 := by norm_num [el, yc]
  have e3 : el yc 3 = -0.00027987451 := by norm_num [el, yc]
  have ey : el yc 0 + el yc 2 + el yc 3 = yS := by rw [e0, e2, e3]; norm_num [yS]
  have ew : el yc 1 - 3 * el yc 2 - 5 * el yc 3 = wS := by rw [e1, e2, e3]; norm_num [wS]
  refine ⟨?_, ?_, ?_, rfl, ?_, ?_⟩ <;> simp only [yy, one_zpow, Real.log_one, ← ey, ← ew]
  · ring
  · field_simp; ring
  · ring
  · field_simp
  · field_simp; ring

/-- `x`. -/
noncomputable def xS : ℝ := 1 / (1 - dS * yS)

lemma xS_bounds : 1.1496 < xS ∧ xS < 1.1498 ∧ 0.1302 < dS * yS ∧ dS * yS < 0.1303 ∧ xS * (1 - dS * yS) = 1 := by
  obtain ⟨h1, h2⟩ := dS_bounds
  have a : 0.1302 < dS * yS := by unfold yS; linarith
  have b : dS * yS < 0.1303 := by unfold yS; linarith
  have c : 0.130204 < dS * yS := by unfold yS; linarith
  have e : dS * yS < 0.130206 := by unfold yS; linarith
  have h0 : 0 < 1 - dS * yS := by linarith
  refine ⟨?_, ?_, a, b, ?_⟩
  · unfold xS; rw [lt_div_iff₀ h0]; linarith
  · unfold xS; rw [div_lt_iff₀ h0]; linarith
  · unfold xS; field_simp

lemma xx_S : (xx (yy 1 dS)).f = xS ∧ (xx (yy 1 dS)).fD = yS * xS ^ 2 ∧ (xx (yy 1 dS)).fT = dS * wS * xS ^ 2 ∧
    (xx (yy 1 dS)).fDD = 2 * yS ^ 2 * xS ^ 3 ∧ (xx (yy 1 dS)).fTD = wS * xS ^ 2 + 2 * yS * (dS * wS) * xS ^ 3 := by
  obtain ⟨e0, e1, e2, e3, e4, e5⟩ := yy_S
  refine ⟨?_, ?_, ?_, ?_, ?_⟩ <;> simp only [xx, e0, e1, e2, e3, e4, e5] <;> simp only [xS] <;> ring

/-- A product within bounds. -/
lemma mul_bounds {a b c e u v : ℝ} (ha : 0 ≤ a) (hc : 0 ≤ c) (h1 : a ≤ u) (h2 : u ≤ b) (h3 : c ≤ v) (h4 : v ≤ e) : a * c ≤ u * v ∧ u * v ≤ b * e :=
  ⟨mul_le_mul h1 h3 hc (ha.trans h1), mul_le_mul h2 h4 (hc.trans h3) ((ha.trans h1).trans h2)⟩

lemma xS_pow : (1.3215 ≤ xS ^ 2 ∧ xS ^ 2 ≤ 1.3221) ∧ (1.5191 ≤ xS ^ 3 ∧ xS ^ 3 ≤ 1.5202) ∧ (1.7463 ≤ xS ^ 4 ∧ xS ^ 4 ≤ 1.748) := by
  obtain ⟨h1, h2, -⟩ := xS_bounds
  have p2 := mul_bounds (by norm_num) (by norm_num) h1.le h2.le h1.le h2.le
  have p3 := mul_bounds (by norm_num) (by norm_num) p2.1 p2.2 h1.le h2.le
  have p4 := mul_bounds (by norm_num) (by norm_num) p3.1 p3.2 h1.le h2.le
  have e2 : xS ^ 2 = xS * xS := by ring
  have e3 : xS ^ 3 = xS * xS * xS := by ring
  have e4 : xS ^ 4 = xS * xS * xS * xS := by ring
  rw [e2, e3, e4]
  refine ⟨⟨?_, ?_⟩, ⟨?_, ?_⟩, ⟨?_, ?_⟩⟩ <;> norm_num at p2 p3 p4 ⊢ <;> linarith [p2.1, p2.2, p3.1, p3.2, p4.1, p4.2]

lemma part2_PD : 33 < 2 * dS * (part2 1 dS).fD + dS * dS * (part2 1 dS).fDD := by
  obtain ⟨e0, e1, e2, e3, e4⟩ := xx_S
  obtain ⟨y0, y1, y2, y3, y4, y5⟩ := yy_S
  obtain ⟨h1, h2, h3, h4, -⟩ := xS_bounds
  obtain ⟨⟨q1, q2⟩, ⟨q3, q4⟩, ⟨q5, q6⟩⟩ := xS_pow
  have hx : xS ≠ 0 := by linarith
  have hd : dS ≠ 0 := by have := dS_bounds; linarith [this.1]
  have key : 2 * dS * (part2 1 dS).fD + dS * dS * (part2 1 dS).fDD =
      A20 * (1 + 2 * (dS * yS) * (xS - 130 / 3 * xS ^ 2 + 169 / 3 * xS ^ 3 - 14) +
        (dS * yS) * (dS * yS) * (xS ^ 2 - 260 / 3 * xS ^ 3 + 169 * xS ^ 4)) := by
    simp only [part2, final2, uu, e0, e1, e3, y1, y3]
    field_simp
    ring
  rw [key]
  set y := dS * yS
  have r1 : 15.4 ≤ xS - 130 / 3 * xS ^ 2 + 169 / 3 * xS ^ 3 - 14 ∧ xS - 130 / 3 * xS ^ 2 + 169 / 3 * xS ^ 3 - 14 ≤ 15.6 := by
    constructor <;> linarith
  have r2 : 164 ≤ xS ^ 2 - 260 / 3 * xS ^ 3 + 169 * xS ^ 4 ∧ xS ^ 2 - 260 / 3 * xS ^ 3 + 169 * xS ^ 4 ≤ 166 := by
    constructor <;> linarith
  have b1 := mul_bounds (by norm_num) (by norm_num) h3.le h4.le r1.1 r1.2
  have yy := mul_bounds (by norm_num) (by norm_num) h3.le h4.le h3.le h4.le
  have b2 := mul_bounds (by norm_num) (by norm_num) yy.1 yy.2 r2.1 r2.2
  have : 7.7 < 1 + 2 * y * (xS - 130 / 3 * xS ^ 2 + 169 / 3 * xS ^ 3 - 14) + y * y * (xS ^ 2 - 260 / 3 * xS ^ 3 + 169 * xS ^ 4) := by
    norm_num at b1 b2
    rw [mul_assoc 2 y]
    linarith [b1.1, b2.1]
  unfold A20
  linarith

/-- The discrepancy of the mixed derivative of part 2. -/
lemma part2_gap : 0.05 < (part2 1 dS).fTDD - (part2Fix 1 dS).fTDD := by
  obtain ⟨e0, e1, e2, e3, e4⟩ := xx_S
  obtain ⟨y0, y1, y2, y3, y4, y5⟩ := yy_S
  obtain ⟨h1, h2, h3, h4, -⟩ := xS_bounds
  obtain ⟨⟨q1, q2⟩, ⟨q3, q4⟩, ⟨q5, q6⟩⟩ := xS_pow
  have hx : xS ≠ 0 := by linarith
  have key : (part2 1 dS).fTDD - (part2Fix 1 dS).fTDD =
      A20 * (2 * (-wS) * yS * (xS - 1) * (xS - 130 / 3 * xS ^ 2 + 169 / 3 * xS ^ 3)) := by
    have t1 : (xx (yy 1 dS)).fTDD = 2 * (wS * (yS * xS ^ 2)) + 2 * yS * ((wS * xS ^ 2 + 2 * yS * (dS * wS) * xS ^ 3) * xS +
        yS * xS ^ 2 * (dS * wS * xS ^ 2)) := by
      have : (xx (yy 1 dS)).fTDD = (yy 1 dS).fTDD * ((xx (yy 1 dS)).f * (xx (yy 1 dS)).f) + 2 * ((yy 1 dS).fTD * (xx (yy 1 dS)).fD +
        (yy 1 dS).fDD * (xx (yy 1 dS)).fT) + 2 * (yy 1 dS).fD * ((xx (yy 1 dS)).fTD * (xx (yy 1 dS)).f + (xx (yy 1 dS)).fD * (xx (yy 1 dS)).fT) := rfl
      rw [this, e0, e1, e2, e4, y1, y3, y4, y5]; ring
    have s0 : (part2 1 dS).fTDD = (final2 1 (yy 1 dS) (xx (yy 1 dS)) (uu (xx (yy 1 dS)) dS)).fTDD := rfl
    have s1 : (part2Fix 1 dS).fTDD = (final2 1 (yy 1 dS) (xxFix (yy 1 dS)) (uu (xxFix (yy 1 dS)) dS)).fTDD := rfl
    rw [s0, s1]
    simp only [final2, uu, xxFix, t1, e0, e1, e2, e3, e4, y1, y3, y4, y5]
    field_simp
    ring
  rw [key]
  have r1 : 29 ≤ xS - 130 / 3 * xS ^ 2 + 169 / 3 * xS ^ 3 := by linarith
  have r2 : (0.1496 : ℝ) * 29 ≤ (xS - 1) * (xS - 130 / 3 * xS ^ 2 + 169 / 3 * xS ^ 3) :=
    mul_le_mul (by linarith) r1 (by norm_num) (by linarith)
  have hw : -wS = 0.02843366567 := by norm_num [wS]
  rw [hw, mul_assoc _ (xS - 1)]
  unfold A20 yS
  linarith

/-- The value of part 2. -/
lemma part2_neg : (part2 1 dS).f < 0 := by
  obtain ⟨e0, -⟩ := xx_S
  obtain ⟨y0, -⟩ := yy_S
  obtain ⟨h1, h2, h3, h4, -⟩ := xS_bounds
  obtain ⟨d1, d2⟩ := dS_bounds
  obtain ⟨⟨q1, q2⟩, -⟩ := xS_pow
  have hl : Real.log (dS * xS) ≤ dS * xS - 1 := Real.log_le_sub_one_of_pos (by positivity)
  have hp := mul_bounds (by norm_num) (by norm_num) d1.le d2.le h1.le h2.le
  have : (part2 1 dS).f = A20 * 1 * (Real.log (dS * xS) + -130 / 3 * xS + 169 / 6 * xS * xS + -14 * (dS * yS)) := by
    simp only [part2, final2, uu, e0, y0]
  rw [this]
  have hs : Real.log (dS * xS) + -130 / 3 * xS + 169 / 6 * xS * xS + -14 * (dS * yS) < 0 := by
    have : 169 / 6 * xS * xS = 169 / 6 * xS ^ 2 := by ring
    rw [this]
    norm_num at hp
    linarith [hp.2]
  have : (0 : ℝ) < A20 * 1 := by norm_num [A20]
  exact mul_neg_of_pos_of_neg this hs

lemma part2_TD : (part2 1 dS).fTD = A20 * (wS * xS + (dS * yS) * wS * xS ^ 2 - 130 / 3 * (wS * xS ^ 2 + 2 * (dS * yS) * wS * xS ^ 3) +
    169 / 3 * (wS * xS ^ 3 + 3 * (dS * yS) * wS * xS ^ 4) - 14 * wS) + (part2 1 dS).fD := by
  obtain ⟨e0, e1, e2, e3, e4⟩ := xx_S
  obtain ⟨y0, y1, y2, y3, y4, y5⟩ := yy_S
  obtain ⟨h1, -⟩ := xS_bounds
  have hx : xS ≠ 0 := by linarith
  have : (part2 1 dS).fTD = A20 * 1 * ((uu (xx (yy 1 dS)) dS).fTD + -130 / 3 * (xx (yy 1 dS)).fTD + 2 * (169 / 6) * ((xx (yy 1 dS)).f * (xx (yy 1 dS)).fTD +
    (xx (yy 1 dS)).fD * (xx (yy 1 dS)).fT) + -14 * (yy 1 dS).fTD) + (part2 1 dS).fD / 1 := rfl
  rw [this]
  simp only [uu, e0, e1, e2, e4, y4]
  field_simp
  ring

/-! ### Part 3 -/

lemma term3_S (A : ℝ) (l k : ℤ) (hA : A ≠ 0) : (term3 A l k 1 dS).fD = z0 * (k * A * (1 / 2) ^ k) ∧
    (term3 A l k 1 dS).fDD = z0 ^ 2 * (k * (k - 2) * A * (1 / 2) ^ k) ∧ (term3 A l k 1 dS).fTD = -z0 * (l * k * A * (1 / 2) ^ k) := by
  have hz : z0 ≠ 0 := by norm_num [z0]
  have hk : ((1 : ℝ) - 1 / 2) ^ k ≠ 0 := zpow_ne_zero _ (by norm_num)
  have h2 : ((1 : ℝ) - 1 / 2) = 1 / 2 := by norm_num
  refine ⟨?_, ?_, ?_⟩ <;> simp only [term3, exp_dS, one_zpow, h2] at hk ⊢ <;> generalize ((1 : ℝ) / 2) ^ k = b at * <;> field_simp <;> ring

lemma foldl_fD (l : List Helm) (s : Helm) : (l.foldl add s).fD = s.fD + (l.map (·.fD)).sum := by
  induction l generalizing s with
  | nil => simp
  | cons a l ih => simp only [List.foldl_cons, ih, List.map_cons, List.sum_cons, add]; ring

lemma foldl_fDD (l : List Helm) (s : Helm) : (l.foldl add s).fDD = s.fDD + (l.map (·.fDD)).sum := by
  induction l generalizing s with
  | nil => simp
  | cons a l ih => simp only [List.foldl_cons, ih, List.map_cons, List.sum_cons, add]; ring

lemma foldl_fTD (l : List Helm) (s : Helm) : (l.foldl add s).fTD = s.fTD + (l.map (·.fTD)).sum := by
  induction l generalizing s with
  | nil => simp
  | cons a l ih => simp only [List.foldl_cons, ih, List.map_cons, List.sum_cons, add]; ring

lemma foldl_fTDD (l : List Helm) (s : Helm) : (l.foldl add s).fTDD = s.fTDD + (l.map (·.fTDD)).sum := by
  induction l generalizing s with
  | nil => simp
  | cons a l ih => simp only [List.foldl_cons, ih, List.map_cons, List.sum_cons, add]; ring

/-- A sum of rational numbers times a constant. -/
lemma sum_cast (l : List ℕ) (g : ℕ → ℝ) (q : ℕ → ℚ) (c : ℝ) (h : ∀ i ∈ l, g i = c * (q i : ℝ)) : (l.map g).sum = c * ((l.map q).sum : ℚ) := by
  induction l with
  | nil => simp
  | cons a l ih =>
    simp only [List.map_cons, List.sum_cons, Rat.cast_add]
    rw [h a (by simp), ih fun i hi => h i (List.mem_cons_of_mem _ hi)]
    ring

/-- The sums of part 3 as rational numbers. -/
def sumD : ℚ := ((List.range 36).map fun i => (ki.getD i 0 : ℚ) * A3.getD i 0 * (1 / 2) ^ (ki.getD i 0)).sum
def sumDD : ℚ := ((List.range 36).map fun i => (ki.getD i 0 : ℚ) * ((ki.getD i 0 : ℚ) - 2) * A3.getD i 0 * (1 / 2) ^ (ki.getD i 0)).sum
def sumTD : ℚ := ((List.range 36).map fun i => (li.getD i 0 : ℚ) * (ki.getD i 0 : ℚ) * A3.getD i 0 * (1 / 2) ^ (ki.getD i 0)).sum

lemma sums : (0 < sumD ∧ sumD < 0.1) ∧ (-5 < sumDD ∧ sumDD < 0) ∧ 0 < sumTD ∧ sumTD < 4 := by
  decide +kernel

lemma part3_S : (part3 1 dS).fD = z0 * (sumD : ℝ) ∧ (part3 1 dS).fDD = z0 ^ 2 * (sumDD : ℝ) ∧ (part3 1 dS).fTD = -z0 * (sumTD : ℝ) := by
  have h := fun i (hi : i ∈ List.range 36) => term3_S (el A3 i) (eli li i) (eli ki i) (A3_ne i (List.mem_range.mp hi))
  refine ⟨?_, ?_, ?_⟩
  · unfold part3
    rw [foldl_fD, List.map_map, sum_cast _ _ (fun i => (ki.getD i 0 : ℚ) * A3.getD i 0 * (1 / 2) ^ (ki.getD i 0)) z0 fun i hi => ?_]
    · simp [WP.zero, sumD]
    · refine ((h i hi).1).trans ?_; simp only [el, eli]; push_cast; rfl
  · unfold part3
    rw [foldl_fDD, List.map_map, sum_cast _ _ (fun i => (ki.getD i 0 : ℚ) * ((ki.getD i 0 : ℚ) - 2) * A3.getD i 0 * (1 / 2) ^ (ki.getD i 0)) (z0 ^ 2) fun i hi => ?_]
    · simp [WP.zero, sumDD]
    · refine ((h i hi).2.1).trans ?_; simp only [el, eli]; push_cast; rfl
  · unfold part3
    rw [foldl_fTD, List.map_map, sum_cast _ _ (fun i => (li.getD i 0 : ℚ) * (ki.getD i 0 : ℚ) * A3.getD i 0 * (1 / 2) ^ (ki.getD i 0)) (-z0) fun i hi => ?_]
    · simp [WP.zero, sumTD]
    · refine ((h i hi).2.2).trans ?_; simp only [el, eli]; push_cast; rfl

lemma part2_TD_pos : 0 < (part2 1 dS).fTD := by
  obtain ⟨e0, e1, e2, e3, e4⟩ := xx_S
  obtain ⟨y0, y1, y2, y3, y4, y5⟩ := yy_S
  obtain ⟨h1, h2, h3, h4, -⟩ := xS_bounds
  obtain ⟨⟨q1, q2⟩, ⟨q3, q4⟩, ⟨q5, q6⟩⟩ := xS_pow
  obtain ⟨d1, d2⟩ := dS_bounds
  have hx : xS ≠ 0 := by linarith
  have hd : dS ≠ 0 := by linarith
  have fD : (part2 1 dS).fD = A20 * (1 / dS + yS * (xS - 130 / 3 * xS ^ 2 + 169 / 3 * xS ^ 3 - 14)) := by
    simp only [part2, final2, uu, e0, e1, y1]
    field_simp
    ring
  have hi : 0.458 < 1 / dS := by rw [lt_div_iff₀ (by linarith)]; linarith
  rw [part2_TD, fD]
  set y := dS * yS
  have b2 := mul_bounds (by norm_num) (by norm_num) h3.le h4.le q1 q2
  have b3 := mul_bounds (by norm_num) (by norm_num) h3.le h4.le q3 q4
  have b4 := mul_bounds (by norm_num) (by norm_num) h3.le h4.le q5 q6
  norm_num at b2 b3 b4
  have hs : xS + y * xS ^ 2 - 130 / 3 * (xS ^ 2 + 2 * (y * xS ^ 3)) + 169 / 3 * (xS ^ 3 + 3 * (y * xS ^ 4)) - 14 ≤ 37.5 := by
    linarith [b2.1, b2.2, b3.1, b3.2, b4.1, b4.2]
  have e : wS * xS + y * wS * xS ^ 2 - 130 / 3 * (wS * xS ^ 2 + 2 * y * wS * xS ^ 3) + 169 / 3 * (wS * xS ^ 3 + 3 * y * wS * xS ^ 4) - 14 * wS =
      wS * (xS + y * xS ^ 2 - 130 / 3 * (xS ^ 2 + 2 * (y * xS ^ 3)) + 169 / 3 * (xS ^ 3 + 3 * (y * xS ^ 4)) - 14) := by ring
  rw [e]
  have hw : wS * (xS + y * xS ^ 2 - 130 / 3 * (xS ^ 2 + 2 * (y * xS ^ 3)) + 169 / 3 * (xS ^ 3 + 3 * (y * xS ^ 4)) - 14) ≥ -1.08 := by
    unfold wS; linarith
  have hr : 15.4 ≤ xS - 130 / 3 * xS ^ 2 + 169 / 3 * xS ^ 3 - 14 := by linarith
  rw [← mul_add]
  refine mul_pos (by norm_num [A20]) ?_
  have : yS * (xS - 130 / 3 * xS ^ 2 + 169 / 3 * xS ^ 3 - 14) ≥ 0.9 := by unfold yS; linarith
  linarith

/-! ### Part 4 -/

/-- A term of part 4 that is small. -/
lemma term4_small {A al be r ti : ℝ} {m n : ℤ} {d psi psi_r g : ℝ} (hp : psi = (n - al * m * ((d - r) / r) ^ m) * (1 / r) / ((d - r) / r))
    (hr : psi_r = -(n + al * m * (m - 1) * ((d - r) / r) ^ m) * (1 / r / ((d - r) / r)) ^ 2) (hg : g = -2 * be * ((1 - ti) / ti) * (1 / ti))
    (bp : |psi| ≤ 200) (br : |psi_r| ≤ 400) (bg : |g| ≤ 1000) (bA : |A * ((d - r) / r) ^ n| ≤ 2)
    (be' : -al * ((d - r) / r) ^ m - be * ((1 - ti) / ti) * ((1 - ti) / ti) ≤ -40) :
    let s := term4 A al be r ti m n 1 d
    |s.fD| ≤ 1e-6 ∧ |s.fDD| ≤ 1e-6 ∧ |s.fTD| ≤ 1e-6 ∧ |s.fTDD - (term4Fix A al be r ti m n 1 d).fTDD| ≤ 1e-6 := by
  intro s
  set th := A * ((d - r) / r) ^ n * Real.exp (-al * ((d - r) / r) ^ m - be * ((1 - ti) / ti) * ((1 - ti) / ti)) with hth
  have bth : |th| ≤ 2 * (1 / 2) ^ 40 := by
    have h1 : Real.exp (-al * ((d - r) / r) ^ m - be * ((1 - ti) / ti) * ((1 - ti) / ti)) ≤ (1 / 2) ^ 40 := by
      refine (Real.exp_le_exp.mpr be').trans ?_
      have : Real.exp (-40) = Real.exp (-1) ^ 40 := by rw [← Real.exp_nat_mul]; norm_num
      rw [this]
      refine pow_le_pow_left₀ (Real.exp_pos _).le ?_ 40
      rw [Real.exp_neg, ← one_div]
      refine one_div_le_one_div_of_le (by norm_num) ?_
      have := Real.add_one_le_exp 1
      linarith
    rw [hth, abs_mul, abs_of_pos (Real.exp_pos _)]
    exact mul_le_mul bA h1 (Real.exp_pos _).le (by norm_num)
  have e1 : s.fD = psi * th := by rw [hp]; rfl
  have e2 : s.fDD = psi_r * th + psi * (psi * th) := by rw [hp, hr]; rfl
  have e3 : s.fTD = g * (psi * th) := by rw [hp, hg]; rfl
  have e4 : s.fTDD - (term4Fix A al be r ti m n 1 d).fTDD = psi_r * ((psi - g) * th) := by
    have a1 : s.fTDD = psi_r * (psi * th) + psi * (g * (psi * th)) := by rw [hp, hr, hg]; rfl
    have a2 : (term4Fix A al be r ti m n 1 d).fTDD = psi_r * (g * th) + psi * (g * (psi * th)) := by rw [hp, hr, hg]; rfl
    rw [a1, a2]; ring
  have bpt : |psi * th| ≤ 200 * (2 * (1 / 2) ^ 40) := by
    rw [abs_mul]; exact mul_le_mul bp bth (abs_nonneg _) (by norm_num)
  refine ⟨?_, ?_, ?_, ?_⟩
  · rw [e1]; refine bpt.trans ?_; norm_num
  · rw [e2]
    have b1 : |psi_r * th| ≤ 400 * (2 * (1 / 2) ^ 40) := by
      rw [abs_mul]; exact mul_le_mul br bth (abs_nonneg _) (by norm_num)
    have b2 : |psi * (psi * th)| ≤ 200 * (200 * (2 * (1 / 2) ^ 40)) := by
      rw [abs_mul]; exact mul_le_mul bp bpt (abs_nonneg _) (by norm_num)
    refine (abs_add_le _ _).trans ?_
    refine (add_le_add b1 b2).trans ?_
    norm_num
  · rw [e3, abs_mul]
    refine (mul_le_mul bg bpt (abs_nonneg _) (by norm_num)).trans ?_
    norm_num
  · have b1 : |psi - g| ≤ 1200 := (abs_sub _ _).trans (by linarith)
    have b2 : |(psi - g) * th| ≤ 1200 * (2 * (1 / 2) ^ 40) := by
      rw [abs_mul]; exact mul_le_mul b1 bth (abs_nonneg _) (by norm_num)
    rw [e4, abs_mul]
    refine (mul_le_mul br b2 (abs_nonneg _) (by norm_num)).trans ?_
    norm_num

/-- The reduced distance of the density from the first centre. -/
lemma delta_bounds : (1.172 < (dS - 1.0038928) / 1.0038928 ∧ (dS - 1.0038928) / 1.0038928 < 1.174) ∧
    (-0.553 < (dS - 4.8778492) / 4.8778492 ∧ (dS - 4.8778492) / 4.8778492 < -0.552) := by
  obtain ⟨d1, d2⟩ := dS_bounds
  refine ⟨⟨?_, ?_⟩, ?_, ?_⟩
  · rw [lt_div_iff₀ (by norm_num)]; linarith
  · rw [div_lt_iff₀ (by norm_num)]; linarith
  · rw [lt_div_iff₀ (by norm_num)]; linarith
  · rw [div_lt_iff₀ (by norm_num)]; linarith

lemma abs_le_of {a b : ℝ} (h1 : -b ≤ a) (h2 : a ≤ b) : |a| ≤ b := abs_le.mpr ⟨h1, h2⟩

lemma term4_S (i : ℕ) (hi : i < 4) :
    let s := term4 (el A4 i) (el alpha i) (el beta i) (el ri i) (el ti i) (eli mi i) (eli ni i) 1 dS
    |s.fD| ≤ 1e-6 ∧ |s.fDD| ≤ 1e-6 ∧ |s.fTD| ≤ 1e-6 ∧
    |s.fTDD - (term4Fix (el A4 i) (el alpha i) (el beta i) (el ri i) (el ti i) (eli mi i) (eli ni i) 1 dS).fTDD| ≤ 1e-6 := by
  obtain ⟨⟨c1, c2⟩, c3, c4⟩ := delta_bounds
  set e := (dS - 1.0038928) / 1.0038928 with he
  set f := (dS - 4.8778492) / 4.8778492 with hf
  have e0 : e ≠ 0 := by linarith
  have f0 : f ≠ 0 := by linarith
  have e2 : 1.3735 < e ^ 2 ∧ e ^ 2 < 1.3783 := by constructor <;> nlinarith
  have f2 : 0.3047 < f ^ 2 ∧ f ^ 2 < 0.3059 := by constructor <;> nlinarith
  have f4 : 0.0928 < f ^ 4 ∧ f ^ 4 < 0.0936 := by
    have : f ^ 4 = f ^ 2 * f ^ 2 := by ring
    rw [this]; constructor <;> nlinarith [f2.1, f2.2]
  have hm : ∀ (a n : ℝ), (n - a * 2 * e ^ 2) * (1 / 1.0038928) / e = (n / e - 2 * a * e) / 1.0038928 := fun a n => by field_simp
  have hm4 : (0 - 1050 * 4 * f ^ 4) * (1 / 4.8778492) / f = (-(4200 * (f ^ 2 * f))) / 4.8778492 := by field_simp; ring
  have hq : ∀ (a n : ℝ), -(n + a * 2 * (2 - 1) * e ^ 2) * (1 / 1.0038928 / e) ^ 2 = -(n / e ^ 2 + 2 * a) / 1.0038928 ^ 2 := fun a n => by field_simp; ring
  have hq4 : -(0 + 1050 * 4 * (4 - 1) * f ^ 4) * (1 / 4.8778492 / f) ^ 2 = -(12600 * f ^ 2) / 4.8778492 ^ 2 := by field_simp; ring
  interval_cases i
  · have r0 : el A4 0 = -0.0032329494 := by norm_num [el, A4]
    have r1 : el alpha 0 = 34 := by norm_num [el, alpha]
    have r2 : el beta 0 = 20000 := by norm_num [el, beta]
    have r3 : el ri 0 = 1.0038928 := by norm_num [el, ri]
    have r4 : el ti 0 = 0.98876821 := by norm_num [el, ti]
    have r5 : eli mi 0 = 2 := rfl
    have r6 : eli ni 0 = 0 := rfl
    rw [r0, r1, r2, r3, r4, r5, r6]
    refine term4_small rfl rfl rfl ?_ ?_ ?_ ?_ ?_ <;> (try rw [← he]) <;> (try simp only [zpow_zero, zpow_ofNat, Int.cast_zero, Int.cast_ofNat])
    · rw [hm]; refine abs_le_of ?_ ?_ <;> [rw [le_div_iff₀ (by norm_num)]; rw [div_le_iff₀ (by norm_num)]] <;> rw [zero_div] <;> linarith
    · rw [hq, zero_div]; norm_num [abs_le]
    · norm_num [abs_le]
    · norm_num [abs_le]
    · norm_num; linarith [e2.1]
  · have r0 : el A4 1 = -0.024139355 := by norm_num [el, A4]
    have r1 : el alpha 1 = 40 := by norm_num [el, alpha]
    have r2 : el beta 1 = 20000 := by norm_num [el, beta]
    have r3 : el ri 1 = 1.0038928 := by norm_num [el, ri]
    have r4 : el ti 1 = 0.98876821 := by norm_num [el, ti]
    have r5 : eli mi 1 = 2 := rfl
    have r6 : eli ni 1 = 2 := rfl
    rw [r0, r1, r2, r3, r4, r5, r6]
    refine term4_small rfl rfl rfl ?_ ?_ ?_ ?_ ?_ <;> (try rw [← he]) <;> (try simp only [zpow_ofNat, Int.cast_ofNat])
    · have h1 : 2 / e ≤ 2 := by rw [div_le_iff₀ (by linarith)]; linarith
      have h2 : 0 ≤ 2 / e := div_nonneg (by norm_num) (by linarith)
      rw [hm]; refine abs_le_of ?_ ?_ <;> [rw [le_div_iff₀ (by norm_num)]; rw [div_le_iff₀ (by norm_num)]] <;> linarith
    · have h1 : 2 / e ^ 2 ≤ 2 := by rw [div_le_iff₀ (by linarith [e2.1])]; linarith [e2.1]
      have h2 : 0 ≤ 2 / e ^ 2 := div_nonneg (by norm_num) (by linarith [e2.1])
      rw [hq]; refine abs_le_of ?_ ?_ <;> [rw [le_div_iff₀ (by norm_num)]; rw [div_le_iff₀ (by norm_num)]] <;> linarith
    · norm_num [abs_le]
    · refine abs_le_of ?_ ?_ <;> linarith [e2.1, e2.2]
    · norm_num; linarith [e2.1]
  · have r0 : el A4 2 = 0.00079027651 := by norm_num [el, A4]
    have r1 : el alpha 2 = 30 := by norm_num [el, alpha]
    have r2 : el beta 2 = 40000 := by norm_num [el, beta]
    have r3 : el ri 2 = 1.0038928 := by norm_num [el, ri]
    have r4 : el ti 2 = 0.99124013 := by norm_num [el, ti]
    have r5 : eli mi 2 = 2 := rfl
    have r6 : eli ni 2 = 0 := rfl
    rw [r0, r1, r2, r3, r4, r5, r6]
    refine term4_small rfl rfl rfl ?_ ?_ ?_ ?_ ?_ <;> (try rw [← he]) <;> (try simp only [zpow_zero, zpow_ofNat, Int.cast_zero, Int.cast_ofNat])
    · rw [hm]; refine abs_le_of ?_ ?_ <;> [rw [le_div_iff₀ (by norm_num)]; rw [div_le_iff₀ (by norm_num)]] <;> rw [zero_div] <;> linarith
    · rw [hq, zero_div]; norm_num [abs_le]
    · norm_num [abs_le]
    · norm_num [abs_le]
    · norm_num; linarith [e2.1]
  · have r0 : el A4 3 = -1.3362857 := by norm_num [el, A4]
    have r1 : el alpha 3 = 1050 := by norm_num [el, alpha]
    have r2 : el beta 3 = 25 := by norm_num [el, beta]
    have r3 : el ri 3 = 4.8778492 := by norm_num [el, ri]
    have r4 : el ti 3 = 0.41713659 := by norm_num [el, ti]
    have r5 : eli mi 3 = 4 := rfl
    have r6 : eli ni 3 = 0 := rfl
    rw [r0, r1, r2, r3, r4, r5, r6]
    refine term4_small rfl rfl rfl ?_ ?_ ?_ ?_ ?_ <;> (try rw [← hf]) <;> (try simp only [zpow_zero, zpow_ofNat, Int.cast_zero, Int.cast_ofNat])
    · rw [hm4]
      have : -0.17 < f ^ 2 * f ∧ f ^ 2 * f < 0 := by constructor <;> nlinarith [f2.1, f2.2]
      refine abs_le_of ?_ ?_ <;> [rw [le_div_iff₀ (by norm_num)]; rw [div_le_iff₀ (by norm_num)]] <;> linarith [this.1, this.2]
    · rw [hq4]; refine abs_le_of ?_ ?_ <;> [rw [le_div_iff₀ (by norm_num)]; rw [div_le_iff₀ (by norm_num)]] <;> linarith [f2.1, f2.2]
    · norm_num [abs_le]
    · norm_num [abs_le]
    · norm_num; linarith [f4.1]

lemma part4_S : |(part4 1 dS).fD| ≤ 4e-6 ∧ |(part4 1 dS).fDD| ≤ 4e-6 ∧ |(part4 1 dS).fTD| ≤ 4e-6 ∧
    |(part4 1 dS).fTDD - (part4Fix 1 dS).fTDD| ≤ 4e-6 := by
  have hl : List.range 4 = [0, 1, 2, 3] := by decide
  obtain ⟨a0, b0, c0, e0⟩ := term4_S 0 (by norm_num)
  obtain ⟨a1, b1, c1, e1⟩ := term4_S 1 (by norm_num)
  obtain ⟨a2, b2, c2, e2⟩ := term4_S 2 (by norm_num)
  obtain ⟨a3, b3, c3, e3⟩ := term4_S 3 (by norm_num)
  unfold part4 part4Fix
  rw [hl]
  simp only [foldl_fD, foldl_fDD, foldl_fTD, foldl_fTDD, List.map_cons, List.map_nil, List.sum_cons, List.sum_nil, WP.zero]
  refine ⟨abs_le.mpr ⟨?_, ?_⟩, abs_le.mpr ⟨?_, ?_⟩, abs_le.mpr ⟨?_, ?_⟩, abs_le.mpr ⟨?_, ?_⟩⟩
  · linarith [(abs_le.mp a0).1, (abs_le.mp a0).2, (abs_le.mp a1).1, (abs_le.mp a1).2, (abs_le.mp a2).1, (abs_le.mp a2).2, (abs_le.mp a3).1, (abs_le.mp a3).2]
  · linarith [(abs_le.mp a0).1, (abs_le.mp a0).2, (abs_le.mp a1).1, (abs_le.mp a1).2, (abs_le.mp a2).1, (abs_le.mp a2).2, (abs_le.mp a3).1, (abs_le.mp a3).2]
  · linarith [(abs_le.mp b0).1, (abs_le.mp b0).2, (abs_le.mp b1).1, (abs_le.mp b1).2, (abs_le.mp b2).1, (abs_le.mp b2).2, (abs_le.mp b3).1, (abs_le.mp b3).2]
  · linarith [(abs_le.mp b0).1, (abs_le.mp b0).2, (abs_le.mp b1).1, (abs_le.mp b1).2, (abs_le.mp b2).1, (abs_le.mp b2).2, (abs_le.mp b3).1, (abs_le.mp b3).2]
  · linarith [(abs_le.mp c0).1, (abs_le.mp c0).2, (abs_le.mp c1).1, (abs_le.mp c1).2, (abs_le.mp c2).1, (abs_le.mp c2).2, (abs_le.mp c3).1, (abs_le.mp c3).2]
  · linarith [(abs_le.mp c0).1, (abs_le.mp c0).2, (abs_le.mp c1).1, (abs_le.mp c1).2, (abs_le.mp c2).1, (abs_le.mp c2).2, (abs_le.mp c3).1, (abs_le.mp c3).2]
  · linarith [(abs_le.mp e0).1, (abs_le.mp e0).2, (abs_le.mp e1).1, (abs_le.mp e1).2, (abs_le.mp e2).1, (abs_le.mp e2).2, (abs_le.mp e3).1, (abs_le.mp e3).2]
  · linarith [(abs_le.mp e0).1, (abs_le.mp e0).2, (abs_le.mp e1).1, (abs_le.mp e1).2, (abs_le.mp e2).1, (abs_le.mp e2).2, (abs_le.mp e3).1, (abs_le.mp e3).2]

/-! ### The sum -/

lemma part0_S (t : ℝ) : (part0 t).fD = 0 ∧ (part0 t).fDD = 0 ∧ (part0 t).fTD = 0 := ⟨rfl, rfl, rfl⟩

/-- dP/dD is positive. -/
lemma reduced_PD : 0 < 2 * dS * (reduced 1 dS).fD + dS * dS * (reduced 1 dS).fDD := by
  obtain ⟨z1, z2, -⟩ := part0_S 1
  obtain ⟨p1, p2, -⟩ := part1_S
  obtain ⟨q1, q2, -⟩ := part3_S
  obtain ⟨r1, r2, -⟩ := part4_S
  obtain ⟨d1, d2⟩ := dS_bounds
  obtain ⟨⟨s1, -⟩, ⟨s3, -⟩, -⟩ := sums
  have s1' : (0 : ℝ) < sumD := by exact_mod_cast s1
  have s3' : (-5 : ℝ) < sumDD := by exact_mod_cast s3
  have h2 := part2_PD
  simp only [reduced, add, z1, z2, p1, p2, q1, q2]
  set a := (part2 1 dS).fD
  set b := (part2 1 dS).fDD
  obtain ⟨r3, r4⟩ := abs_le.mp r1
  obtain ⟨r5, r6⟩ := abs_le.mp r2
  have t1 : 0 ≤ 2 * dS * (z0 * (sumD : ℝ)) := by
    have : (0 : ℝ) < z0 := by norm_num [z0]
    have : 0 < dS := by linarith
    positivity
  have dd : dS * dS < 4.7583 := by nlinarith
  have dd0 : 0 < dS * dS := by nlinarith
  have t2 : dS * dS * (z0 ^ 2 * (sumDD : ℝ)) ≥ -2.41 := by
    have : z0 ^ 2 * (sumDD : ℝ) ≥ -0.505 := by norm_num [z0]; linarith
    nlinarith
  have t3 : 2 * dS * (part4 1 dS).fD ≥ -1 := by nlinarith
  have t4 : dS * dS * (part4 1 dS).fDD ≥ -1 := by nlinarith
  nlinarith

/-- dP/dT is positive. -/
lemma reduced_TD : 0 < (reduced 1 dS).fTD := by
  obtain ⟨-, -, z3⟩ := part0_S 1
  obtain ⟨-, -, p3⟩ := part1_S
  obtain ⟨-, -, q3⟩ := part3_S
  obtain ⟨-, -, r3, -⟩ := part4_S
  obtain ⟨-, -, -, s3⟩ := sums
  have s3' : (sumTD : ℝ) < 4 := by exact_mod_cast s3
  have h2 := part2_TD_pos
  have := (abs_le.mp r3).1
  simp only [reduced, add, z3, p3, q3]
  norm_num [z0] at *
  linarith

/-- The errors of the two third derivatives. -/
lemma reduced_gap : 0.04 < (reduced 1 dS).fTDD - (reducedFix 1 dS).fTDD ∧ 0 < (reducedFix 1 dS).fTTT * -1 + (reduced 1 dS).fTTT := by
  obtain ⟨-, -, -, r4⟩ := part4_S
  have h2 := part2_gap
  have h3 := part2_neg
  have := (abs_le.mp r4).1
  constructor
  · simp only [reduced, reducedFix, add]
    linarith
  · have e2 : (part2Fix 1 dS).fTTT = (part2 1 dS).fTTT + 3 * (part2 1 dS).f / (1 * 1) / 1 := rfl
    have e4 : (part4Fix 1 dS).fTTT = (part4 1 dS).fTTT := by
      unfold part4 part4Fix
      rw [show List.range 4 = [0, 1, 2, 3] by decide]
      rfl
    simp only [reduced, reducedFix, add, e2, e4]
    linarith

end HGK

end ThermoFun
