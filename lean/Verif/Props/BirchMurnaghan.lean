import Verif.Lemmas.BirchMurnaghan
import Verif.Props.SubstanceP
import Mathlib.Analysis.Calculus.Deriv.MeanValue
import Mathlib.Topology.Order.IntermediateValue

/-!
The Birch-Murnaghan model of solids: its volume, the integral of the volume, and the properties it returns.
-/

namespace ThermoFun.BM

open Set Topology Filter

/-! ### Specification -/

/-- The fourth-order Birch-Murnaghan equation: pressure of a solid of volume `vt` at zero pressure, bulk modulus `K` and its derivatives
`K1`, `K2`, compressed to the volume `v`. -/
noncomputable def pressure (vt K K1 K2 v : ℝ) : ℝ :=
  let x := (vt / v) ^ (2 / 3 : ℝ) - 1
  3 / 2 * K * x * (vt / v) ^ (5 / 3 : ℝ) * (1 + 3 / 4 * (K1 - 4) * x + 3 / 8 * (K * K2 + (K1 - 4) * (K1 - 3) + 35 / 9) * x ^ 2)

lemma pressure_eq (vt K K1 K2 v : ℝ) : pressure vt K K1 K2 v = bmP vt K K1 K2 v := by
  unfold pressure bmP; ring

/-- Between `lo` and `hi` the slope of the pressure is between -M and -m, which differ by a factor of two at most. -/
def Gentle (vt K K1 K2 lo hi m M : ℝ) : Prop :=
  0 < m ∧ M ≤ 2 * m ∧ ∀ v ∈ Icc lo hi, ∃ d, HasDerivAt (pressure vt K K1 K2) d v ∧ -M ≤ d ∧ d ≤ -m

lemma Gentle.slopes {vt K K1 K2 lo hi m M : ℝ} (hvt : 0 < vt) (hlo : 0 < lo) (h : Gentle vt K K1 K2 lo hi m M) :
    ∀ v ∈ Icc lo hi, -M ≤ bmD vt K K1 K2 v ∧ bmD vt K K1 K2 v ≤ -m := by
  intro v hv
  obtain ⟨d, hd, h1, h2⟩ := h.2.2 v hv
  have h3 := bmP_deriv hvt (hlo.trans_le hv.1) K K1 K2
  have : d = bmD vt K K1 K2 v := by
    refine HasDerivAt.unique hd (h3.congr_of_eventuallyEq (Eventually.of_forall fun x => ?_))
    exact pressure_eq vt K K1 K2 x
  rw [← this]; exact ⟨h1, h2⟩

/-! ### C106: the volume -/

/-- **C106** (slope): the slope used in the Newton steps is the derivative of the residual they bring to zero, and the residual is the
pressure of the equation of state minus the pressure. -/
theorem C106_slope_partial (P vt K K1 K2 : TS) (v : ℝ) (hvt : 0 < vt.val) (hv : 0 < v) :
    (∀ w : TS, (veq P vt K K1 K2 w).val = pressure vt.val K.val K1.val K2.val w.val - P.val) ∧
    ∀ w : TS, w.val = v → HasDerivAt (fun x => pressure vt.val K.val K1.val K2.val x - P.val) (dveq vt K K1 K2 w).val v := by
  refine ⟨fun w => by rw [veq_val, pressure_eq], fun w hw => ?_⟩
  rw [dveq_val, hw]
  have := (bmP_deriv hvt hv K.val K1.val K2.val).sub_const P.val
  refine this.congr_of_eventuallyEq (Eventually.of_forall fun x => ?_)
  exact congrArg (· - P.val) (pressure_eq vt.val K.val K1.val K2.val x)

lemma vol_close {P vt K K1 K2 v0 lo hi m M r : ℝ} (hvt : 0 < vt) (hlo : 0 < lo) (h : Gentle vt K K1 K2 lo hi m M) (hr : r ∈ Icc lo hi)
    (h0 : pressure vt K K1 K2 r = P) (hv : v0 ∈ Icc lo hi) :
    vol P vt K K1 K2 v0 ∈ uIcc r v0 ∧
      (|vol P vt K K1 K2 v0 - r| ≤ 3e-10 ∨ |vol P vt K K1 K2 v0 - r| ≤ (1 - m / (2 * M)) ^ 50 * |v0 - r|) := by
  have hs := h.slopes hvt hlo
  have hf : ∀ u ∈ Icc lo hi, HasDerivAt (fun v => bmP vt K K1 K2 v - P) (bmD vt K K1 K2 u) u := fun u hu =>
    (bmP_deriv hvt (hlo.trans_le hu.1) K K1 K2).sub_const P
  have h0' : bmP vt K K1 K2 r - P = 0 := by rw [← pressure_eq, h0, sub_self]
  obtain ⟨a, b, c⟩ := nstep_close hf h.1 hs h.2.1 hr h0' hv
  have hsub : uIcc r v0 ⊆ Icc lo hi := uIcc_subset_Icc hr hv
  obtain ⟨d, e⟩ := nloop_close hf h.1 hs h.2.1 hr h0' 49 _ v0 (hsub a) c
  have hMm : m ≤ M := by have := hs r hr; linarith [this.1, this.2]
  have hq : 0 ≤ 1 - m / (2 * M) := by
    have hm := h.1
    rw [sub_nonneg, div_le_one (by linarith)]; linarith
  refine ⟨uIcc_subset_uIcc left_mem_uIcc a d, ?_⟩
  rcases e with e | e
  · exact Or.inl e
  · right
    refine e.trans ?_
    rw [show (1 - m / (2 * M)) ^ 50 = (1 - m / (2 * M)) ^ 49 * (1 - m / (2 * M)) from pow_succ _ 49, mul_assoc]
    exact mul_le_mul_of_nonneg_left b (pow_nonneg hq _)

/-- A solid of 10 cm³/mol compressed to 8 cm³/mol. -/
example : HasDerivAt (fun x => pressure 10 1000 4 (-0.004) x - 500) (dveq (TS.ofVal 10) (TS.ofVal 1000) (TS.ofVal 4) (TS.ofVal (-0.004)) (TS.ofVal 8)).val 8 :=
  (C106_slope_partial (TS.ofVal 500) (TS.ofVal 10) (TS.ofVal 1000) (TS.ofVal 4) (TS.ofVal (-0.004)) 8 (by rw [TS.val_ofVal]; norm_num) (by norm_num)).2
    (TS.ofVal 8) rfl

/-- **C106** (volume): where the slope of the pressure varies by a factor of two at most, the volume returned lies between the start and the
solution `r` of the equation of state, and differs from the solution by at most 3·10⁻¹⁰ cm³/mol, or by the error of the start times
(1 - m/(2M))⁵⁰, which is less than 6·10⁻⁷.
Missing from C106: strong compression, where the slope varies more; the steps are half of Newton's, so the solution is approached by halving the
error only, and not reached. -/
theorem C106_volume_partial (P vt K K1 K2 v0 : TS) (lo hi m M r : ℝ) (hvt : 0 < vt.val) (hlo : 0 < lo)
    (h : Gentle vt.val K.val K1.val K2.val lo hi m M) (hr : r ∈ Icc lo hi) (h0 : pressure vt.val K.val K1.val K2.val r = P.val)
    (hv : v0.val ∈ Icc lo hi) :
    (volume P vt K K1 K2 v0).val ∈ uIcc r v0.val ∧
      (|(volume P vt K K1 K2 v0).val - r| ≤ 3e-10 ∨ |(volume P vt K K1 K2 v0).val - r| ≤ 6e-7 * |v0.val - r|) := by
  rw [volume_val]
  obtain ⟨a, b⟩ := vol_close hvt hlo h hr h0 hv
  refine ⟨a, b.imp_right fun b => b.trans ?_⟩
  refine mul_le_mul_of_nonneg_right ?_ (abs_nonneg _)
  have hm := h.1
  have h2 := h.2.1
  have hMm : m ≤ M := by have := h.slopes hvt hlo r hr; linarith [this.1, this.2]
  have h3 : 1 - m / (2 * M) ≤ 3 / 4 := by
    have : 1 / 4 ≤ m / (2 * M) := by rw [div_le_div_iff₀ (by norm_num) (by linarith)]; linarith
    linarith
  have h4 : 0 ≤ 1 - m / (2 * M) := by rw [sub_nonneg, div_le_one (by linarith)]; linarith
  calc (1 - m / (2 * M)) ^ 50 ≤ (3 / 4) ^ 50 := pow_le_pow_left₀ h4 h3 50
    _ ≤ 6e-7 := by norm_num

/-! ### A soft solid: K = 1000 MPa, K' = 4, no second derivative given -/

/-- The default second derivative for K' = 4. -/
noncomputable def exK2 : ℝ := -(35 / 9 / 1000)

lemma ex_P {vt v y : ℝ} (e2 : (vt / v) ^ (2 / 3 : ℝ) = y ^ 2) (e5 : (vt / v) ^ (5 / 3 : ℝ) = y ^ 5) :
    bmP vt 1000 4 exK2 v = 1500 * (y ^ 7 - y ^ 5) := by
  unfold bmP exK2
  rw [e2, e5]; ring

lemma ex_D {vt v y : ℝ} (hv : 0 < v) (e1 : (vt / v) ^ (1 / 3 : ℝ) = y) (e2 : (vt / v) ^ (2 / 3 : ℝ) = y ^ 2) (e4 : vt = v * y ^ 3) :
    bmD vt 1000 4 exK2 v = -(1000 * (3.5 * y ^ 7 - 2.5 * y ^ 5) / v) := by
  unfold bmD exK2
  rw [e1, e2]
  subst e4
  field_simp
  ring

lemma ex_Int {vt v y : ℝ} (hv : 0 < v) (e1 : (vt / v) ^ (1 / 3 : ℝ) = y) (e2 : (vt / v) ^ (2 / 3 : ℝ) = y ^ 2) (e4 : vt = v * y ^ 3) :
    bmInt vt 1000 4 exK2 v = -(1125 * vt * (y ^ 2 - 1) ^ 2) := by
  unfold bmInt exK2
  rw [e1, e2]
  subst e4
  field_simp
  ring

lemma ex_y {vt v y : ℝ} (hv : 0 < v) (hvt : 0 < vt) (hy : 0 < y) (e4 : vt = v * y ^ 3) (h1 : 0.97 * vt ≤ v) (h2 : v ≤ 1.01 * vt) :
    0.9966 ≤ y ∧ y ≤ 1.0103 := by
  constructor
  · by_contra hn
    have h3 : y ^ 3 < 0.9966 ^ 3 := pow_lt_pow_left₀ (not_le.mp hn) hy.le (by norm_num)
    have h4 : v * y ^ 3 < v * 0.9966 ^ 3 := mul_lt_mul_of_pos_left h3 hv
    rw [← e4] at h4
    norm_num at h4 h2
    nlinarith
  · by_contra hn
    have h3 : 1.0103 ^ 3 < y ^ 3 := pow_lt_pow_left₀ (not_le.mp hn) (by norm_num) (by norm_num)
    have h4 : v * 1.0103 ^ 3 < v * y ^ 3 := mul_lt_mul_of_pos_left h3 hv
    rw [← e4] at h4
    norm_num at h4 h1
    nlinarith

lemma ex_gentle {vt : ℝ} (hvt : 0 < vt) : Gentle vt 1000 4 exK2 (0.97 * vt) (1.01 * vt) (770 / vt) (1350 / vt) := by
  refine ⟨by positivity, ?_, fun v hv => ?_⟩
  · rw [← mul_div_assoc, div_le_div_iff_of_pos_right hvt]; norm_num
  · have hv0 : 0 < v := lt_of_lt_of_le (by positivity) hv.1
    refine ⟨bmD vt 1000 4 exK2 v, ?_, ?_⟩
    · exact (bmP_deriv hvt hv0 1000 4 exK2).congr_of_eventuallyEq (Eventually.of_forall fun x => pressure_eq vt 1000 4 exK2 x)
    · obtain ⟨y, hy, e1, e2, e3, e4⟩ := cube_sub hvt hv0
      obtain ⟨y1, y2⟩ := ex_y hv0 hvt hy e4 hv.1 hv.2
      rw [ex_D hv0 e1 e2 e4]
      have a7 : 0.9966 ^ 7 ≤ y ^ 7 := pow_le_pow_left₀ (by norm_num) y1 7
      have b7 : y ^ 7 ≤ 1.0103 ^ 7 := pow_le_pow_left₀ hy.le y2 7
      have a5 : 0.9966 ^ 5 ≤ y ^ 5 := pow_le_pow_left₀ (by norm_num) y1 5
      have b5 : y ^ 5 ≤ 1.0103 ^ 5 := pow_le_pow_left₀ hy.le y2 5
      norm_num at a7 b7 a5 b5
      have hv1 := hv.1
      have hv2 := hv.2
      constructor
      · rw [neg_le_neg_iff, div_le_div_iff₀ hv0 hvt]
        nlinarith
      · rw [neg_le_neg_iff, div_le_div_iff₀ hvt hv0]
        nlinarith

/-- The example meets the conditions of `C106_volume_partial`: 10 cm³/mol, any pressure with a solution, any start within a few percent. -/
example (P r v0 : ℝ) (hr : r ∈ Icc (0.97 * 10 : ℝ) (1.01 * 10)) (h0 : pressure 10 1000 4 exK2 r = P) (hv : v0 ∈ Icc (0.97 * 10 : ℝ) (1.01 * 10)) :
    (volume (TS.ofVal P) (TS.ofVal 10) (TS.ofVal 1000) (TS.ofVal 4) (TS.ofVal exK2) (TS.ofVal v0)).val ∈ uIcc r v0 :=
  (C106_volume_partial (TS.ofVal P) (TS.ofVal 10) (TS.ofVal 1000) (TS.ofVal 4) (TS.ofVal exK2) (TS.ofVal v0) _ _ _ _ r (by norm_num)
    (by norm_num) (ex_gentle (by norm_num)) hr h0 hv).1

/-! ### C107: the integral of the volume -/

/-- **C107**: with the exact volume, the increment of G has the volume as its derivative with respect to pressure; with a volume near the
exact one it differs from that at the exact volume by at most M times the square of the error.
Missing from C107: that the increment vanishes at the reference pressure (the volume `vt` belongs to pressure 0 in the equation of state but is
taken as the volume at the reference pressure), see `C107_reference_refuted`. -/
theorem C107_integral_partial (Pref vt K K1 K2 : TS) (hvt : 0 < vt.val) :
    (∀ (vs : ℝ → ℝ) (p d : ℝ), 0 < vs p → pressure vt.val K.val K1.val K2.val (vs p) = p → HasDerivAt vs d p →
      HasDerivAt (fun x => (intVol (TS.ofVal x) Pref vt (TS.ofVal (vs x)) K K1 K2).val) (vs p) p) ∧
    ∀ (P : TS) (lo hi m M r : ℝ) (v : TS), 0 < lo → Gentle vt.val K.val K1.val K2.val lo hi m M → r ∈ Icc lo hi →
      pressure vt.val K.val K1.val K2.val r = P.val → v.val ∈ Icc lo hi →
      |(intVol P Pref vt v K K1 K2).val - (intVol P Pref vt (TS.ofVal r) K K1 K2).val| ≤ M * |v.val - r| ^ 2 := by
  constructor
  · intro vs p d hpos h0 hd
    have h1 := (bmInt_deriv hvt hpos K.val K1.val K2.val).comp p hd
    have h2 := (((hasDerivAt_id' p).fun_mul hd).const_add (-Pref.val * vt.val)).fun_sub h1
    refine (h2.congr_of_eventuallyEq (Eventually.of_forall fun x => ?_)).congr_deriv ?_
    · rw [intVol_val]; rfl
    · rw [← pressure_eq, h0]; ring
  · intro P lo hi m M r v hlo h hr h0 hv
    rw [intVol_val, intVol_val, TS.val_ofVal]
    have hs := h.slopes hvt hlo
    have hsub : uIcc r v.val ⊆ Icc lo hi := uIcc_subset_Icc hr hv
    have hder : ∀ x ∈ uIcc r v.val, HasDerivWithinAt (fun x => -Pref.val * vt.val + P.val * x - bmInt vt.val K.val K1.val K2.val x)
        (P.val - bmP vt.val K.val K1.val K2.val x) (uIcc r v.val) x := by
      intro x hx
      have h1 := bmInt_deriv hvt (hlo.trans_le (hsub hx).1) K.val K1.val K2.val
      have h2 := (((hasDerivAt_id' x).const_mul P.val).const_add (-Pref.val * vt.val)).fun_sub h1
      exact (h2.congr_deriv (by ring)).hasDerivWithinAt
    have hbound : ∀ x ∈ uIcc r v.val, ‖P.val - bmP vt.val K.val K1.val K2.val x‖ ≤ M * |v.val - r| := by
      intro x hx
      have hd : ∀ z ∈ uIcc r v.val, HasDerivWithinAt (bmP vt.val K.val K1.val K2.val) (bmD vt.val K.val K1.val K2.val z) (uIcc r v.val) z :=
        fun z hz => (bmP_deriv hvt (hlo.trans_le (hsub hz).1) K.val K1.val K2.val).hasDerivWithinAt
      have hb : ∀ z ∈ uIcc r v.val, ‖bmD vt.val K.val K1.val K2.val z‖ ≤ M := by
        intro z hz
        have := hs z (hsub hz)
        rw [Real.norm_eq_abs, abs_le]
        exact ⟨this.1, by linarith [this.1, this.2, h.1]⟩
      have := (convex_uIcc r v.val).norm_image_sub_le_of_norm_hasDerivWithin_le hd hb hx left_mem_uIcc
      rw [← pressure_eq vt.val K.val K1.val K2.val r, h0, Real.norm_eq_abs, Real.norm_eq_abs] at this
      rw [Real.norm_eq_abs]
      refine this.trans (mul_le_mul_of_nonneg_left ?_ ?_)
      · rw [abs_sub_comm]
        exact abs_sub_left_of_mem_uIcc hx
      · have := hs r hr; linarith [this.1, this.2, h.1]
    have := (convex_uIcc r v.val).norm_image_sub_le_of_norm_hasDerivWithin_le hder hbound left_mem_uIcc right_mem_uIcc
    rw [Real.norm_eq_abs, Real.norm_eq_abs] at this
    rw [pow_two, ← mul_assoc]
    exact this

lemma Gentle.strictAnti {vt K K1 K2 lo hi m M : ℝ} (h : Gentle vt K K1 K2 lo hi m M) {a b : ℝ} (ha : a ∈ Icc lo hi) (hb : b ∈ Icc lo hi)
    (hab : a < b) : pressure vt K K1 K2 b < pressure vt K K1 K2 a := by
  have hsub : Icc a b ⊆ Icc lo hi := Icc_subset_Icc ha.1 hb.2
  choose! d hd using h.2.2
  obtain ⟨c, hc, hc2⟩ := exists_hasDerivAt_eq_slope (pressure vt K K1 K2) d hab
    (fun x hx => (hd x (hsub hx)).1.continuousAt.continuousWithinAt) (fun x hx => (hd x (hsub (Ioo_subset_Icc_self hx))).1)
  have h1 := (hd c (hsub (Ioo_subset_Icc_self hc))).2.2
  rw [hc2, div_le_iff₀ (by linarith)] at h1
  have := h.1
  nlinarith

/-- **C107** is violated at the reference pressure: with the exact volume `r` at that pressure the increment of G is negative, not zero, at every
temperature. -/
theorem C107_reference_refuted (Pref vt K K1 K2 : TS) (lo hi m M r : ℝ) (hvt : 0 < vt.val) (hlo : 0 < lo)
    (h : Gentle vt.val K.val K1.val K2.val lo hi m M) (hP : 0 < Pref.val) (hr : r ∈ Icc lo hi) (hv : vt.val ∈ Icc lo hi)
    (h0 : pressure vt.val K.val K1.val K2.val r = Pref.val) : (intVol Pref Pref vt (TS.ofVal r) K K1 K2).val < 0 := by
  have hself : pressure vt.val K.val K1.val K2.val vt.val = 0 := by
    unfold pressure; rw [div_self hvt.ne', Real.one_rpow]; norm_num
  have hlt : r < vt.val := by
    rcases lt_trichotomy r vt.val with h1 | h1 | h1
    · exact h1
    · rw [h1, hself] at h0; linarith
    · have := h.strictAnti hv hr h1; linarith
  rw [intVol_val, TS.val_ofVal]
  have hsub : Icc r vt.val ⊆ Icc lo hi := Icc_subset_Icc hr.1 hv.2
  have hder : ∀ x ∈ Icc r vt.val, HasDerivAt (fun x => -Pref.val * vt.val + Pref.val * x - bmInt vt.val K.val K1.val K2.val x)
      (Pref.val - bmP vt.val K.val K1.val K2.val x) x := by
    intro x hx
    have h1 := bmInt_deriv hvt (hlo.trans_le (hsub hx).1) K.val K1.val K2.val
    have h2 := (((hasDerivAt_id' x).const_mul Pref.val).const_add (-Pref.val * vt.val)).fun_sub h1
    exact h2.congr_deriv (by ring)
  obtain ⟨c, hc, hc2⟩ := exists_hasDerivAt_eq_slope _ _ hlt (fun x hx => (hder x hx).continuousAt.continuousWithinAt)
    (fun x hx => hder x (Ioo_subset_Icc_self hx))
  have h1 := h.strictAnti hr (hsub (Ioo_subset_Icc_self hc)) hc.1
  rw [← pressure_eq] at hc2
  rw [bmInt_self hvt, eq_div_iff (by linarith)] at hc2
  nlinarith

/-! ### The soft solid, continued -/

/-- A solution exists for every pressure up to 10 MPa, and scales with the volume. -/
lemma ex_root {p : ℝ} (h0 : 0 ≤ p) (h1 : p ≤ 10) : ∃ u, 0.98 ≤ u ∧ u ≤ 1 ∧ ∀ vt, 0 < vt → pressure vt 1000 4 exK2 (vt * u) = p := by
  have hcont : ContinuousOn (pressure 1 1000 4 exK2) (Icc 0.98 1) := by
    intro v hv
    have hv0 : (0 : ℝ) < v := lt_of_lt_of_le (by norm_num) hv.1
    have := (bmP_deriv one_pos hv0 1000 4 exK2).congr_of_eventuallyEq (f₁ := pressure 1 1000 4 exK2)
      (Eventually.of_forall fun x => pressure_eq 1 1000 4 exK2 x)
    exact this.continuousAt.continuousWithinAt
  have e1 : pressure 1 1000 4 exK2 1 = 0 := by unfold pressure; norm_num
  have e2 : 10 ≤ pressure 1 1000 4 exK2 0.98 := by
    obtain ⟨y, hy, _, f2, f3, f4⟩ := cube_sub (vt := 1) (v := 0.98) one_pos (by norm_num)
    rw [pressure_eq, ex_P f2 f3]
    have hy1 : 1.0067 ≤ y := by
      by_contra hn
      have : y ^ 3 < 1.0067 ^ 3 := pow_lt_pow_left₀ (not_le.mp hn) hy.le (by norm_num)
      norm_num at this f4
      linarith
    have h5 : 1.0067 ^ 5 ≤ y ^ 5 := pow_le_pow_left₀ (by norm_num) hy1 5
    have h2 : 1.0067 ^ 2 ≤ y ^ 2 := pow_le_pow_left₀ (by norm_num) hy1 2
    norm_num at h5 h2
    nlinarith
  obtain ⟨u, hu, hu2⟩ := intermediate_value_Icc' (by norm_num) hcont (show p ∈ Icc _ _ from ⟨e1.le.trans h0, h1.trans e2⟩)
  refine ⟨u, hu.1, hu.2, fun vt hvt => ?_⟩
  rw [← hu2]
  unfold pressure
  have : vt / (vt * u) = 1 / u := by field_simp
  rw [this]

/-- The value of the increment of G for the soft solid. -/
noncomputable def exPhi (p vt v : ℝ) : ℝ := -0.1 * vt + p * v - bmInt vt 1000 4 exK2 v

/-- What the solver returns for the soft solid. -/
lemma ex_vol {p : ℝ} (h0 : 0 ≤ p) (h1 : p ≤ 10) : ∃ u c, 0.98 ≤ u ∧ u ≤ 1 ∧ 0.98 * p - 0.1 ≤ c ∧ ∀ vt s, 1 ≤ vt → vt ≤ 11 → s ∈ Icc (0.97 * vt) (1.01 * vt) →
    |vol p vt 1000 4 exK2 s - vt * u| ≤ 1e-6 ∧ |exPhi p vt (vol p vt 1000 4 exK2 s) - vt * c| ≤ 1e-8 := by
  obtain ⟨u, hu1, hu2, hu⟩ := ex_root h0 h1
  refine ⟨u, exPhi p 1 u, hu1, hu2, ?_, fun vt s hv1 hv2 hs => ?_⟩
  · unfold exPhi
    obtain ⟨y, hy, f1, f2, f3, f4⟩ := cube_sub (vt := 1) (v := u) one_pos (by linarith)
    rw [ex_Int (by linarith) f1 f2 f4]
    nlinarith [sq_nonneg (y ^ 2 - 1)]
  · have hvt : 0 < vt := by linarith
    have hg := ex_gentle hvt
    have hr : vt * u ∈ Icc (0.97 * vt) (1.01 * vt) := ⟨by nlinarith, by nlinarith⟩
    obtain ⟨a, b⟩ := C106_volume_partial (TS.ofVal p) (TS.ofVal vt) (TS.ofVal 1000) (TS.ofVal 4) (TS.ofVal exK2) (TS.ofVal s) _ _ _ _ (vt * u)
      hvt (by change 0 < 0.97 * vt; positivity) hg hr (hu vt hvt) hs
    rw [volume_val] at a b
    simp only [TS.val_ofVal] at a b
    have he : |vol p vt 1000 4 exK2 s - vt * u| ≤ 1e-6 := by
      rcases b with b | b
      · exact b.trans (by norm_num)
      · refine b.trans ?_
        have : |s - vt * u| ≤ 0.44 := by
          rw [abs_le]
          constructor
          · nlinarith [hs.1, hr.2]
          · nlinarith [hs.2, hr.1]
        nlinarith
    refine ⟨he, ?_⟩
    have hmem := uIcc_subset_Icc hr hs a
    have hq := (C107_integral_partial (TS.ofVal 0.1) (TS.ofVal vt) (TS.ofVal 1000) (TS.ofVal 4) (TS.ofVal exK2) hvt).2 (TS.ofVal p) _ _ _ _ (vt * u)
      (TS.ofVal (vol p vt 1000 4 exK2 s)) (by change 0 < 0.97 * vt; positivity) hg hr (hu vt hvt) hmem
    rw [intVol_val, intVol_val] at hq
    simp only [TS.val_ofVal] at hq
    have hsc : vt * exPhi p 1 u = -0.1 * vt + p * (vt * u) - bmInt vt 1000 4 exK2 (vt * u) := by
      unfold exPhi
      obtain ⟨y, hy, f1, f2, f3, f4⟩ := cube_sub (vt := 1) (v := u) one_pos (by linarith)
      have hdiv : vt / (vt * u) = 1 / u := by field_simp
      rw [ex_Int (by linarith) f1 f2 f4, ex_Int (y := y) (by nlinarith) (by rw [hdiv]; exact f1) (by rw [hdiv]; exact f2) (by
        rw [mul_assoc, ← f4, mul_one])]
      ring
    rw [hsc]
    unfold exPhi
    refine hq.trans ?_
    have h3 : |vol p vt 1000 4 exK2 s - vt * u| ^ 2 ≤ 1e-6 ^ 2 := pow_le_pow_left₀ (abs_nonneg _) he 2
    have h4 : 1350 / vt ≤ 1350 := by rw [div_le_iff₀ hvt]; linarith
    have h5 : 0 ≤ 1350 / vt := by positivity
    calc 1350 / vt * |vol p vt 1000 4 exK2 s - vt * u| ^ 2 ≤ 1350 * 1e-6 ^ 2 := mul_le_mul h4 h3 (by positivity) (by norm_num)
      _ ≤ 1e-8 := by norm_num

/-- The example meets the conditions of `C107_integral_partial` and `C107_reference_refuted`. -/
example : ∃ r, (intVol (TS.ofVal 0.1) (TS.ofVal 0.1) (TS.ofVal 10) (TS.ofVal r) (TS.ofVal 1000) (TS.ofVal 4) (TS.ofVal exK2)).val < 0 := by
  obtain ⟨u, hu1, hu2, hu⟩ := ex_root (p := 0.1) (by norm_num) (by norm_num)
  exact ⟨10 * u, C107_reference_refuted (TS.ofVal 0.1) (TS.ofVal 10) (TS.ofVal 1000) (TS.ofVal 4) (TS.ofVal exK2) _ _ _ _ (10 * u) (by norm_num)
    (by change (0 : ℝ) < 0.97 * 10; norm_num) (ex_gentle (by norm_num)) (by norm_num)
    ⟨by change (0.97 * 10 : ℝ) ≤ _; linarith, by change _ ≤ (1.01 * 10 : ℝ); linarith⟩ ⟨by norm_num, by norm_num⟩
    (hu 10 (by norm_num))⟩

end ThermoFun.BM
