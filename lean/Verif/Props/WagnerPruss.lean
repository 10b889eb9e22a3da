import Verif.Lemmas.WagnerPrussLow
import Verif.Lemmas.Solve
import Verif.Props.WaterState
import Mathlib.Tactic.IntervalCases

/-!
# Properties of the Helmholtz function of Wagner and Pruss

C93 The reported partial derivatives of the Helmholtz function are its partial derivatives.
C95 At low density water is an ideal gas.
-/

namespace ThermoFun

open WP Filter Topology

/-- The derivative of helmholtzTT by temperature. -/
noncomputable def wpTTT (T D : ℝ) : ℝ :=
  let phi := add (ideal coef (647.096 / T) (D / 322)) (residual coef (647.096 / T) (D / 322))
  let tT := -647.096 / (T * T)
  let tTT := 2 * 647.096 / (T * T * T)
  461.51805 * T * (phi.fTTT * tT * tT * tT + 3 * phi.fTT * tT * tTT + phi.fT * (-6 * 647.096 / (T * T * T * T))) +
    3 * 461.51805 * (phi.fTT * tT * tT + phi.fT * tTT)

lemma coef_gammao : ∀ j < 5, 0 < el coef.gammao j := by
  intro j hj
  interval_cases j <;> norm_num [el, coef]

lemma coef_E : ∀ j < 2, el coef.E j ≠ 0 := by
  intro j hj
  interval_cases j <;> norm_num [el, coef]

lemma coef_B : ∀ j < 2, 0 < el coef.B j := by
  intro j hj
  interval_cases j <;> norm_num [el, coef]

lemma coef_d : ∀ i < 54, 0 < el coef.d (i + 1) := by
  have h : ∀ i < 54, 0 < coef.d.getD (i + 1) 0 := by decide +kernel
  exact fun i hi => by unfold el; exact_mod_cast h i hi

lemma coef_c : ∀ i < 44, 0 < el coef.c (i + 8) := by
  have h : ∀ i < 44, 0 < coef.c.getD (i + 8) 0 := by decide +kernel
  exact fun i hi => by unfold el; exact_mod_cast h i hi

/-- The Helmholtz function with the derivatives it should report. -/
lemma wp_jet {T D : ℝ} (hT : 0 < T) (hD : 0 < D) (hc : D ≠ 322) : Jet (fun T D => { helmholtz T D with fTTT := wpTTT T D }) T D := by
  have hx : 0 < 647.096 / T := by positivity
  have hy : 0 < D / 322 := by positivity
  have h1 : D / 322 ≠ 1 := fun h => hc (by field_simp at h; linarith)
  have hphi := (ideal_jet coef hx hy coef_gammao).plus (residual_jet coef hx hy h1 coef_E coef_B)
  have u1 : HasDerivAt (fun T : ℝ => 647.096 / T) (-647.096 / (T * T)) T := by
    exact ((hasDerivAt_const T (647.096 : ℝ)).fun_div (hasDerivAt_id' T) hT.ne').congr_deriv (by ring)
  have u2 : HasDerivAt (fun T : ℝ => -647.096 / (T * T)) (2 * 647.096 / (T * T * T)) T := by
    refine ((hasDerivAt_const T (-647.096 : ℝ)).fun_div ((hasDerivAt_id' T).fun_mul (hasDerivAt_id' T)) (by positivity)).congr_deriv ?_
    field_simp; ring
  have u3 : HasDerivAt (fun T : ℝ => 2 * 647.096 / (T * T * T)) (-6 * 647.096 / (T * T * T * T)) T := by
    refine ((hasDerivAt_const T (2 * 647.096 : ℝ)).fun_div (((hasDerivAt_id' T).fun_mul (hasDerivAt_id' T)).fun_mul (hasDerivAt_id' T)) (by positivity)).congr_deriv ?_
    field_simp; ring
  have v1 : HasDerivAt (fun D : ℝ => D / 322) (1 / 322) D := (hasDerivAt_id' D).div_const 322
  have hch := Jet.change (u := fun T : ℝ => 647.096 / T) (u1 := fun T : ℝ => -647.096 / (T * T)) (u2 := fun T : ℝ => 2 * 647.096 / (T * T * T))
    (u3 := fun T : ℝ => -6 * 647.096 / (T * T * T * T)) (v := fun D => D / 322) hphi u1 u2 u3 v1
  refine (hch.times (Jet.varT.scale 461.51805)).congr_fun fun T D => ?_
  ext <;> simp only [helmholtz, helmholtzOf, dimensioned, wpTTT, add_eq, Helm.times, Helm.scale, Helm.ofT] <;> ring

/-- **C93, the part that holds.**  At every temperature and density other than the critical density, each derivative that
`waterHelmholtzStateWagnerPruss` reports, up to the third order and except the third derivative by temperature, is the partial derivative
of the function it reports one order below.
Missing: helmholtzTTT, see `C93_refuted`; the critical density 322 kg/m³, where the code divides 0 by 0. -/
theorem C93_partial (T D : ℝ) (hT : 0 < T) (hD : 0 < D) (hc : D ≠ 322) :
    HelmGrad helmholtz T D ∧ HasDerivAt (fun D => (helmholtz T D).fTT) (helmholtz T D).fTTD D := by
  have h := wp_jet hT hD hc
  exact ⟨⟨h.f, h.fT, h.fD, h.fTD, h.fDD⟩, h.fTT.dy⟩

/-- The hypotheses of `C93_partial`: liquid water at 298.15 K. -/
example : (0 : ℝ) < 298.15 ∧ (0 : ℝ) < 997 ∧ (997 : ℝ) ≠ 322 := by norm_num

lemma wp_low (x : ℝ) : Low (fun y => residual coef x y) := residual_low coef x coef_d coef_c coef_E coef_B

lemma ideal_D (x y : ℝ) : (ideal coef x y).fD = 1 / y ∧ (ideal coef x y).fDD = -1 / y ^ 2 ∧ (ideal coef x y).fTD = 0 := by
  have hl : (List.range 5).map (· + 4) = [4, 5, 6, 7, 8] := by decide
  simp only [ideal, hl, List.foldl_cons, List.foldl_nil, and_self]

lemma ideal_TTT {x y : ℝ} (hx : 0 < x) : 2 * 3.00632 / x ^ 3 ≤ (ideal coef x y).fTTT := by
  have hl : (List.range 5).map (· + 4) = [4, 5, 6, 7, 8] := by decide
  have hp : ∀ i ∈ [4, 5, 6, 7, 8], 0 < el coef.no i := by
    intro i hi
    fin_cases hi <;> norm_num [el, coef]
  have h : ∀ i j : ℕ, i ∈ [4, 5, 6, 7, 8] → j < 5 → 0 ≤ el coef.no i * Real.exp (el coef.gammao j * x) * (1 + Real.exp (el coef.gammao j * x)) *
      (el coef.gammao j / (Real.exp (el coef.gammao j * x) - 1)) ^ 3 := by
    intro i j hi hj
    have h1 := hp i hi
    have h2 := coef_gammao j hj
    have h3 : 0 < Real.exp (el coef.gammao j * x) - 1 := by
      have := Real.one_lt_exp_iff.mpr (mul_pos h2 hx)
      linarith
    positivity
  have h3 : el coef.no 3 = 3.00632 := by norm_num [el, coef]
  simp only [ideal, hl, List.foldl_cons, List.foldl_nil, Nat.sub_self, show 5 - 4 = 1 by rfl, show 6 - 4 = 2 by rfl, show 7 - 4 = 3 by rfl,
    show 8 - 4 = 4 by rfl, h3]
  have := h 4 0 (by simp) (by omega)
  have := h 5 1 (by simp) (by omega)
  have := h 6 2 (by simp) (by omega)
  have := h 7 3 (by simp) (by omega)
  have := h 8 4 (by simp) (by omega)
  linarith

/-- The third derivative by temperature is wrong wherever that of the reduced function does not vanish. -/
lemma wpTTT_ne {T D : ℝ} (hT : 0 < T)
    (h : (add (ideal coef (647.096 / T) (D / 322)) (residual coef (647.096 / T) (D / 322))).fTTT ≠ 0) : (helmholtz T D).fTTT ≠ wpTTT T D := by
  intro e
  simp only [helmholtz, helmholtzOf, dimensioned, wpTTT] at e
  set p := add (ideal coef (647.096 / T) (D / 322)) (residual coef (647.096 / T) (D / 322))
  have e2 : p.fTTT * ((647.096 ^ 2 / T ^ 4) * (647.096 * (1 + 1 / T ^ 2))) * (461.51805 * T) = 0 := by
    have : 647.096 / T * T = 647.096 := by field_simp
    field_simp at e ⊢
    linarith
  have h2 : (647.096 ^ 2 / T ^ 4) * (647.096 * (1 + 1 / T ^ 2)) * (461.51805 * T) ≠ 0 := by positivity
  exact h (by
    rcases mul_eq_zero.mp (by rw [← mul_assoc] ; exact e2 : p.fTTT * ((647.096 ^ 2 / T ^ 4) * (647.096 * (1 + 1 / T ^ 2)) * (461.51805 * T)) = 0) with h | h
    · exact h
    · exact absurd h h2)

/-- **C93 fails for the third derivative by temperature.**  At every temperature there is a density below which helmholtzTTT is not the
derivative of helmholtzTT: the code multiplies by tT·tT·tau·T where the chain rule demands tT³. -/
theorem C93_refuted (T : ℝ) (hT : 0 < T) : ∃ d > 0, ∀ D, 0 < D → D < d →
    ¬HasDerivAt (fun T => (helmholtz T D).fTT) (helmholtz T D).fTTT T := by
  have hx : 0 < 647.096 / T := by positivity
  have hl := (wp_low (647.096 / T)).fTTT
  have hpos : 0 < 2 * 3.00632 / (647.096 / T) ^ 3 := by positivity
  have hev := (hl.eventually_const_lt (show -(2 * 3.00632 / (647.096 / T) ^ 3) < 0 by linarith))
  rw [eventually_nhdsWithin_iff, Metric.eventually_nhds_iff] at hev
  obtain ⟨r, hr, hev⟩ := hev
  refine ⟨min (322 * r) 322, by positivity, fun D hD hD2 => ?_⟩
  have hDr : D / 322 < r := by
    have := lt_of_lt_of_le hD2 (min_le_left _ _)
    rw [div_lt_iff₀ (by norm_num)]; linarith
  have hDc : D ≠ 322 := (lt_of_lt_of_le hD2 (min_le_right _ _)).ne
  have hy : 0 < D / 322 := by positivity
  have h1 := hev (y := D / 322) (by rw [Real.dist_eq, sub_zero, abs_of_pos hy]; exact hDr) hy
  have h2 := ideal_TTT (y := D / 322) hx
  have hne : (add (ideal coef (647.096 / T) (D / 322)) (residual coef (647.096 / T) (D / 322))).fTTT ≠ 0 := by
    have : 0 < (ideal coef (647.096 / T) (D / 322)).fTTT + (residual coef (647.096 / T) (D / 322)).fTTT := by linarith
    exact this.ne'
  intro hd
  have := (wp_jet hT hD hDc).fTT.dx
  exact wpTTT_ne hT hne (hd.unique this)

/-- **C95**: at every temperature the Wagner–Pruss equation becomes the ideal gas at low density: P/(D·R·T) → 1, dP/dD → R·T and
(dP/dT)/(D·R) → 1, with R the specific gas constant of water, 461.51805 J/(kg K).  (P = D² helmholtzD.) -/
theorem C95_wp95 (T : ℝ) (hT : 0 < T) :
    Tendsto (fun D => D ^ 2 * (helmholtz T D).fD / (D * 461.51805 * T)) (𝓝[>] 0) (𝓝 1) ∧
    Tendsto (fun D => (waterThermoState T (D ^ 2 * (helmholtz T D).fD) D (helmholtz T D)).pressureD) (𝓝[>] 0) (𝓝 (461.51805 * T)) ∧
    Tendsto (fun D => (waterThermoState T (D ^ 2 * (helmholtz T D).fD) D (helmholtz T D)).pressureT / (D * 461.51805)) (𝓝[>] 0) (𝓝 1) := by
  have hl := wp_low (647.096 / T)
  have hs : Tendsto (fun D : ℝ => D / 322) (𝓝[>] 0) (𝓝[>] 0) := by
    refine tendsto_nhdsWithin_iff.mpr ⟨?_, ?_⟩
    · simpa using tendsto_id0.div_const 322
    · filter_upwards [self_mem_nhdsWithin] with D hD
      exact div_pos (show (0 : ℝ) < D from hD) (by norm_num : (0 : ℝ) < 322)
  have h1 := hl.fD.comp hs
  have h2 := hl.fDD.comp hs
  have h3 := hl.fTD.comp hs
  refine ⟨?_, ?_, ?_⟩
  · have := h1.const_add 1
    rw [add_zero] at this
    refine this.congr' ?_
    filter_upwards [self_mem_nhdsWithin] with D hD
    have hD' : (D : ℝ) ≠ 0 := (show (0 : ℝ) < D from hD).ne'
    simp only [Function.comp, helmholtz, helmholtzOf, dimensioned, add, ideal_D]
    field_simp
  · have := (((h1.const_mul 2).add h2).const_add 1).const_mul (461.51805 * T)
    rw [mul_zero, add_zero, add_zero, mul_one] at this
    refine this.congr' ?_
    filter_upwards [self_mem_nhdsWithin] with D hD
    have hD' : (D : ℝ) ≠ 0 := (show (0 : ℝ) < D from hD).ne'
    simp only [Function.comp, waterThermoState, helmholtz, helmholtzOf, dimensioned, add, ideal_D]
    field_simp
    ring
  · have := (h1.sub (h3.const_mul (647.096 / T))).const_add 1
    rw [mul_zero, sub_zero, add_zero] at this
    refine this.congr' ?_
    filter_upwards [self_mem_nhdsWithin] with D hD
    have hD' : (D : ℝ) ≠ 0 := (show (0 : ℝ) < D from hD).ne'
    simp only [Function.comp, waterThermoState, helmholtz, helmholtzOf, dimensioned, add, ideal_D]
    field_simp
    ring

/-- The hypothesis of `C93_refuted` and `C95_wp95`. -/
example : (0 : ℝ) < 298.15 := by norm_num

/-- Around every state with dP/dD ≠ 0 the pressure equation has a continuous solution, and only one. -/
lemma wp_solves {T D0 : ℝ} (hT : 0 < T) (hD : 0 < D0) (hc : D0 ≠ 322)
    (h0 : 2 * D0 * (helmholtz T D0).fD + D0 * D0 * (helmholtz T D0).fDD ≠ 0) :
    ∃ D : ℝ → ℝ → ℝ, D T (D0 ^ 2 * (helmholtz T D0).fD) = D0 ∧ SolvesP helmholtz D T (D0 ^ 2 * (helmholtz T D0).fD) ∧
      ∀ᶠ q : ℝ × ℝ in 𝓝 (T, D0), D q.1 (q.2 ^ 2 * (helmholtz q.1 q.2).fD) = q.2 := by
  have hev : ∀ᶠ q : ℝ × ℝ in 𝓝 (T, D0), 0 < q.1 ∧ 0 < q.2 ∧ q.2 ≠ 322 := by
    have c1 : ContinuousAt (fun q : ℝ × ℝ => q.1) (T, D0) := continuousAt_fst
    have c2 : ContinuousAt (fun q : ℝ × ℝ => q.2) (T, D0) := continuousAt_snd
    filter_upwards [c1.eventually_const_lt hT, c2.eventually_const_lt hD, c2.eventually_ne hc] with q a b c
    exact ⟨a, b, c⟩
  have hj := wp_jet hT hD hc
  have cD : ContinuousAt (fun q : ℝ × ℝ => (helmholtz q.1 q.2).fD) (T, D0) := hj.fD.continuousAt
  have cTD : ContinuousAt (fun q : ℝ × ℝ => (helmholtz q.1 q.2).fTD) (T, D0) := hj.fTD.continuousAt
  have cDD : ContinuousAt (fun q : ℝ × ℝ => (helmholtz q.1 q.2).fDD) (T, D0) := hj.fDD.continuousAt
  have c2 : ContinuousAt (fun q : ℝ × ℝ => q.2) (T, D0) := continuousAt_snd
  obtain ⟨v, hv, hv0, hv1, hv2⟩ := Grad.solve (g := fun T D => D ^ 2 * (helmholtz T D).fD) (a := fun T D => D * D * (helmholtz T D).fTD)
    (b := fun T D => 2 * D * (helmholtz T D).fD + D * D * (helmholtz T D).fDD) (x := T) (y := D0)
    (hev.mono fun q hq => pressure_grad (C93_partial q.1 q.2 hq.1 hq.2.1 hq.2.2).1) ((c2.mul c2).mul cTD)
    (((c2.const_mul 2).mul cD).add ((c2.mul c2).mul cDD)) h0
  exact ⟨v, hv0, ⟨hv, hv1⟩, hv2⟩

/-- **C93 and C39 together**: around every state (T, D0) of water with dP/dD ≠ 0 and dD/dT ≠ 0, away from the critical density, there is one
continuous density D(T, P), and the water state that the program builds from it and the Wagner–Pruss equation is consistent: its density
derivatives are those of the density, dG = -S dT + V dP, dS/dT = Cp/T, and the rest of `WaterConsistent`. -/
theorem C39_wp95_partial (T D0 : ℝ) (hT : 0 < T) (hD : 0 < D0) (hc : D0 ≠ 322) :
    let P := D0 ^ 2 * (helmholtz T D0).fD
    let s := waterThermoState T P D0 (helmholtz T D0)
    s.pressureD ≠ 0 → s.densityT ≠ 0 → ∃ D : ℝ → ℝ → ℝ, D T P = D0 ∧ SolvesP helmholtz D T P ∧
      WaterConsistent (fun t p => waterThermoState t p (D t p) (helmholtz t (D t p))) T P := by
  intro P s h0 h1
  obtain ⟨D, hD0, hs, -⟩ := wp_solves hT hD hc h0
  refine ⟨D, hD0, hs, ?_⟩
  have hD0' : D T P = D0 := hD0
  refine C39_partial helmholtz D T P hT.ne' ?_ hs ?_ ?_ ?_
  · rw [hD0']; exact (C93_partial T D0 hT hD hc).1
  · rw [hD0']; exact hD.ne'
  · show (waterThermoState T P (D T P) (helmholtz T (D T P))).pressureD ≠ 0
    rw [hD0']; exact h0
  · show (waterThermoState T P (D T P) (helmholtz T (D T P))).densityT ≠ 0
    rw [hD0']; exact h1

/-- The hypotheses of `C39_wp95_partial` are met by steam at 500 K of low density. -/
example : ∃ D0 : ℝ, 0 < D0 ∧ D0 ≠ 322 ∧ (waterThermoState 500 (D0 ^ 2 * (helmholtz 500 D0).fD) D0 (helmholtz 500 D0)).pressureD ≠ 0 ∧
    (waterThermoState 500 (D0 ^ 2 * (helmholtz 500 D0).fD) D0 (helmholtz 500 D0)).densityT ≠ 0 := by
  obtain ⟨-, h2, h3⟩ := C95_wp95 500 (by norm_num)
  have e1 := h2.eventually_const_lt (show (0 : ℝ) < 461.51805 * 500 by norm_num)
  have e2 := h3.eventually_const_lt (show (0 : ℝ) < 1 by norm_num)
  have e3 : ∀ᶠ D : ℝ in 𝓝[>] 0, D < 322 := by
    have := (tendsto_id0).eventually_lt_const (show (0 : ℝ) < 322 by norm_num)
    exact this
  obtain ⟨D, h1, h2, h3, h4⟩ := (e1.and (e2.and (e3.and self_mem_nhdsWithin))).exists
  refine ⟨D, h4, h3.ne, h1.ne', ?_⟩
  have hT : (waterThermoState 500 (D ^ 2 * (helmholtz 500 D).fD) D (helmholtz 500 D)).pressureT ≠ 0 := by
    intro h
    rw [h, zero_div] at h2
    exact lt_irrefl _ h2
  exact div_ne_zero (neg_ne_zero.mpr hT) h1.ne'

end ThermoFun
