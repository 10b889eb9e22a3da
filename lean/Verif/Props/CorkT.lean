import Verif.Props.Cork

/-!
Residual enthalpy, entropy and heat capacity of H2O and CO2 in the CORK model, and the continuity of their volumes.
-/

namespace ThermoFun.Cork

open Topology Filter
open Gas (AB Fug EntropyOK HeatOK EntropyWrong cubic discr cq cr hres gres)

lemma co2_d (T : ℝ) : HasDerivAt (fun t => (co2AB t).a) (co2AB T).da T ∧ HasDerivAt (fun t => (co2AB t).da) (co2AB T).d2a T := by
  unfold co2AB
  constructor
  · refine (((hasDerivAt_id' T).const_mul 0.21078).const_add 659.8 |>.fun_add ((hasDerivAt_pow 2 T).const_mul (-6.3976e-4))).congr_deriv ?_
    push_cast; ring
  · refine (((hasDerivAt_id' T).const_mul (2 * (-6.3976e-4))).const_add 0.21078).congr_deriv ?_
    ring

lemma below_d (k1 k2 k3 T : ℝ) : HasDerivAt (fun t => (below k1 k2 k3 (673 - t)).a) (below k1 k2 k3 (673 - T)).da T ∧
    HasDerivAt (fun t => (below k1 k2 k3 (673 - t)).da) (below k1 k2 k3 (673 - T)).d2a T := by
  unfold below
  have l := (hasDerivAt_id' T).const_sub 673
  constructor
  · refine ((((l.const_mul k1).const_add 1113.4).fun_add ((l.fun_pow 2).const_mul k2)).fun_add ((l.fun_pow 3).const_mul k3)).congr_deriv ?_
    push_cast; ring
  · refine (((l.const_mul (2 * k2)).const_sub (-k1)).fun_sub ((l.fun_pow 2).const_mul (3 * k3))).congr_deriv ?_
    push_cast; ring

/-! ### C115 -/

/-- **C115** (CO2 up to 5 kbar): where the cubic has a single real solution, the residual entropy is minus the temperature derivative of the residual
Gibbs energy, H = G + TS, and the residual heat capacity is the temperature derivative of the residual enthalpy.
Missing from C115: three real roots; above 5 kbar it is false (`C115_co2_refuted`). -/
theorem C115_co2_partial (T P : ℝ) (k : Nat → ℝ) (hT : 0 < T) (hP : 0 < P) (hP5 : P ≤ 5000) (ha : 0 < aCO2 T)
    (h : Single (aCO2 T) 3.057 T (P / 1000)) :
    EntropyOK (fun t => fugacityPT .CO2 t P k) T ∧ HeatOK (fun t => fugacityPT .CO2 t P k) T := by
  have hK : 0 < P / 1000 := by positivity
  have h1 := h.one hT hK
  rw [← co2_a] at h1 ha
  exact mrk_both (vap := true) (p := co2AB) (w := co2Vir) (b := 3.057) hT hK (by norm_num) (fun _ => rfl)
    (fun t => by change P / 1000 ≤ 5; rw [div_le_iff₀ (by norm_num)]; linarith) ha (co2_d T).1 (co2_d T).2 h1

/-- **C115** (H2O vapour below 695 K, T ≠ 673 K): the same below the saturation pressure. -/
theorem C115_vapour_partial (T P : ℝ) (k : Nat → ℝ) (hT : 0 < T) (hT2 : T < 695) (hT3 : T ≠ 673) (hP : 0 < P) (hs : P / 1000 < pSat T)
    (hP2 : P ≤ 2000) (ha : 0 < aVap T) (h : Single (aVap T) 1.465 T (P / 1000)) :
    EntropyOK (fun t => fugacityPT .H2O t P k) T ∧ HeatOK (fun t => fugacityPT .H2O t P k) T := by
  have hK : 0 < P / 1000 := by positivity
  have h1 := h.one hT hK
  rw [← gas_a] at h1 ha
  have hcp : ContinuousAt pSat T := by unfold pSat; fun_prop
  obtain ⟨k1, k2, k3, e⟩ : ∃ k1 k2 k3, ∀ᶠ t in 𝓝 T, waterGas t = below k1 k2 k3 (673 - t) := by
    rcases lt_or_gt_of_ne hT3 with hlt | hgt
    · refine ⟨5.8487, -2.1370e-2, 6.8133e-5, ?_⟩
      filter_upwards [gt_mem_nhds hlt] with t ht
      unfold waterGas
      rw [if_pos ht]
    · refine ⟨-0.22291, -3.8022e-4, 1.7791e-7, ?_⟩
      filter_upwards [lt_mem_nhds hgt] with t ht
      unfold waterGas
      rw [if_neg (not_lt.mpr ht.le)]
  have eT := e.self_of_nhds
  rw [eT] at h1 ha
  have m := mrk_both (vap := true) (p := fun t => below k1 k2 k3 (673 - t)) (w := fun _ => waterVir) (b := 1.465) hT hK (by norm_num)
    (fun _ => rfl) (fun t => by change P / 1000 ≤ 2; rw [div_le_iff₀ (by norm_num)]; linarith) ha (below_d k1 k2 k3 T).1 (below_d k1 k2 k3 T).2 h1
  have ev : (fun t => (volumeFugacity true t (P / 1000) (below k1 k2 k3 (673 - t)).a 1.465 waterVir).map
      (mrkProps t (P / 1000) (below k1 k2 k3 (673 - t)))) =ᶠ[𝓝 T] fun t => fugacityPT .H2O t P k := by
    filter_upwards [e, gt_mem_nhds hT2, ContinuousAt.eventually_lt continuousAt_const hcp hs] with t h1 h2 h3
    unfold fugacityPT fugacityH2O
    dsimp only
    rw [if_neg (not_lt.mpr h2.le), psat_eq, if_pos h3, h1]
  exact ⟨(ok_congr ev).1 m.1, (ok_congr ev).2.1 m.2⟩

/-- **C115** (H2O above 695 K), refuted for every temperature but one: the parameter a is a polynomial of T - 673, its derivative is computed as if it
were one of 673 - T.  Up to 2 kbar, wherever the cubic has a single real solution, the residual entropy is not minus the temperature derivative of
the residual Gibbs energy, and the residual enthalpy is wrong, too. -/
theorem C115_steam_refuted (T P : ℝ) (k : Nat → ℝ) (hT : 695 < T) (hne : 3 * 1.7791e-7 * (T - 673) ^ 2 ≠ 0.22291) (hP : 0 < P)
    (hP2 : P ≤ 2000) (ha : 0 < aSup T) (h : Single (aSup T) 1.465 T (P / 1000)) :
    EntropyWrong (fun t => fugacityPT .H2O t P k) T := by
  have hK : 0 < P / 1000 := by positivity
  have hT0 : 0 < T := by linarith
  have h1 := h.one hT0 hK
  rw [← sup_a] at h1 ha
  have hd : HasDerivAt (fun t => (waterSuper t).a) (-0.22291 - 2 * 3.8022e-4 * (T - 673) + 3 * 1.7791e-7 * (T - 673) ^ 2) T := by
    unfold waterSuper
    have l := (hasDerivAt_id' T).sub_const 673
    refine ((((l.const_mul (-0.22291)).const_add 1113.4).fun_add ((l.fun_pow 2).const_mul (-3.8022e-4))).fun_add
      ((l.fun_pow 3).const_mul 1.7791e-7)).congr_deriv ?_
    push_cast; ring
  have m := mrk_wrong (vap := true) (p := waterSuper) (w := fun _ => waterVir) (b := 1.465) hT0 hK (by norm_num)
    (fun _ => rfl) (fun t => by change P / 1000 ≤ 2; rw [div_le_iff₀ (by norm_num)]; linarith) ha hd
    (by
      unfold waterSuper below
      dsimp only
      intro hc
      apply hne
      linarith) h1
  have ev : (fun t => (volumeFugacity true t (P / 1000) (waterSuper t).a 1.465 waterVir).map
      (mrkProps t (P / 1000) (waterSuper t))) =ᶠ[𝓝 T] fun t => fugacityPT .H2O t P k := by
    filter_upwards [lt_mem_nhds hT] with t h1
    unfold fugacityPT fugacityH2O
    dsimp only
    rw [if_pos h1]
  exact (ok_congr ev).2.2 m

/-! ### CO2 above 5 kbar -/

lemma co2_vir_d {T P : ℝ} (hP : 5 < P) (hT : 0 < T) : HasDerivAt (fun t => RR * t * virLn (co2Vir t) t P)
    (2 / 3 * 2.45317e-5 * (P - 5) * Real.sqrt (P - 5) - 1.59046e-6 / 2 * (P - 5) ^ 2) T := by
  have hR := RRpos
  have e : (fun t => RR * t * virLn (co2Vir t) t P) =ᶠ[𝓝 T] fun t => 2 / 3 * (-1.78198e-1 + 2.45317e-5 * t) * (P - 5) * Real.sqrt (P - 5)
      + (5.40776e-3 + (-1.59046e-6) * t) / 2 * (P - 5) ^ 2 := by
    filter_upwards [lt_mem_nhds hT] with t ht
    unfold virLn co2Vir
    dsimp only
    rw [if_pos hP]
    generalize Real.sqrt (P - 5) = y
    field_simp
    ring
  refine HasDerivAt.congr_of_eventuallyEq ?_ e
  have l1 := ((hasDerivAt_id' T).const_mul 2.45317e-5).const_add (-1.78198e-1)
  have l2 := ((hasDerivAt_id' T).const_mul (-1.59046e-6)).const_add 5.40776e-3
  refine ((((l1.const_mul (2 / 3)).mul_const (P - 5)).mul_const (Real.sqrt (P - 5))).fun_add ((l2.div_const 2).mul_const ((P - 5) ^ 2))).congr_deriv ?_
  ring

lemma wrong_step {G X Y T L ω : ℝ} (hT : 0 < T) (key : Y < X + (L - T * ω)) :
    (1000 * Y - 1000 * (G + L)) / T ≠ -(1000 * ((G - X) / T + ω)) ∧ 1000 * Y ≠ 1000 * (G + L) - T * (1000 * ((G - X) / T + ω)) := by
  have e : T * (1000 * ((G - X) / T + ω)) = 1000 * (G - X) + 1000 * (T * ω) := by field_simp
  constructor
  · rw [ne_eq, div_eq_iff hT.ne']
    intro hc
    have : -(1000 * ((G - X) / T + ω)) * T = -(T * (1000 * ((G - X) / T + ω))) := by ring
    rw [this, e] at hc
    linarith
  · rw [e]
    intro hc
    linarith

lemma co2_num {T y : ℝ} (hT : 0 < T) (hT2 : T ≤ 1100) (hy0 : 0 < y) (hy5 : y ≤ 5) :
    (5 + y ^ 2) * ((-1.78198e-1 + 2.45317e-5 * T) * y + (5.40776e-3 - 1.59046e-6 * T) * y ^ 2)
      < 2 / 3 * (-1.78198e-1) * y ^ 3 + 5.40776e-3 / 2 * y ^ 4 := by
  have : 5 * (-1.78198e-1 + 2.45317e-5 * T) + 5 * (5.40776e-3 - 1.59046e-6 * T) * y + (-1.78198e-1 + 2.45317e-5 * T) * y ^ 2
      + (5.40776e-3 - 1.59046e-6 * T) * y ^ 3 - (2 / 3 * (-1.78198e-1) * y ^ 2 + 5.40776e-3 / 2 * y ^ 3) < 0 := by
    have q1 : y ^ 3 ≤ 5 * y ^ 2 := by nlinarith [sq_nonneg y]
    have q2 : 0 < T * y := by positivity
    have q3 : 0 < T * y ^ 3 := by positivity
    have q4 : T * y ^ 2 ≤ 1100 * y ^ 2 := by nlinarith [sq_nonneg y]
    nlinarith [sq_nonneg y]
  nlinarith

/-- **C115** (CO2 above 5 kbar), refuted: enthalpy and entropy leave out what the virial part of the volume contributes to the energy (they are
those of a Redlich-Kwong fluid with the corrected volume).  From 5 to 30 kbar and up to 1100 K, wherever the cubic has a single real solution, the
residual entropy is not minus the temperature derivative of the residual Gibbs energy. -/
theorem C115_co2_refuted (T P : ℝ) (k : Nat → ℝ) (hT : 0 < T) (hT2 : T ≤ 1100) (hP : 5000 < P) (hP2 : P ≤ 30000)
    (h : Single (aCO2 T) 3.057 T (P / 1000)) : EntropyWrong (fun t => fugacityPT .CO2 t P k) T := by
  have hR := RRpos
  have hK5 : 5 < P / 1000 := by rw [lt_div_iff₀ (by norm_num)]; linarith
  have hK30 : P / 1000 ≤ 30 := by rw [div_le_iff₀ (by norm_num)]; linarith
  have hK : 0 < P / 1000 := by linarith
  have ha : 0 < aCO2 T := by unfold aCO2; nlinarith
  have h1 := h.one hT hK
  rw [← co2_a] at h1 ha
  change EntropyWrong (fun t => (volumeFugacity true t (P / 1000) (co2AB t).a 3.057 (co2Vir t)).map (mrkProps t (P / 1000) (co2AB t))) T
  generalize P / 1000 = K at *
  obtain ⟨f, ev, hd⟩ := mrk_gT (vap := true) (p := co2AB) (w := co2Vir) (b := 3.057) hT hK (by norm_num) ha (co2_d T).1 (co2_vir_d hK5 hT) h1
  obtain ⟨-, -, -, -, e, hg⟩ := ev.self_of_nhds
  have r := mrk_root hT hK ha.le (by norm_num) h1
  have hs : 0 < Real.sqrt T := Real.sqrt_pos.mpr hT
  set v := mrkV (co2AB T).a 3.057 T K with hv
  have hv0 : 3.057 < v := r.vb
  set y := Real.sqrt (K - 5) with hy
  have hy2 : y ^ 2 = K - 5 := Real.sq_sqrt (by linarith)
  have hy0 : 0 < y := Real.sqrt_pos.mpr (by linarith)
  have hy5 : y ≤ 5 := by nlinarith
  have hvir : virV (co2Vir T) K = (-1.78198e-1 + 2.45317e-5 * T) * y + (5.40776e-3 - 1.59046e-6 * T) * y ^ 2 := by
    unfold virV co2Vir
    dsimp only
    rw [if_pos hK5, ← hy, hy2]
    ring
  have hln : RR * T * virLn (co2Vir T) T K = 2 / 3 * (-1.78198e-1 + 2.45317e-5 * T) * y ^ 3 + (5.40776e-3 - 1.59046e-6 * T) / 2 * y ^ 4 := by
    unfold virLn co2Vir
    dsimp only
    rw [if_pos hK5, ← hy, ← hy2]
    field_simp
    ring
  rw [hln] at hg
  rw [← hy2, show (2 / 3 * 2.45317e-5 * y ^ 2 * y - 1.59046e-6 / 2 * (y ^ 2) ^ 2 : ℝ) = 2 / 3 * 2.45317e-5 * y ^ 3 - 1.59046e-6 / 2 * y ^ 4 by ring] at hd
  have hneg : virV (co2Vir T) K < 0 := by
    rw [hvir]
    nlinarith [mul_pos hy0 hT, mul_pos (mul_pos hy0 hy0) hT]
  have hpos : 0 < v + virV (co2Vir T) K := by
    rw [hvir]
    nlinarith [mul_pos hy0 hT, mul_pos (mul_pos hy0 hy0) hT]
  have hh := props_h0 (P := K) (p := co2AB T) (f := Real.exp (mrkLn T K (co2AB T).a 3.057 v + virLn (co2Vir T) T K)) hT
    (show (0 : ℝ) < 3.057 by norm_num) hpos
  rw [← e] at hh
  change _ = some (1000 * hres RR 1 0 K T ((co2AB T).a / Real.sqrt T) ((co2AB T).da / Real.sqrt T - (co2AB T).a / (2 * (T * Real.sqrt T))) 3.057 _) ∧
    _ = some ((1000 * hres RR 1 0 K T ((co2AB T).a / Real.sqrt T) ((co2AB T).da / Real.sqrt T - (co2AB T).a / (2 * (T * Real.sqrt T))) 3.057 _ - _) / T) at hh
  have hlog : Real.log ((v + 1 * 3.057) / (v + 0 * 3.057))
      < Real.log ((v + virV (co2Vir T) K + 1 * 3.057) / (v + virV (co2Vir T) K + 0 * 3.057)) := by
    apply Real.log_lt_log
    · rw [zero_mul, add_zero]; apply div_pos <;> linarith
    · rw [zero_mul, add_zero, add_zero, div_lt_div_iff₀ (by linarith) hpos]
      nlinarith
  have hM : 0 < ((co2AB T).a / Real.sqrt T - T * ((co2AB T).da / Real.sqrt T - (co2AB T).a / (2 * (T * Real.sqrt T)))) / (3.057 * (1 - 0)) := by
    have : ((co2AB T).a / Real.sqrt T - T * ((co2AB T).da / Real.sqrt T - (co2AB T).a / (2 * (T * Real.sqrt T))))
        = (3 / 2 * (co2AB T).a - T * (co2AB T).da) / Real.sqrt T := by field_simp; ring
    rw [this]
    have : 0 < 3 / 2 * (co2AB T).a - T * (co2AB T).da := by unfold co2AB; dsimp only; nlinarith
    apply div_pos (div_pos this hs); norm_num
  have key : hres RR 1 0 K T ((co2AB T).a / Real.sqrt T) ((co2AB T).da / Real.sqrt T - (co2AB T).a / (2 * (T * Real.sqrt T))) 3.057 (v + virV (co2Vir T) K)
      < hres RR 1 0 K T ((co2AB T).a / Real.sqrt T) ((co2AB T).da / Real.sqrt T - (co2AB T).a / (2 * (T * Real.sqrt T))) 3.057 v
        + 2 / 3 * (-1.78198e-1) * y ^ 3 + 5.40776e-3 / 2 * y ^ 4 := by
    have h2 := mul_lt_mul_of_pos_left hlog hM
    have h3 : K * virV (co2Vir T) K < 2 / 3 * (-1.78198e-1) * y ^ 3 + 5.40776e-3 / 2 * y ^ 4 := by
      rw [hvir, show K = 5 + y ^ 2 by rw [hy2]; ring]
      exact co2_num hT hT2 hy0 hy5
    unfold hres
    linarith
  have key' := key.trans_eq (show _ = hres RR 1 0 K T ((co2AB T).a / Real.sqrt T) ((co2AB T).da / Real.sqrt T - (co2AB T).a / (2 * (T * Real.sqrt T))) 3.057 v
      + ((2 / 3 * (-1.78198e-1 + 2.45317e-5 * T) * y ^ 3 + (5.40776e-3 - 1.59046e-6 * T) / 2 * y ^ 4)
        - T * (2 / 3 * 2.45317e-5 * y ^ 3 - 1.59046e-6 / 2 * y ^ 4)) by ring)
  have st := wrong_step (G := gres RR 1 0 K T ((co2AB T).a / Real.sqrt T) 3.057 v) hT key'
  rw [hg] at hh
  exact ⟨f, _, _, _, ev.mono fun t ht => ht.2.2.2.1, hh.1, hh.2, hd, st.1, by rw [hg]; exact st.2⟩

/-! ### C116 -/

/-- **C116** (where the parameters are smooth): above 695 K the volume of H2O is a continuous function of temperature.  Missing from C116: it is not at
695 K (`C116_jump_refuted`); the region of three roots. -/
theorem C116_steam_partial (T P : ℝ) (k : Nat → ℝ) (hT : 695 < T) (hP : 0 < P) (ha : 0 < aSup T) (h : Single (aSup T) 1.465 T (P / 1000)) :
    ∃ f : ℝ → Fug, (∀ᶠ t in 𝓝 T, fugacityPT .H2O t P k = some (f t)) ∧ ContinuousAt (fun t => (f t).v) T := by
  have hK : 0 < P / 1000 := by positivity
  have hT0 : 0 < T := by linarith
  have h1 := h.one hT0 hK
  have ha' : DifferentiableAt ℝ aSup T := by unfold aSup; fun_prop
  have ev := One.eventually (a := aSup) (t := fun t => t) (p := fun _ => P / 1000) ha'.continuousAt continuousAt_id continuousAt_const hT0 hK.ne' h1
  refine ⟨fun t => mrkProps t (P / 1000) (waterSuper t) (mrkV (aSup t) 1.465 t (P / 1000) + virV waterVir (P / 1000),
    Real.exp (mrkLn t (P / 1000) (aSup t) 1.465 (mrkV (aSup t) 1.465 t (P / 1000)) + virLn waterVir t (P / 1000))), ?_, ?_⟩
  · filter_upwards [ev, lt_mem_nhds hT, ha'.continuousAt.eventually (lt_mem_nhds ha)] with t h2 h3 h4
    unfold fugacityPT fugacityH2O
    dsimp only
    rw [if_pos h3, sup_a, volFug_one (by linarith) hK h4.le (by norm_num) h2]
    rfl
  · have d := mrkV_diff (a := aSup) (t := fun t => t) (p := fun _ => P / 1000) ha' differentiableAt_id (differentiableAt_const _) hT0 hK.ne' h1
    exact d.continuousAt.add continuousAt_const

lemma same_a {a a' b T P v : ℝ} (hT : 0 < T) (hb : 0 < b) (h : Root a b T P v) (h' : Root a' b T P v) : a = a' := by
  have hs : 0 < Real.sqrt T := Real.sqrt_pos.mpr hT
  have hv := h.vb
  have e := h.eos
  rw [h'.eos] at e
  have h1 : 0 < v + b := by linarith
  have h2 : 0 < v := by linarith
  rw [one_mul, zero_mul, add_zero] at e
  have : a' / Real.sqrt T / ((v + b) * v) = a / Real.sqrt T / ((v + b) * v) := by linarith
  rw [div_div, div_div, div_left_inj' (by positivity)] at this
  exact this.symm

/-- **C116** at 695 K, refuted at every pressure below saturation where the cubics on both sides have a single solution: the volume of H2O is not
continuous in temperature.  The two polynomials for the parameter a meet at 673 K, not at 695 K where the code changes from one to the other. -/
theorem C116_jump_refuted (P : ℝ) (k : Nat → ℝ) (hP : 0 < P) (hs : P / 1000 < pSat 695) (h1 : Single (aVap 695) 1.465 695 (P / 1000))
    (h2 : Single (aSup 695) 1.465 695 (P / 1000)) :
    ∃ f : ℝ → Fug, (∀ᶠ t in 𝓝 695, fugacityPT .H2O t P k = some (f t)) ∧ ¬ ContinuousAt (fun t => (f t).v) 695 := by
  have hK : 0 < P / 1000 := by positivity
  set aV : ℝ → ℝ := fun T => 1113.4 - 0.22291 * (673 - T) - 3.8022e-4 * (673 - T) ^ 2 + 1.7791e-7 * (673 - T) ^ 3 with haV
  have eV : aVap 695 = aV 695 := by unfold aVap; rw [if_neg (by norm_num)]
  rw [eV] at h1
  have v0 : 0 < aV 695 := by rw [haV]; norm_num
  have s0 : 0 < aSup 695 := by unfold aSup; norm_num
  have o1 := h1.one (by norm_num) hK
  have o2 := h2.one (by norm_num) hK
  have dV : DifferentiableAt ℝ aV 695 := by rw [haV]; fun_prop
  have dS : DifferentiableAt ℝ aSup 695 := by unfold aSup; fun_prop
  have eo1 := One.eventually (a := aV) (t := fun t => t) (p := fun _ => P / 1000) dV.continuousAt continuousAt_id continuousAt_const (by norm_num) hK.ne' o1
  have eo2 := One.eventually (a := aSup) (t := fun t => t) (p := fun _ => P / 1000) dS.continuousAt continuousAt_id continuousAt_const (by norm_num) hK.ne' o2
  have hcp : ContinuousAt pSat 695 := by unfold pSat; fun_prop
  refine ⟨fun t => if t > 695 then
      mrkProps t (P / 1000) (waterSuper t) (mrkV (aSup t) 1.465 t (P / 1000) + virV waterVir (P / 1000),
        Real.exp (mrkLn t (P / 1000) (aSup t) 1.465 (mrkV (aSup t) 1.465 t (P / 1000)) + virLn waterVir t (P / 1000)))
    else mrkProps t (P / 1000) (waterGas t) (mrkV (aV t) 1.465 t (P / 1000) + virV waterVir (P / 1000),
        Real.exp (mrkLn t (P / 1000) (aV t) 1.465 (mrkV (aV t) 1.465 t (P / 1000)) + virLn waterVir t (P / 1000))), ?_, ?_⟩
  · filter_upwards [eo1, eo2, lt_mem_nhds (show (673 : ℝ) < 695 by norm_num), dV.continuousAt.eventually (lt_mem_nhds v0),
      dS.continuousAt.eventually (lt_mem_nhds s0), ContinuousAt.eventually_lt continuousAt_const hcp hs] with t h3 h4 h5 h6 h7 h8
    unfold fugacityPT fugacityH2O
    dsimp only
    by_cases ht : t > 695
    · rw [if_pos ht, if_pos ht, sup_a, volFug_one (by linarith) hK h7.le (by norm_num) h4]
      rfl
    · rw [if_neg ht, if_neg ht, psat_eq, if_pos h8, gas_a, show aVap t = aV t by unfold aVap; rw [if_neg (not_lt.mpr h5.le)],
        volFug_one (by linarith) hK h6.le (by norm_num) h3]
      rfl
  · intro hc
    have d2 := mrkV_diff (a := aSup) (t := fun t => t) (p := fun _ => P / 1000) dS differentiableAt_id (differentiableAt_const _) (by norm_num) hK.ne' o2
    have l1 : Tendsto (fun t => mrkV (aSup t) 1.465 t (P / 1000) + virV waterVir (P / 1000)) (𝓝[>] 695)
        (𝓝 (mrkV (aSup 695) 1.465 695 (P / 1000) + virV waterVir (P / 1000))) :=
      (d2.continuousAt.add continuousAt_const).tendsto.mono_left nhdsWithin_le_nhds
    have l2 := hc.tendsto.mono_left (nhdsWithin_le_nhds (s := Set.Ioi 695))
    have l3 := l2.congr' (f₂ := fun t => mrkV (aSup t) 1.465 t (P / 1000) + virV waterVir (P / 1000)) (by
      filter_upwards [self_mem_nhdsWithin] with t ht
      have ht' : t > 695 := ht
      rw [if_pos ht']
      rfl)
    have e := tendsto_nhds_unique l1 l3
    dsimp only at e
    rw [if_neg (lt_irrefl _)] at e
    change _ = mrkV (aV 695) 1.465 695 (P / 1000) + virV waterVir (P / 1000) at e
    have e' : mrkV (aSup 695) 1.465 695 (P / 1000) = mrkV (aV 695) 1.465 695 (P / 1000) := by linarith
    have r1 := mrk_root (by norm_num) hK v0.le (by norm_num) o1
    have r2 := mrk_root (by norm_num) hK s0.le (by norm_num) o2
    rw [e'] at r2
    have := same_a (by norm_num) (by norm_num) r1 r2
    rw [haV] at this
    unfold aSup at this
    norm_num at this

/-! ### Concrete states -/

lemma sqrt_sq' {x : ℝ} (y : ℝ) (hy : 0 ≤ y) (h : y ^ 2 = x) : Real.sqrt x = y := by rw [← h, Real.sqrt_sq hy]

/-- CO2 at 400 K and 1 kbar. -/
lemma ex_co2 : Single (aCO2 400) 3.057 400 (1000 / 1000) ∧ 0 < aCO2 400 := by
  have hs : Real.sqrt 400 = 20 := sqrt_sq' 20 (by norm_num) (by norm_num)
  unfold Single aCO2 discr cubic
  rw [hs]
  norm_num

example : (EntropyOK (fun t => fugacityPT .CO2 t 1000 fun _ => 0) 400 ∧ HeatOK (fun t => fugacityPT .CO2 t 1000 fun _ => 0) 400) :=
  C115_co2_partial 400 1000 _ (by norm_num) (by norm_num) (by norm_num) ex_co2.2 ex_co2.1

example : ∃ f : Fug, fugacityPT .CO2 400 1000 (fun _ => 0) = some f := by
  obtain ⟨f, e, -⟩ := C114_co2_partial 400 1000 (fun _ => 0) (by norm_num) (by norm_num) ex_co2.2.le ex_co2.1
  exact ⟨f 1000, e.self_of_nhds.1⟩

/-- CO2 at 400 K and 8 kbar: above the pressure where the virial part begins. -/
example : ∃ f : ℝ → Fug, (∀ᶠ p in 𝓝 8000, fugacityPT .CO2 400 p (fun _ => 0) = some (f p) ∧ (f p).g = Rgas * 400 * Real.log (f p).phi) ∧
      HasDerivAt (fun p => (f p).g) ((f 8000).v - Rgas * 400 / 8000) 8000 := by
  have hs : Real.sqrt 400 = 20 := sqrt_sq' 20 (by norm_num) (by norm_num)
  obtain ⟨f, e, e2, -⟩ := C114_co2_partial 400 8000 (fun _ => 0) (by norm_num) (by norm_num) ex_co2.2.le
    (by unfold Single aCO2 discr cubic; rw [hs]; norm_num)
  exact ⟨f, e, e2⟩

/-- Steam at 900 K and 1 kbar. -/
lemma ex_steam : Single (aSup 900) 1.465 900 (1000 / 1000) ∧ 0 < aSup 900 := by
  have hs : Real.sqrt 900 = 30 := sqrt_sq' 30 (by norm_num) (by norm_num)
  unfold Single aSup discr cubic
  rw [hs]
  norm_num

example : EntropyWrong (fun t => fugacityPT .H2O t 1000 fun _ => 0) 900 :=
  C115_steam_refuted 900 1000 _ (by norm_num) (by norm_num) (by norm_num) (by norm_num) ex_steam.2 ex_steam.1

/-- Steam at 676 K and 1 bar; its saturation pressure is 277 bar. -/
lemma ex_vapour : Single (aVap 676) 1.465 676 (100 / 1000) ∧ 0 < aVap 676 ∧ (100 / 1000 : ℝ) < pSat 676 := by
  have hs : Real.sqrt 676 = 26 := sqrt_sq' 26 (by norm_num) (by norm_num)
  unfold Single aVap discr cubic pSat
  rw [hs, if_neg (by norm_num)]
  norm_num

example : EntropyOK (fun t => fugacityPT .H2O t 100 fun _ => 0) 676 ∧ HeatOK (fun t => fugacityPT .H2O t 100 fun _ => 0) 676 :=
  C115_vapour_partial 676 100 _ (by norm_num) (by norm_num) (by norm_num) (by norm_num) ex_vapour.2.2 (by norm_num) ex_vapour.2.1 ex_vapour.1

example : EntropyWrong (fun t => fugacityPT .CO2 t 8000 fun _ => 0) 400 :=
  C115_co2_refuted 400 8000 _ (by norm_num) (by norm_num) (by norm_num) (by norm_num) (by
    have hs : Real.sqrt 400 = 20 := sqrt_sq' 20 (by norm_num) (by norm_num)
    unfold Single aCO2 discr cubic
    rw [hs]
    norm_num)

example : ∃ f : ℝ → Fug, (∀ᶠ p in 𝓝 1000, fugacityPT .H2O 900 p (fun _ => 0) = some (f p) ∧ (f p).g = Rgas * 900 * Real.log (f p).phi) ∧
      HasDerivAt (fun p => (f p).g) ((f 1000).v - Rgas * 900 / 1000) 1000 := by
  obtain ⟨f, e, e2, -⟩ := C114_steam_partial 900 1000 (fun _ => 0) (by norm_num) (by norm_num) ex_steam.2.le ex_steam.1
  exact ⟨f, e, e2⟩

example : ∃ f : ℝ → Fug, (∀ᶠ t in 𝓝 900, fugacityPT .H2O t 1000 (fun _ => 0) = some (f t)) ∧ ContinuousAt (fun t => (f t).v) 900 :=
  C116_steam_partial 900 1000 _ (by norm_num) (by norm_num) ex_steam.2 ex_steam.1

example : ∃ f : ℝ → Fug, (∀ᶠ p in 𝓝 100, fugacityPT .H2O 676 p (fun _ => 0) = some (f p) ∧ (f p).g = Rgas * 676 * Real.log (f p).phi) ∧
      HasDerivAt (fun p => (f p).g) ((f 100).v - Rgas * 676 / 100) 100 := by
  obtain ⟨f, e, e2, -⟩ := C114_vapour_partial 676 100 (fun _ => 0) (by norm_num) (by norm_num) (by norm_num) ex_vapour.2.2 ex_vapour.2.1.le ex_vapour.1
  exact ⟨f, e, e2⟩

/-- Three roots, all above b. -/
lemma volFug_cos {vap : Bool} {a b T P : ℝ} {w : Vir} (hT : 0 < T) (hP : 0 < P) (hb : 0 < b) (hq : 0 < cq (cbM T P) (ccM a b T P))
    (h : cr (cbM T P) (ccM a b T P) (cdM a b T P) ^ 2 ≤ cq (cbM T P) (ccM a b T P) ^ 3)
    (h2 : b < -cbM T P / 3 - 2 * Real.sqrt (cq (cbM T P) (ccM a b T P))) : ∃ g, volumeFugacity vap T P a b w = some g := by
  have hR := RRpos
  have hc : ∃ x y z, cardano (cbM T P) (ccM a b T P) (cdM a b T P) = some (x, y, z) ∧ b < x ∧ b < y ∧ b < z := by
    unfold cardano
    dsimp only
    unfold cq cr at *
    rw [if_neg (by linarith), if_neg (pow_pos hq 3).ne']
    have hs := Real.sqrt_nonneg ((cbM T P ^ 2 - 3 * ccM a b T P) / 9)
    have hcos : ∀ φ, b < (-2) * Real.sqrt ((cbM T P ^ 2 - 3 * ccM a b T P) / 9) * Real.cos φ - cbM T P / 3 := by
      intro φ
      have := Real.cos_le_one φ
      nlinarith
    exact ⟨_, _, _, rfl, hcos _, hcos _, hcos _⟩
  obtain ⟨x, y, z, e, hx, hy, hz⟩ := hc
  have hm : ∀ m, b < m → ¬ ((m - b) * P / (RR * T) ≤ 0 ∨ m = 0 ∨ 1 + b / m ≤ 0) := by
    intro m hm hcon
    have hm0 : 0 < m := by linarith
    rcases hcon with h | h | h
    · have : 0 < (m - b) * P / (RR * T) := div_pos (mul_pos (by linarith) hP) (by positivity)
      linarith
    · linarith
    · have : 0 < 1 + b / m := by positivity
      linarith
  unfold volumeFugacity
  dsimp only
  unfold cbM ccM cdM at e
  rw [e]
  dsimp only
  have hm2 : b < (if vap = true then vaporRoot x y z else liquidRoot x y z) := by
    unfold vaporRoot liquidRoot
    dsimp only
    split_ifs <;> linarith
  rw [if_neg (hm _ hm2)]
  exact ⟨_, rfl⟩

/-- Liquid and vapour at 676 K and the saturation pressure. -/
lemma ex_sat : aLiq 676 = aVap 676 ∧ ∀ vap, ∃ g, volumeFugacity vap 676 (pSat 676) (aVap 676) 1.465 waterVir = some g := by
  have hs : Real.sqrt 676 = 26 := sqrt_sq' 26 (by norm_num) (by norm_num)
  refine ⟨by unfold aLiq aVap; rw [if_neg (by norm_num), if_neg (by norm_num)], fun vap => ?_⟩
  have hq : cq (cbM 676 (pSat 676)) (ccM (aVap 676) 1.465 676 (pSat 676)) < 4.8 := by
    unfold cq cbM ccM RR aVap pSat; rw [hs, if_neg (by norm_num)]; norm_num
  refine volFug_cos (by norm_num) (by unfold pSat; norm_num) (by norm_num) ?_ ?_ ?_
  · unfold cq cbM ccM RR aVap pSat; rw [hs, if_neg (by norm_num)]; norm_num
  · unfold cq cr cbM ccM cdM RR aVap pSat; rw [hs, if_neg (by norm_num)]; norm_num
  · have : Real.sqrt (cq (cbM 676 (pSat 676)) (ccM (aVap 676) 1.465 676 (pSat 676))) ≤ 2.2 :=
      Real.sqrt_le_iff.mpr ⟨by norm_num, hq.le.trans (by norm_num)⟩
    have : 1.465 < -cbM 676 (pSat 676) / 3 - 2 * 2.2 := by unfold cbM RR pSat; norm_num
    linarith

/-- Liquid water at 676 K and 1 kbar. -/
example : ∃ f : ℝ → Fug, (∀ᶠ p in 𝓝 1000, fugacityPT .H2O 676 p (fun _ => 0) = some (f p) ∧ (f p).g = Rgas * 676 * Real.log (f p).phi) ∧
      HasDerivAt (fun p => (f p).g) ((f 1000).v - Rgas * 676 / 1000) 1000 := by
  have hs : Real.sqrt 676 = 26 := sqrt_sq' 26 (by norm_num) (by norm_num)
  obtain ⟨g1, e1⟩ := ex_sat.2 true
  obtain ⟨g2, e2⟩ := ex_sat.2 false
  obtain ⟨f, e, e2, -⟩ := C114_liquid_partial 676 1000 (fun _ => 0) g1 g2 (by norm_num) (by norm_num) (by norm_num) (by unfold pSat; norm_num)
    (by rw [ex_sat.1]; exact ex_vapour.2.1.le) e1 (by rw [ex_sat.1]; exact e2)
    (by rw [ex_sat.1]; unfold Single aVap discr cubic; rw [hs, if_neg (by norm_num)]; norm_num)
  exact ⟨f, e, e2⟩

/-- At saturation. -/
example : ∃ f g1, fugacityPT .H2O 676 (1000 * pSat 676) (fun _ => 0) = some f ∧
    volumeFugacity true 676 (pSat 676) (aVap 676) 1.465 waterVir = some g1 ∧ f.phi = g1.2 := by
  obtain ⟨g1, e1⟩ := ex_sat.2 true
  obtain ⟨g2, e2⟩ := ex_sat.2 false
  have h : ∃ f, fugacityPT .H2O 676 (1000 * pSat 676) (fun _ => 0) = some f := by
    unfold fugacityPT fugacityH2O
    dsimp only
    rw [mul_div_cancel_left₀ _ (by norm_num), if_neg (by norm_num), psat_eq, if_neg (lt_irrefl _), gas_a, liq_a, ex_sat.1, e1, e2]
    exact ⟨_, rfl⟩
  obtain ⟨f, hf⟩ := h
  obtain ⟨g1, h1, h2⟩ := C114_saturation_partial 676 (fun _ => 0) f (by norm_num) hf
  exact ⟨f, g1, hf, h1, h2⟩

lemma single_of {s A b : ℝ} {a T P : ℝ} (hs : s = 8.31451e-3 * T / P) (hA : A = a / (Real.sqrt T * P))
    (h : cq (-s) (A - b * s - b ^ 2) ^ 3 < cr (-s) (A - b * s - b ^ 2) (-A * b) ^ 2)
    (h0 : cr (-s) (A - b * s - b ^ 2) (-A * b) ≠ 0) : Single a b T P := by
  unfold Single
  dsimp only
  rw [← hs, ← hA, Gas.discr_eq]
  refine ⟨by linarith, ?_⟩
  have := Gas.inflexion_eq (-s) (A - b * s - b ^ 2) (-A * b)
  rw [neg_neg] at this
  rw [this]
  exact mul_ne_zero two_ne_zero h0

/-- The jump at 695 K and 50 bar. -/
example : ∃ f : ℝ → Fug, (∀ᶠ t in 𝓝 695, fugacityPT .H2O t 50 (fun _ => 0) = some (f t)) ∧ ¬ ContinuousAt (fun t => (f t).v) 695 := by
  have s1 : 26.36285 < Real.sqrt 695 := Real.lt_sqrt_of_sq_lt (by norm_num)
  have s2 : Real.sqrt 695 < 26.36287 := (Real.sqrt_lt' (by norm_num)).mpr (by norm_num)
  have key : ∀ a : ℝ, 1100 < a → a < 1120 → Single a 1.465 695 (50 / 1000) := by
    intro a h1 h2
    have hA1 : 830 < a / (Real.sqrt 695 * (50 / 1000)) := by rw [lt_div_iff₀ (by positivity)]; nlinarith
    have hA2 : a / (Real.sqrt 695 * (50 / 1000)) < 850 := by rw [div_lt_iff₀ (by positivity)]; nlinarith
    refine single_of (s := 115.571689) (A := a / (Real.sqrt 695 * (50 / 1000))) (by norm_num) rfl ?_ ?_
    · generalize a / (Real.sqrt 695 * (50 / 1000)) = A at *
      unfold cq cr
      have q1 : ((-115.571689) ^ 2 - 3 * (A - 1.465 * 115.571689 - 1.465 ^ 2)) / 9 ≤ 1264.7 := by norm_num; linarith
      have q2 : 0 ≤ ((-115.571689) ^ 2 - 3 * (A - 1.465 * 115.571689 - 1.465 ^ 2)) / 9 := by norm_num; linarith
      have := pow_le_pow_left₀ q2 q1 3
      nlinarith
    · generalize a / (Real.sqrt 695 * (50 / 1000)) = A at *
      unfold cr
      intro hc
      nlinarith
  refine C116_jump_refuted 50 _ (by norm_num) (by unfold pSat; norm_num) (key _ ?_ ?_) (key _ ?_ ?_)
  · unfold aVap; rw [if_neg (by norm_num)]; norm_num
  · unfold aVap; rw [if_neg (by norm_num)]; norm_num
  · unfold aSup; norm_num
  · unfold aSup; norm_num

end ThermoFun.Cork
