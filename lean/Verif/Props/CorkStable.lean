import Verif.Props.CorkGas
import Verif.Props.CorkT
import Verif.Props.Stability

/-!
C166 for the CORK model: the volume of gases under pressure.
-/

namespace ThermoFun.Cork

open Gas (Fug AB)
open Topology Filter

lemma aC_le {tc pc T : ℝ} (hc : 0 < tc) (hp : 0 < pc) (h : 8.2675 * tc ≤ T) : aC tc pc T ≤ 0 := by
  have e : aC tc pc T = tc * Real.sqrt tc / pc * (5.45963e-5 * tc - 8.6392e-6 * T) := by unfold aC; ring
  rw [e]
  refine mul_nonpos_of_nonneg_of_nonpos (by positivity) ?_
  norm_num at h ⊢; linarith

lemma cC_eq {tc pc T : ℝ} : cC tc pc T = (2.30524e-6 * T - 3.30558e-5 * tc) / (pc * Real.sqrt pc) := by
  unfold cC; norm_num; ring

lemma dC_eq {tc pc T : ℝ} : dC tc pc T = (6.93054e-7 * tc - 8.38293e-8 * T) / pc ^ 2 := by
  unfold dC; norm_num; ring

/-- **C166 (partial)** A gas other than H2O and CO2 in the CORK model, at temperatures between 8.2675 and 14.339 times its critical
temperature (341 to 590 K for hydrogen): the volume decreases with the pressure over the whole range in which the model is used, and is
positive up to 900 times the critical pressure.  Missing: other temperatures; see the refutations. -/
theorem C166_cork_partial (lo T : ℝ) (k : Nat → ℝ) (hTc : 0 < k 0) (hPc : 0 < k 1) (h1 : lo ≤ T) (h2 : T < 1e4)
    (hl : 8.2675 * k 0 ≤ T) (hu : T ≤ 14.339 * k 0) :
    ∃ f : ℝ → Fug, (∀ P, 1e-5 ≤ P → P < 1e5 → calcFugPure .gas lo T P k = some (f P)) ∧
      (∀ P1 P2, 1e-5 ≤ P1 → P1 < P2 → P2 < 1e5 → (f P2).v < (f P1).v) ∧
      ∀ P, 1e-5 ≤ P → P ≤ 900 * k 1 → 0 < (f P).v := by
  have hT : 0 < T := lt_of_lt_of_le (by positivity) hl
  have hR := RRpos
  have hpc : 0 < k 1 / 1000 := by positivity
  have hb : 0 < bC (k 0) (k 1 / 1000) := by unfold bC; positivity
  have ha := aC_le hTc hpc hl
  have hc : cC (k 0) (k 1 / 1000) T ≤ 0 := by
    rw [cC_eq]
    refine div_nonpos_of_nonpos_of_nonneg ?_ (by positivity)
    norm_num at hu ⊢; linarith
  have hd : dC (k 0) (k 1 / 1000) T ≤ 0 := by
    rw [dC_eq]
    refine div_nonpos_of_nonpos_of_nonneg ?_ (by positivity)
    norm_num at hl ⊢; linarith
  have pos : ∀ P : ℝ, 1e-5 ≤ P → 0 < P := fun P h => lt_of_lt_of_le (by norm_num) h
  refine ⟨fun P => fugacityCorresponding T (P / 1000) (k 0) (k 1), fun P h3 h4 => calc_in h1 h2 h3 h4, fun P1 P2 h3 h4 _ => ?_,
    fun P h3 h4 => ?_⟩
  · have p1 := pos P1 h3
    have p2 := p1.trans h4
    simp only [corr_v]
    have hK : P1 / 1000 < P2 / 1000 := by linarith
    have q1 : 0 < P1 / 1000 := by positivity
    have q2 : 0 < P2 / 1000 := by positivity
    generalize P1 / 1000 = K1 at *
    generalize P2 / 1000 = K2 at *
    generalize bC (k 0) (k 1 / 1000) = b at *
    generalize aC (k 0) (k 1 / 1000) T = a at *
    generalize cC (k 0) (k 1 / 1000) T = c at *
    generalize dC (k 0) (k 1 / 1000) T = d at *
    have i1 : RR * T / K2 < RR * T / K1 := div_lt_div_of_pos_left (by positivity) q1 hK
    have i2 : -a * RR * Real.sqrt T / ((RR * T + b * K2) * (RR * T + 2 * b * K2)) ≤
        -a * RR * Real.sqrt T / ((RR * T + b * K1) * (RR * T + 2 * b * K1)) := by
      refine div_le_div_of_nonneg_left (mul_nonneg (mul_nonneg (by linarith) hR.le) (Real.sqrt_nonneg _)) (by positivity) ?_
      gcongr
    have i3 : c * Real.sqrt K2 ≤ c * Real.sqrt K1 := mul_le_mul_of_nonpos_left (Real.sqrt_le_sqrt hK.le) hc
    have i4 : d * K2 ≤ d * K1 := mul_le_mul_of_nonpos_left hK.le hd
    simp only [neg_mul, neg_div] at i2
    linarith
  · have p := pos P h3
    simp only [corr_v]
    have q : 0 < P / 1000 := by positivity
    have hq : P / 1000 ≤ 900 * (k 1 / 1000) := by linarith
    have hs : Real.sqrt (P / 1000) ≤ 30 * Real.sqrt (k 1 / 1000) := by
      rw [show (30:ℝ) = Real.sqrt 900 from by rw [show (900:ℝ) = 30 ^ 2 by norm_num, Real.sqrt_sq (by norm_num)],
        ← Real.sqrt_mul (by norm_num)]
      exact Real.sqrt_le_sqrt hq
    have i1 : 0 < RR * T / (P / 1000) := by positivity
    have i2 : 0 ≤ -aC (k 0) (k 1 / 1000) T * RR * Real.sqrt T / ((RR * T + bC (k 0) (k 1 / 1000) * (P / 1000)) *
        (RR * T + 2 * bC (k 0) (k 1 / 1000) * (P / 1000))) :=
      div_nonneg (mul_nonneg (mul_nonneg (by linarith) hR.le) (Real.sqrt_nonneg _)) (by positivity)
    have i3 : cC (k 0) (k 1 / 1000) T * (30 * Real.sqrt (k 1 / 1000)) ≤ cC (k 0) (k 1 / 1000) T * Real.sqrt (P / 1000) :=
      mul_le_mul_of_nonpos_left hs hc
    have i4 : dC (k 0) (k 1 / 1000) T * (900 * (k 1 / 1000)) ≤ dC (k 0) (k 1 / 1000) T * (P / 1000) :=
      mul_le_mul_of_nonpos_left hq hd
    have e3 : cC (k 0) (k 1 / 1000) T * (30 * Real.sqrt (k 1 / 1000)) = 30 * (2.30524e-6 * T - 3.30558e-5 * k 0) / (k 1 / 1000) := by
      rw [cC_eq]
      have : Real.sqrt (k 1 / 1000) ≠ 0 := (Real.sqrt_pos.mpr hpc).ne'
      field_simp
    have e4 : dC (k 0) (k 1 / 1000) T * (900 * (k 1 / 1000)) = 900 * (6.93054e-7 * k 0 - 8.38293e-8 * T) / (k 1 / 1000) := by
      rw [dC_eq]
      field_simp
    have e5 : 0 < bC (k 0) (k 1 / 1000) + 30 * (2.30524e-6 * T - 3.30558e-5 * k 0) / (k 1 / 1000) +
        900 * (6.93054e-7 * k 0 - 8.38293e-8 * T) / (k 1 / 1000) := by
      unfold bC
      rw [← add_div, ← add_div]
      refine div_pos ?_ hpc
      norm_num at hl hu ⊢
      linarith
    simp only [neg_mul, neg_div] at i2
    rw [e3] at i3
    rw [e4] at i4
    linarith

/-- The critical temperature and pressure of hydrogen (Holland and Powell 1991). -/
noncomputable def exH2 : Nat → ℝ := fun i => if i = 0 then 41.2 else if i = 1 then 21.1 else 0

/-- Hydrogen at 400 K. -/
example : 0 < exH2 0 ∧ 0 < exH2 1 ∧ (298.15:ℝ) ≤ 400 ∧ (400:ℝ) < 1e4 ∧ 8.2675 * exH2 0 ≤ 400 ∧ 400 ≤ 14.339 * exH2 0 := by
  unfold exH2; norm_num

/-- **C166** is violated by hydrogen at 1000 K and 40 kbar in the CORK model, within the limits of the program (10000 K, 100 kbar): the
volume is negative, because the term linear in the pressure is negative above 8.27 times the critical temperature, 341 K for hydrogen. -/
theorem C166_hydrogen_refuted (lo : ℝ) (hlo : lo ≤ 1000) : ∃ f, calcFugPure .gas lo 1000 40000 exH2 = some f ∧ f.v < 0 := by
  refine ⟨_, calc_in hlo (by norm_num) (by norm_num) (by norm_num), ?_⟩
  rw [corr_v]
  have e0 : exH2 0 = 41.2 := by simp [exH2]
  have e1 : exH2 1 / 1000 = 0.0211 := by simp [exH2]; norm_num
  rw [e0, e1, cC_eq, dC_eq]
  have s1 : Real.sqrt (40000 / 1000) ≤ 6.33 := by rw [Real.sqrt_le_left (by norm_num)]; norm_num
  have s2 : (0.145:ℝ) ≤ Real.sqrt 0.0211 := Real.le_sqrt_of_sq_le (by norm_num)
  have s3 : Real.sqrt 1000 ≤ 32 := by rw [Real.sqrt_le_left (by norm_num)]; norm_num
  have s4 : Real.sqrt 41.2 ≤ 6.5 := by rw [Real.sqrt_le_left (by norm_num)]; norm_num
  have s5 := Real.sqrt_nonneg 1000
  have s6 := Real.sqrt_nonneg 41.2
  have s7 := Real.sqrt_nonneg (40000 / 1000)
  have hc : (2.30524e-6 * 1000 - 3.30558e-5 * 41.2) / (0.0211 * Real.sqrt 0.0211) ≤ 0.31 := by
    rw [div_le_iff₀ (by positivity)]
    norm_num at s2 ⊢
    linarith
  have hc2 : (2.30524e-6 * 1000 - 3.30558e-5 * 41.2) / (0.0211 * Real.sqrt 0.0211) * Real.sqrt (40000 / 1000) ≤ 0.31 * 6.33 :=
    mul_le_mul hc s1 s7 (by norm_num)
  have ha : -aC 41.2 0.0211 1000 ≤ 90 := by
    have e : -aC 41.2 0.0211 1000 = 41.2 / 0.0211 * (8.6392e-6 * 1000 - 5.45963e-5 * 41.2) * Real.sqrt 41.2 := by
      unfold aC; norm_num; ring
    rw [e]
    calc 41.2 / 0.0211 * (8.6392e-6 * 1000 - 5.45963e-5 * 41.2) * Real.sqrt 41.2
        ≤ 41.2 / 0.0211 * (8.6392e-6 * 1000 - 5.45963e-5 * 41.2) * 6.5 := mul_le_mul_of_nonneg_left s4 (by norm_num)
      _ ≤ 90 := by norm_num
  have hx : -aC 41.2 0.0211 1000 * RR * Real.sqrt 1000 / ((RR * 1000 + bC 41.2 0.0211 * (40000 / 1000)) *
      (RR * 1000 + 2 * bC 41.2 0.0211 * (40000 / 1000))) ≤ 0.1 := by
    have hb : bC 41.2 0.0211 = 9.18301e-4 * 41.2 / 0.0211 := rfl
    have hR : RR = 0.00831451 := rfl
    rw [div_le_iff₀ (by rw [hb, hR]; norm_num)]
    have : -aC 41.2 0.0211 1000 * RR * Real.sqrt 1000 ≤ 90 * RR * 32 :=
      mul_le_mul (mul_le_mul_of_nonneg_right ha RRpos.le) s3 s5 (mul_nonneg (by norm_num) RRpos.le)
    refine this.trans ?_
    rw [hb, hR]; norm_num
  have e : RR * 1000 / (40000 / 1000) + bC 41.2 0.0211 + (6.93054e-7 * 41.2 - 8.38293e-8 * 1000) / 0.0211 ^ 2 * (40000 / 1000) ≤ -2.9 := by
    unfold RR bC; norm_num
  simp only [neg_mul, neg_div] at hx
  norm_num at e hx hc2 ⊢
  linarith

/-- **C166** is violated by methane at 300 K in the CORK model, between 40 and 60 kbar: the volume grows with the pressure. -/
theorem C166_methane_refuted (lo : ℝ) (hlo : lo ≤ 300) : ∃ f g, calcFugPure .gas lo 300 40000 exCH4 = some f ∧
    calcFugPure .gas lo 300 60000 exCH4 = some g ∧ f.v < g.v := by
  refine ⟨_, _, calc_in hlo (by norm_num) (by norm_num) (by norm_num), calc_in hlo (by norm_num) (by norm_num) (by norm_num), ?_⟩
  rw [corr_v, corr_v]
  have e0 : exCH4 0 = 190.6 := by simp [exCH4]
  have e1 : exCH4 1 / 1000 = 0.046 := by simp [exCH4]; norm_num
  rw [e0, e1, cC_eq, dC_eq, show (40000:ℝ) / 1000 = 40 by norm_num, show (60000:ℝ) / 1000 = 60 by norm_num]
  have s1 : (6.32:ℝ) ≤ Real.sqrt 40 := Real.le_sqrt_of_sq_le (by norm_num)
  have s2 : Real.sqrt 60 ≤ 7.75 := by rw [Real.sqrt_le_left (by norm_num)]; norm_num
  have s3 : (0.214:ℝ) ≤ Real.sqrt 0.046 := Real.le_sqrt_of_sq_le (by norm_num)
  have hc : -0.57 ≤ (2.30524e-6 * 300 - 3.30558e-5 * 190.6) / (0.046 * Real.sqrt 0.046) := by
    rw [le_div_iff₀ (by positivity)]
    norm_num at s3 ⊢
    linarith
  have hc2 : -0.57 * (7.75 - 6.32) ≤ (2.30524e-6 * 300 - 3.30558e-5 * 190.6) / (0.046 * Real.sqrt 0.046) * (Real.sqrt 60 - Real.sqrt 40) := by
    have h0 : 0 ≤ Real.sqrt 60 - Real.sqrt 40 := sub_nonneg.mpr (Real.sqrt_le_sqrt (by norm_num))
    nlinarith
  have ha : 0 ≤ aC 190.6 0.046 300 := by
    have e : aC 190.6 0.046 300 = 190.6 / 0.046 * (5.45963e-5 * 190.6 - 8.6392e-6 * 300) * Real.sqrt 190.6 := by
      unfold aC; norm_num; ring
    rw [e]
    exact mul_nonneg (by norm_num) (Real.sqrt_nonneg _)
  have hb : 0 < bC 190.6 0.046 := by unfold bC; norm_num
  have hR := RRpos
  have i2 : aC 190.6 0.046 300 * RR * Real.sqrt 300 / ((RR * 300 + bC 190.6 0.046 * 60) * (RR * 300 + 2 * bC 190.6 0.046 * 60)) ≤
      aC 190.6 0.046 300 * RR * Real.sqrt 300 / ((RR * 300 + bC 190.6 0.046 * 40) * (RR * 300 + 2 * bC 190.6 0.046 * 40)) := by
    refine div_le_div_of_nonneg_left (mul_nonneg (mul_nonneg ha hR.le) (Real.sqrt_nonneg _)) (by positivity) ?_
    gcongr <;> norm_num
  have e : 0.98 ≤ RR * 300 / 60 - RR * 300 / 40 + (6.93054e-7 * 190.6 - 8.38293e-8 * 300) / 0.046 ^ 2 * 20 := by
    unfold RR; norm_num
  have g : (-0.9:ℝ) ≤ -0.57 * (7.75 - 6.32) := by norm_num
  have hc2 := g.trans hc2
  rw [mul_sub] at hc2
  have f : (6.93054e-7 * 190.6 - 8.38293e-8 * 300) / 0.046 ^ 2 * (20:ℝ) =
    (6.93054e-7 * 190.6 - 8.38293e-8 * 300) / 0.046 ^ 2 * 60 - (6.93054e-7 * 190.6 - 8.38293e-8 * 300) / 0.046 ^ 2 * 40 := by ring
  rw [f] at e
  generalize (6.93054e-7 * 190.6 - 8.38293e-8 * 300) / 0.046 ^ 2 * (60:ℝ) = d60 at *
  generalize (6.93054e-7 * 190.6 - 8.38293e-8 * 300) / 0.046 ^ 2 * (40:ℝ) = d40 at *
  generalize (2.30524e-6 * 300 - 3.30558e-5 * 190.6) / (0.046 * Real.sqrt 0.046) * Real.sqrt 60 = c60 at *
  generalize (2.30524e-6 * 300 - 3.30558e-5 * 190.6) / (0.046 * Real.sqrt 0.046) * Real.sqrt 40 = c40 at *
  have e' : (0.9:ℝ) < 0.98 := by norm_num
  linarith

/-! ### H2O and CO2 -/

/-- The root of the Redlich-Kwong part decreases with the pressure. -/
lemma mrkV_anti {a b T P1 P2 : ℝ} (hT : 0 < T) (h1 : 0 < P1) (h12 : P1 < P2) (ha : 0 ≤ a) (hb : 0 < b) (o1 : One a b T P1)
    (o2 : One a b T P2) : mrkV a b T P2 < mrkV a b T P1 := by
  have hR := RRpos
  have hs : 0 < Real.sqrt T := Real.sqrt_pos.mpr hT
  have r1 := mrk_root hT h1 ha hb o1
  have r2 := mrk_root hT (h1.trans h12) ha hb o2
  by_contra hn
  have hn := not_lt.mp hn
  have e2 : Gas.eosP 1 0 RR (a / Real.sqrt T) b T (mrkV a b T P2) = P2 := r2.eos.symm
  have e1 : Gas.eosP 1 0 RR (a / Real.sqrt T) b T (mrkV a b T P1) = P1 := r1.eos.symm
  have b2 := r2.vb
  -- below P1 far to the right
  have hbig : Gas.eosP 1 0 RR (a / Real.sqrt T) b T (max (mrkV a b T P2) (b + RR * T / P1 + 1)) < P1 := by
    have h3 : b + RR * T / P1 + 1 ≤ max (mrkV a b T P2) (b + RR * T / P1 + 1) := le_max_right _ _
    have hq : 0 < RR * T / P1 := by positivity
    unfold Gas.eosP
    generalize max (mrkV a b T P2) (b + RR * T / P1 + 1) = X at *
    have h4 : 0 ≤ a / Real.sqrt T / ((X + 1 * b) * (X + 0 * b)) := div_nonneg (by positivity) (mul_nonneg (by linarith) (by linarith))
    have h5 : RR * T / (X - b) < P1 := by
      rw [div_lt_iff₀ (by linarith)]
      have : RR * T / P1 < X - b := by linarith
      rw [div_lt_iff₀ h1] at this
      linarith
    linarith
  have hcont : ContinuousOn (Gas.eosP 1 0 RR (a / Real.sqrt T) b T) (Set.Icc (mrkV a b T P2) (max (mrkV a b T P2) (b + RR * T / P1 + 1))) := by
    intro y hy
    have := hy.1
    exact (Gas.eosP_deriv (by linarith) (by linarith) (by linarith)).continuousAt.continuousWithinAt
  obtain ⟨y, hy, hyP⟩ := intermediate_value_Icc' (le_max_left _ _) hcont ⟨hbig.le, by rw [e2]; exact h12.le⟩
  have hby : b < y := lt_of_lt_of_le b2 hy.1
  have hcub : y ^ 3 + cbM T P1 * y ^ 2 + ccM a b T P1 * y + cdM a b T P1 = 0 := by
    rw [mrk_cubic hT h1]
    unfold Gas.eosP at hyP
    have n1 : y - b ≠ 0 := by linarith
    have n2 : y ≠ 0 := by linarith
    have n3 : y + b ≠ 0 := by linarith
    rw [one_mul, zero_mul, add_zero] at hyP
    field_simp at hyP ⊢
    linarith
  have hz := Gas.oneRoot_root o1.1.le o1.2
  have : y = mrkV a b T P1 := Gas.root_unique o1.1 hcub hz
  have h6 := hy.1
  have : mrkV a b T P2 = mrkV a b T P1 := le_antisymm (by linarith) hn
  rw [this, e1] at e2
  linarith

/-- The volume of CO2. -/
lemma co2_v {T P : ℝ} {k : Nat → ℝ} (hT : 0 < T) (hP : 0 < P) (ha : 0 ≤ aCO2 T) (h : Single (aCO2 T) 3.057 T (P / 1000)) :
    ∃ f, fugacityPT .CO2 T P k = some f ∧ f.v = mrkV (aCO2 T) 3.057 T (P / 1000) + virV (co2Vir T) (P / 1000) := by
  have hK : 0 < P / 1000 := by positivity
  have e := volFug_one (vap := true) (w := co2Vir T) hT hK ha (by norm_num) (h.one hT hK)
  have e2 : fugacityPT .CO2 T P k = (volumeFugacity true T (P / 1000) (aCO2 T) 3.057 (co2Vir T)).map (mrkProps T (P / 1000) (co2AB T)) := by
    show fugacityCO2 T (P / 1000) = _
    unfold fugacityCO2
    rw [co2_a]
  rw [e] at e2
  exact ⟨_, e2, rfl⟩

/-- **C166 (partial)** CO2 in the CORK model: between two pressures within the limits of the program at which the cubic equation has a
single solution, the volume decreases, and it is positive.  Missing: pressures with three solutions, and temperatures above 1195 K,
where the parameter a is negative. -/
theorem C166_co2_partial (lo T P1 P2 : ℝ) (k : Nat → ℝ) (hlo : lo ≤ T) (hT : 0 < T) (ha : 0 ≤ aCO2 T) (h1 : 1e-5 ≤ P1) (h12 : P1 < P2)
    (h2 : P2 < 1e5) (s1 : Single (aCO2 T) 3.057 T (P1 / 1000)) (s2 : Single (aCO2 T) 3.057 T (P2 / 1000)) :
    ∃ f g, calcFugPure .CO2 lo T P1 k = some f ∧ calcFugPure .CO2 lo T P2 k = some g ∧ 0 < g.v ∧ g.v < f.v := by
  have hP1 : 0 < P1 := lt_of_lt_of_le (by norm_num) h1
  have hP2 := hP1.trans h12
  have hT2 : T < 1200 := by
    by_contra hn
    have hn := not_lt.mp hn
    unfold aCO2 at ha
    norm_num at ha
    nlinarith
  obtain ⟨f, f1, f2⟩ := co2_v (k := k) hT hP1 ha s1
  obtain ⟨g, g1, g2⟩ := co2_v (k := k) hT hP2 ha s2
  have hK1 : 0 < P1 / 1000 := by positivity
  have hK2 : 0 < P2 / 1000 := by positivity
  have hK : P1 / 1000 < P2 / 1000 := by linarith
  have hm : P2 / 1000 < 100 := by norm_num at h2; linarith
  refine ⟨f, g, (calc_in hlo (by norm_num; linarith) h1 (h12.trans h2)).trans f1,
    (calc_in hlo (by norm_num; linarith) (h1.trans h12.le) h2).trans g1, ?_, ?_⟩
  · rw [g2]
    have r := (mrk_root hT hK2 ha (by norm_num) (s2.one hT hK2)).vb
    have : -2 ≤ virV (co2Vir T) (P2 / 1000) := by
      unfold virV co2Vir
      dsimp only
      split_ifs with hp
      · have hx : 0 < P2 / 1000 - 5 := by linarith
        have hs : Real.sqrt (P2 / 1000 - 5) ≤ 10 := by rw [Real.sqrt_le_left (by norm_num)]; linarith
        have hs0 := Real.sqrt_nonneg (P2 / 1000 - 5)
        have i1 : -0.178198 * 10 ≤ (-1.78198e-1 + 2.45317e-5 * T) * Real.sqrt (P2 / 1000 - 5) := by
          have : -0.178198 * Real.sqrt (P2 / 1000 - 5) ≤ (-1.78198e-1 + 2.45317e-5 * T) * Real.sqrt (P2 / 1000 - 5) :=
            mul_le_mul_of_nonneg_right (by norm_num; linarith) hs0
          refine le_trans ?_ this
          norm_num at hs ⊢
          linarith
        have i2 : 0 ≤ (5.40776e-3 + -1.59046e-6 * T) * (P2 / 1000 - 5) := mul_nonneg (by norm_num; linarith) hx.le
        rw [zero_mul, add_zero]
        norm_num at i1 i2 ⊢
        linarith
      · norm_num
    norm_num at r
    linarith
  · rw [f2, g2]
    have i1 := mrkV_anti hT hK1 hK ha (by norm_num) (s1.one hT hK1) (s2.one hT hK2)
    have i2 : virV (co2Vir T) (P2 / 1000) ≤ virV (co2Vir T) (P1 / 1000) := by
      have key : ∀ x y : ℝ, 0 ≤ x → x ≤ y → y ≤ 100 → (-1.78198e-1 + 2.45317e-5 * T) * Real.sqrt y + (5.40776e-3 + -1.59046e-6 * T) * y ≤
          (-1.78198e-1 + 2.45317e-5 * T) * Real.sqrt x + (5.40776e-3 + -1.59046e-6 * T) * x := by
        intro x y hx hxy hy
        have hsy : Real.sqrt y ≤ 10 := by rw [Real.sqrt_le_left (by norm_num)]; linarith
        have hss := Real.sqrt_le_sqrt hxy
        have ex := Real.sq_sqrt hx
        have ey := Real.sq_sqrt (hx.trans hxy)
        have h0 := Real.sqrt_nonneg x
        generalize Real.sqrt x = p at *
        generalize Real.sqrt y = q at *
        rw [← ex, ← ey]
        have h3 : 0 ≤ (q - p) * ((1.78198e-1 - 2.45317e-5 * T) - (5.40776e-3 + -1.59046e-6 * T) * (q + p)) := by
          refine mul_nonneg (by linarith) ?_
          have h4 : (5.40776e-3 + -1.59046e-6 * T) * (q + p) ≤ (5.40776e-3 + -1.59046e-6 * T) * 20 :=
            mul_le_mul_of_nonneg_left (by linarith) (by norm_num; linarith)
          refine sub_nonneg.mpr (h4.trans ?_)
          norm_num
          linarith
        nlinarith
      unfold virV co2Vir
      dsimp only
      simp only [zero_mul, add_zero]
      split_ifs with c2 c1 c1
      · exact key _ _ (by linarith) (by linarith) (by linarith)
      · have := key 0 (P2 / 1000 - 5) le_rfl (by linarith) (by linarith)
        simpa using this
      · linarith
      · rfl
    linarith

/-- CO2 at 400 K between 1 and 8 kbar. -/
example : ∃ f g, calcFugPure .CO2 298.15 400 1000 (fun _ => 0) = some f ∧ calcFugPure .CO2 298.15 400 8000 (fun _ => 0) = some g ∧
    0 < g.v ∧ g.v < f.v := by
  have hs : Real.sqrt 400 = 20 := sqrt_sq' 20 (by norm_num) (by norm_num)
  exact C166_co2_partial 298.15 400 1000 8000 _ (by norm_num) (by norm_num) ex_co2.2.le (by norm_num) (by norm_num) (by norm_num) ex_co2.1
    (by unfold Single aCO2 Gas.discr Gas.cubic; rw [hs]; norm_num)

/-- The volume of H2O above 695 K. -/
lemma steam_v {T K : ℝ} (hT : 695 < T) (hK : 0 < K) (ha : 0 ≤ aSup T) (h : One (aSup T) 1.465 T K) :
    ∃ f, fugacityH2O T K = some f ∧ f.v = mrkV (aSup T) 1.465 T K + virV waterVir K := by
  have e := volFug_one (vap := true) (w := waterVir) (by linarith) hK ha (by norm_num) h
  have e2 : fugacityH2O T K = (volumeFugacity true T K (aSup T) 1.465 waterVir).map (mrkProps T K (waterSuper T)) := by
    unfold fugacityH2O
    rw [if_pos hT, sup_a]
  rw [e] at e2
  exact ⟨_, e2, rfl⟩

/-- **C166 (partial)** H2O above 695 K in the CORK model: up to 2 kbar, between two pressures at which the cubic equation has a single
solution, the volume decreases, and it is larger than 1.465 J/bar. -/
theorem C166_steam_partial (lo T P1 P2 : ℝ) (k : Nat → ℝ) (hlo : lo ≤ T) (hT : 695 < T) (hT2 : T < 1e4) (ha : 0 ≤ aSup T) (h1 : 1e-5 ≤ P1)
    (h12 : P1 < P2) (h2 : P2 ≤ 2000) (s1 : Single (aSup T) 1.465 T (P1 / 1000)) (s2 : Single (aSup T) 1.465 T (P2 / 1000)) :
    ∃ f g, calcFugPure .H2O lo T P1 k = some f ∧ calcFugPure .H2O lo T P2 k = some g ∧ 1.465 < g.v ∧ g.v < f.v := by
  have hP1 : 0 < P1 := lt_of_lt_of_le (by norm_num) h1
  have hK1 : 0 < P1 / 1000 := by positivity
  have hK2 : 0 < P2 / 1000 := by have := hP1.trans h12; positivity
  have hT0 : 0 < T := by linarith
  obtain ⟨f, f1, f2⟩ := steam_v hT hK1 ha (s1.one hT0 hK1)
  obtain ⟨g, g1, g2⟩ := steam_v hT hK2 ha (s2.one hT0 hK2)
  have hm : (2000:ℝ) < 1e5 := by norm_num
  have v1 : virV waterVir (P1 / 1000) = 0 := by unfold virV waterVir; rw [if_neg]; simp only [gt_iff_lt, not_lt]; linarith
  have v2 : virV waterVir (P2 / 1000) = 0 := by unfold virV waterVir; rw [if_neg]; simp only [gt_iff_lt, not_lt]; linarith
  refine ⟨f, g, (calc_in hlo hT2 h1 (by linarith)).trans f1, (calc_in hlo hT2 (h1.trans h12.le) (by linarith)).trans g1, ?_, ?_⟩
  · rw [g2, v2, add_zero]
    exact (mrk_root hT0 hK2 ha (by norm_num) (s2.one hT0 hK2)).vb
  · rw [f2, g2, v1, v2, add_zero, add_zero]
    exact mrkV_anti hT0 hK1 (by linarith) ha (by norm_num) (s1.one hT0 hK1) (s2.one hT0 hK2)

lemma ex_steam2 : Single (aSup 900) 1.465 900 2 := by
  have hs : Real.sqrt 900 = 30 := sqrt_sq' 30 (by norm_num) (by norm_num)
  unfold Single aSup Gas.discr Gas.cubic
  rw [hs]
  norm_num

/-- Steam at 900 K between 1 and 2 kbar. -/
example : ∃ f g, calcFugPure .H2O 298.15 900 1000 (fun _ => 0) = some f ∧ calcFugPure .H2O 298.15 900 2000 (fun _ => 0) = some g ∧
    1.465 < g.v ∧ g.v < f.v :=
  C166_steam_partial 298.15 900 1000 2000 _ (by norm_num) (by norm_num) (by norm_num) ex_steam.2.le (by norm_num) (by norm_num) (by norm_num)
    ex_steam.1 (by rw [show (2000:ℝ) / 1000 = 2 by norm_num]; exact ex_steam2)

/-- **C166** is violated by H2O above 695 K in the CORK model, at every temperature at which the cubic equation has a single solution
at 2 kbar: the virial part begins there with the fourth root of the pressure difference and a positive coefficient, so that at pressures
just above 2 kbar the volume is larger than at 2 kbar. -/
theorem C166_steam_refuted (lo T : ℝ) (k : Nat → ℝ) (hlo : lo ≤ T) (hT : 695 < T) (hT2 : T < 1e4) (ha : 0 ≤ aSup T)
    (s : Single (aSup T) 1.465 T 2) : ∃ δ > 0, ∀ P, 2000 < P → P < 2000 + δ →
      ∃ f g, calcFugPure .H2O lo T 2000 k = some f ∧ calcFugPure .H2O lo T P k = some g ∧ f.v < g.v := by
  have hT0 : 0 < T := by linarith
  have o := s.one hT0 two_pos
  have hd : DifferentiableAt ℝ (fun p => mrkV (aSup T) 1.465 T p) 2 :=
    mrkV_diff (a := fun _ => aSup T) (t := fun _ => T) (p := fun p => p) (differentiableAt_const _) (differentiableAt_const _)
      differentiableAt_id hT0 two_ne_zero o
  obtain ⟨C, hC⟩ := hd.hasDerivAt.isBigO_sub.bound
  have hO : ∀ᶠ p in 𝓝 (2:ℝ), One (aSup T) 1.465 T p :=
    One.eventually (a := fun _ => aSup T) (t := fun _ => T) (p := fun p => p) continuousAt_const continuousAt_const continuousAt_id hT0
      two_ne_zero o
  have hq : ContinuousAt (fun p : ℝ => 8.0331e-2 - 8.909e-2 * Real.sqrt (Real.sqrt (p - 2)) + (1.9853e-3 - C) * Real.sqrt (Real.sqrt (p - 2)) ^ 3) 2 := by
    fun_prop
  have hq0 : ∀ᶠ p in 𝓝 (2:ℝ), 0 < 8.0331e-2 - 8.909e-2 * Real.sqrt (Real.sqrt (p - 2)) + (1.9853e-3 - C) * Real.sqrt (Real.sqrt (p - 2)) ^ 3 := by
    refine hq.eventually (lt_mem_nhds ?_)
    simp
    norm_num
  obtain ⟨δ, hδ, h⟩ := Metric.eventually_nhds_iff.mp (hC.and (hO.and (hq0.and (gt_mem_nhds (show (2:ℝ) < 99 by norm_num)))))
  refine ⟨1000 * δ, by positivity, fun P h1 h2 => ?_⟩
  have hK : 2 < P / 1000 := by linarith
  obtain ⟨c1, c2, c3, c4⟩ := h (y := P / 1000) (by rw [Real.dist_eq, abs_of_pos (by linarith)]; linarith)
  obtain ⟨f, f1, f2⟩ := steam_v hT two_pos ha o
  obtain ⟨g, g1, g2⟩ := steam_v hT (by linarith) ha c2
  refine ⟨f, g, (calc_in hlo hT2 (by norm_num) (by norm_num)).trans (show fugacityH2O T (2000 / 1000) = _ by
    rw [show (2000:ℝ) / 1000 = 2 by norm_num]; exact f1), (calc_in hlo hT2 (by norm_num; linarith) (by norm_num; linarith)).trans g1, ?_⟩
  have v1 : virV waterVir 2 = 0 := by unfold virV waterVir; rw [if_neg]; simp
  have v2 : virV waterVir (P / 1000) = -8.909e-2 * Real.sqrt (P / 1000 - 2) + 1.9853e-3 * (P / 1000 - 2)
      + 8.0331e-2 * Real.sqrt (Real.sqrt (P / 1000 - 2)) := by unfold virV waterVir; rw [if_pos hK]
  rw [f2, g2, v1, v2, add_zero]
  simp only [Real.norm_eq_abs] at c1
  rw [abs_of_pos (show 0 < P / 1000 - 2 by linarith)] at c1
  have c5 := (abs_le.mp c1).1
  have hx : 0 < P / 1000 - 2 := by linarith
  have e1 := Real.sq_sqrt hx.le
  have p1 : 0 < Real.sqrt (P / 1000 - 2) := Real.sqrt_pos.mpr hx
  have e2 := Real.sq_sqrt p1.le
  have p2 : 0 < Real.sqrt (Real.sqrt (P / 1000 - 2)) := Real.sqrt_pos.mpr p1
  generalize Real.sqrt (Real.sqrt (P / 1000 - 2)) = q at *
  generalize Real.sqrt (P / 1000 - 2) = r at *
  generalize P / 1000 - 2 = x at *
  have hm := mul_pos p2 c3
  subst e2
  subst e1
  have e : q * (8.0331e-2 - 8.909e-2 * q + (1.9853e-3 - C) * q ^ 3) = -8.909e-2 * q ^ 2 + 1.9853e-3 * (q ^ 2) ^ 2 + 8.0331e-2 * q - C * (q ^ 2) ^ 2 := by
    ring
  rw [e] at hm
  linarith

/-- Steam at 900 K. -/
example : ∃ δ > 0, ∀ P, 2000 < P → P < 2000 + δ → ∃ f g, calcFugPure .H2O 298.15 900 2000 (fun _ => 0) = some f ∧
    calcFugPure .H2O 298.15 900 P (fun _ => 0) = some g ∧ f.v < g.v :=
  C166_steam_refuted 298.15 900 _ (by norm_num) (by norm_num) (by norm_num) ex_steam.2.le ex_steam2

end ThermoFun.Cork
