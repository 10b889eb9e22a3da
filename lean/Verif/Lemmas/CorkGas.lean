import Verif.Model.Cork
import Verif.Lemmas.GasT

/-!
The corresponding-states form of the CORK equation, in kbar and kJ.
-/

namespace ThermoFun.Cork

open Topology Filter

lemma RRpos : 0 < RR := by unfold RR; norm_num
lemma Rgas_RR : Rgas = 1000 * RR := by unfold Rgas RR; norm_num

lemma rpow15 {x : ℝ} (hx : 0 ≤ x) : x ^ (1.5 : ℝ) = x * Real.sqrt x := by
  rcases hx.eq_or_lt with rfl | hx
  · rw [Real.zero_rpow (by norm_num)]; simp
  · rw [Real.sqrt_eq_rpow, ← Real.rpow_one_add' hx.le (by norm_num)]; norm_num

section
variable (R b : ℝ)

/-- The residual Gibbs energy. -/
noncomputable def gc (a c d T K : ℝ) : ℝ :=
  b * K + a / (b * Real.sqrt T) * (Real.log (R * T + b * K) - Real.log (R * T + 2 * b * K)) + 2 / 3 * c * K * Real.sqrt K + d / 2 * K ^ 2

/-- The residual enthalpy. -/
noncomputable def hc (a da c dc d dd T K : ℝ) : ℝ :=
  b * K + (3 * a / (2 * b * Real.sqrt T) - Real.sqrt T * da / b) * (Real.log (R * T + b * K) - Real.log (R * T + 2 * b * K))
    - a * Real.sqrt T / b * (R / (R * T + b * K) - R / (R * T + 2 * b * K))
    + 2 / 3 * (c - T * dc) * K * Real.sqrt K + (d - T * dd) / 2 * K ^ 2

/-- The residual heat capacity. -/
noncomputable def cc (a da T K : ℝ) : ℝ :=
  (da / (b * Real.sqrt T) - 3 * a / (4 * b * (T * Real.sqrt T))) * (Real.log (R * T + b * K) - Real.log (R * T + 2 * b * K))
    + (a / (b * Real.sqrt T) - 2 * Real.sqrt T * da / b) * (R / (R * T + b * K) - R / (R * T + 2 * b * K))
    + a * Real.sqrt T / b * (R ^ 2 / (R * T + b * K) ^ 2 - R ^ 2 / (R * T + 2 * b * K) ^ 2)
end

variable {R b : ℝ}

lemma gc_K {a c d T K : ℝ} (hR : 0 < R) (hb : 0 < b) (hT : 0 < T) (hK : 0 < K) :
    HasDerivAt (fun k => gc R b a c d T k)
      (b - a * R * Real.sqrt T / ((R * T + b * K) * (R * T + 2 * b * K)) + c * Real.sqrt K + d * K) K := by
  have l1 : HasDerivAt (fun k => Real.log (R * T + b * k)) (b / (R * T + b * K)) K := by
    have := (((hasDerivAt_id' K).const_mul b).const_add (R * T)).log (by positivity)
    simpa using this
  have l2 : HasDerivAt (fun k => Real.log (R * T + 2 * b * k)) (2 * b / (R * T + 2 * b * K)) K := by
    have := (((hasDerivAt_id' K).const_mul (2 * b)).const_add (R * T)).log (by positivity)
    simpa using this
  have s := (hasDerivAt_id' K).sqrt hK.ne'
  have := ((((hasDerivAt_id' K).const_mul b).fun_add ((l1.fun_sub l2).const_mul (a / (b * Real.sqrt T)))).fun_add
    (((hasDerivAt_id' K).const_mul (2 / 3 * c)).fun_mul s)).fun_add (((hasDerivAt_pow 2 K)).const_mul (d / 2))
  unfold gc
  refine this.congr_deriv ?_
  have hs : 0 < Real.sqrt K := Real.sqrt_pos.mpr hK
  have ht : 0 < Real.sqrt T := Real.sqrt_pos.mpr hT
  have e1 : 2 / 3 * c * 1 * Real.sqrt K + 2 / 3 * c * K * (1 / (2 * Real.sqrt K)) = c * Real.sqrt K := by
    have := Real.sq_sqrt hK.le
    generalize Real.sqrt K = s at *
    rw [← this]; field_simp; ring
  have e2 : a / (b * Real.sqrt T) * (b / (R * T + b * K) - 2 * b / (R * T + 2 * b * K))
      = -(a * R * Real.sqrt T / ((R * T + b * K) * (R * T + 2 * b * K))) := by
    have h2 := Real.sq_sqrt hT.le
    generalize Real.sqrt T = s at *
    rw [← h2]; field_simp; ring
  rw [e1, e2]
  push_cast
  ring

lemma logs_T {T K : ℝ} (hR : 0 < R) (hb : 0 < b) (hT : 0 < T) (hK : 0 < K) :
    HasDerivAt (fun t => Real.log (R * t + b * K) - Real.log (R * t + 2 * b * K)) (R / (R * T + b * K) - R / (R * T + 2 * b * K)) T := by
  have l1 := (((hasDerivAt_id' T).const_mul R).add_const (b * K)).log (by positivity)
  have l2 := (((hasDerivAt_id' T).const_mul R).add_const (2 * b * K)).log (by positivity)
  have := l1.fun_sub l2
  simpa using this

lemma gc_T {a c d : ℝ → ℝ} {da dc dd T K : ℝ} (hR : 0 < R) (hb : 0 < b) (hT : 0 < T) (hK : 0 < K) (ha : HasDerivAt a da T)
    (hc' : HasDerivAt c dc T) (hd : HasDerivAt d dd T) :
    HasDerivAt (fun t => gc R b (a t) (c t) (d t) t K)
      ((gc R b (a T) (c T) (d T) T K - hc R b (a T) da (c T) dc (d T) dd T K) / T) T := by
  have s := (hasDerivAt_id' T).sqrt hT.ne'
  have ht : 0 < Real.sqrt T := Real.sqrt_pos.mpr hT
  have := (((ha.fun_div (s.const_mul b) (by positivity)).fun_mul (logs_T hR hb hT hK)).const_add (b * K)).fun_add
    ((hc'.const_mul (2 / 3)).mul_const K |>.mul_const (Real.sqrt K)) |>.fun_add ((hd.div_const 2).mul_const (K ^ 2))
  unfold gc hc
  refine this.congr_deriv ?_
  generalize Real.log (R * T + b * K) - Real.log (R * T + 2 * b * K) = L
  have h2 := Real.sq_sqrt hT.le
  have hx : 0 < R * T + b * K := by positivity
  have hy : 0 < R * T + 2 * b * K := by positivity
  generalize R / (R * T + b * K) - R / (R * T + 2 * b * K) = M
  generalize Real.sqrt T = s at *
  rw [← h2]
  field_simp
  ring

lemma hc_T {a c d : ℝ → ℝ} {da dc dd T K : ℝ} (hR : 0 < R) (hb : 0 < b) (hT : 0 < T) (hK : 0 < K) (ha : HasDerivAt a da T)
    (hc' : HasDerivAt c dc T) (hd : HasDerivAt d dd T) :
    HasDerivAt (fun t => hc R b (a t) da (c t) dc (d t) dd t K) (cc R b (a T) da T K) T := by
  have s := (hasDerivAt_id' T).sqrt hT.ne'
  have ht : 0 < Real.sqrt T := Real.sqrt_pos.mpr hT
  have l1 := ((hasDerivAt_id' T).const_mul R).add_const (b * K)
  have l2 := ((hasDerivAt_id' T).const_mul R).add_const (2 * b * K)
  have hx : 0 < R * T + b * K := by positivity
  have hy : 0 < R * T + 2 * b * K := by positivity
  have m : HasDerivAt (fun t => R / (R * t + b * K) - R / (R * t + 2 * b * K)) (-(R ^ 2 / (R * T + b * K) ^ 2 - R ^ 2 / (R * T + 2 * b * K) ^ 2)) T := by
    have := ((hasDerivAt_const T R).fun_div l1 hx.ne').fun_sub ((hasDerivAt_const T R).fun_div l2 hy.ne')
    refine this.congr_deriv ?_
    ring
  have := (((((((ha.const_mul 3).fun_div (s.const_mul (2 * b)) (by positivity)).fun_sub ((s.mul_const da).div_const b)).fun_mul
    (logs_T hR hb hT hK)).const_add (b * K)).fun_sub (((ha.fun_mul s).div_const b).fun_mul m)).fun_add
    ((((hc'.fun_sub ((hasDerivAt_id' T).mul_const dc)).const_mul (2 / 3)).mul_const K).mul_const (Real.sqrt K))).fun_add
    (((hd.fun_sub ((hasDerivAt_id' T).mul_const dd)).div_const 2).mul_const (K ^ 2))
  unfold hc cc
  refine this.congr_deriv ?_
  generalize Real.log (R * T + b * K) - Real.log (R * T + 2 * b * K) = L
  have h2 := Real.sq_sqrt hT.le
  generalize R ^ 2 / (R * T + b * K) ^ 2 - R ^ 2 / (R * T + 2 * b * K) ^ 2 = N
  generalize R / (R * T + b * K) - R / (R * T + 2 * b * K) = M
  generalize Real.sqrt T = s at *
  rw [← h2]
  field_simp
  ring

/-! ### The results in these terms -/

/-- The parameters as functions of the temperature. -/
noncomputable def aC (tc pc T : ℝ) : ℝ := 5.45963e-5 * tc ^ 2 * Real.sqrt tc / pc + (-8.6392e-6) * tc * Real.sqrt tc / pc * T
/-- The parameters as functions of the temperature. -/
noncomputable def bC (tc pc : ℝ) : ℝ := 9.18301e-4 * tc / pc
/-- The parameters as functions of the temperature. -/
noncomputable def cC (tc pc T : ℝ) : ℝ := (-3.30558e-5) * tc / (pc * Real.sqrt pc) + 2.30524e-6 / (pc * Real.sqrt pc) * T
/-- The parameters as functions of the temperature. -/
noncomputable def dC (tc pc T : ℝ) : ℝ := 6.93054e-7 * tc / pc ^ 2 + (-8.38293e-8) / pc ^ 2 * T
/-- Their derivatives. -/
noncomputable def daC (tc pc : ℝ) : ℝ := (-8.6392e-6) * tc * Real.sqrt tc / pc
/-- Their derivatives. -/
noncomputable def dcC (pc : ℝ) : ℝ := 2.30524e-6 / (pc * Real.sqrt pc)
/-- Their derivatives. -/
noncomputable def ddC (pc : ℝ) : ℝ := (-8.38293e-8) / pc ^ 2

lemma aC_d (tc pc T : ℝ) : HasDerivAt (aC tc pc) (daC tc pc) T := by
  unfold aC daC
  simpa using ((hasDerivAt_id' T).const_mul ((-8.6392e-6) * tc * Real.sqrt tc / pc)).const_add (5.45963e-5 * tc ^ 2 * Real.sqrt tc / pc)
lemma cC_d (tc pc T : ℝ) : HasDerivAt (cC tc pc) (dcC pc) T := by
  unfold cC dcC
  simpa using ((hasDerivAt_id' T).const_mul (2.30524e-6 / (pc * Real.sqrt pc))).const_add ((-3.30558e-5) * tc / (pc * Real.sqrt pc))
lemma dC_d (tc pc T : ℝ) : HasDerivAt (dC tc pc) (ddC pc) T := by
  unfold dC ddC
  simpa using ((hasDerivAt_id' T).const_mul ((-8.38293e-8) / pc ^ 2)).const_add (6.93054e-7 * tc / pc ^ 2)

lemma corr_g {T K tc pc : ℝ} (hT : 0 < T) (hK : 0 < K) :
    (fugacityCorresponding T K tc pc).g = Rgas * T * Real.log (fugacityCorresponding T K tc pc).phi ∧
    0 < (fugacityCorresponding T K tc pc).phi ∧
    (fugacityCorresponding T K tc pc).g = 1000 * gc RR (bC tc (pc / 1000)) (aC tc (pc / 1000) T) (cC tc (pc / 1000) T) (dC tc (pc / 1000) T) T K := by
  have hR := RRpos
  refine ⟨rfl, by unfold fugacityCorresponding; dsimp only; positivity, ?_⟩
  have e : ∀ L x1 x2 x3 x4 : ℝ, 1000 * RR * T * ((RR * T * L + x1 + x2 + x3 + x4) / (RR * T) - L) = 1000 * (x1 + x2 + x3 + x4) := by
    intro L x1 x2 x3 x4; field_simp; ring
  unfold fugacityCorresponding gc aC bC cC dC
  dsimp only
  rw [Real.log_div (Real.exp_pos _).ne' (by positivity), Real.log_exp, Rgas_RR, e]

lemma corr_h {T K tc pc : ℝ} (hT : 0 < T) (hK : 0 < K) (htc : 0 < tc) (hpc : 0 < pc) :
    (fugacityCorresponding T K tc pc).h = some (1000 * hc RR (bC tc (pc / 1000)) (aC tc (pc / 1000) T) (daC tc (pc / 1000)) (cC tc (pc / 1000) T)
      (dcC (pc / 1000)) (dC tc (pc / 1000) T) (ddC (pc / 1000)) T K) := by
  have hR := RRpos
  have hs : 0 < Real.sqrt T := Real.sqrt_pos.mpr hT
  unfold fugacityCorresponding
  dsimp only
  congr 1
  rw [rpow15 htc.le, rpow15 hK.le, rpow15 (by positivity)]
  change _ = 1000 * hc RR (bC tc (pc / 1000)) (aC tc (pc / 1000) T) (daC tc (pc / 1000)) (cC tc (pc / 1000) T)
      (dcC (pc / 1000)) (dC tc (pc / 1000) T) (ddC (pc / 1000)) T K
  change (Real.sqrt T * ((-8.6392e-6) * (tc * Real.sqrt tc) / (pc / 1000)) * Real.log (RR * T + 2 * bC tc (pc / 1000) * K) / bC tc (pc / 1000)
    - Real.sqrt T * ((-8.6392e-6) * (tc * Real.sqrt tc) / (pc / 1000)) * Real.log (RR * T + bC tc (pc / 1000) * K) / bC tc (pc / 1000)
    - 3 * aC tc (pc / 1000) T * Real.log (RR * T + 2 * bC tc (pc / 1000) * K) / (2 * Real.sqrt T * bC tc (pc / 1000))
    + 3 * aC tc (pc / 1000) T * Real.log (RR * T + bC tc (pc / 1000) * K) / (2 * Real.sqrt T * bC tc (pc / 1000))
    - Real.sqrt T * aC tc (pc / 1000) T * RR / (bC tc (pc / 1000) * (RR * T + bC tc (pc / 1000) * K))
    + Real.sqrt T * aC tc (pc / 1000) T * RR / (bC tc (pc / 1000) * (RR * T + 2 * bC tc (pc / 1000) * K))
    - 2 * T * dcC (pc / 1000) * (K * Real.sqrt K) / 3 - T * ddC (pc / 1000) * K ^ 2 / 2 + bC tc (pc / 1000) * K
    + 2 * cC tc (pc / 1000) T * (K * Real.sqrt K) / 3 + dC tc (pc / 1000) T * K ^ 2 / 2) * 1000 = _
  have e : (-8.6392e-6) * (tc * Real.sqrt tc) / (pc / 1000) = daC tc (pc / 1000) := by unfold daC; ring
  rw [e]
  have hb : 0 < bC tc (pc / 1000) := by unfold bC; positivity
  unfold hc
  generalize bC tc (pc / 1000) = b at *
  have hx : 0 < RR * T + b * K := by positivity
  have hy : 0 < RR * T + 2 * b * K := by positivity
  generalize RR * T + b * K = x at *
  generalize RR * T + 2 * b * K = y at *
  field_simp
  ring

lemma corr_s {T K tc pc : ℝ} : ∃ h, (fugacityCorresponding T K tc pc).h = some h ∧
    (fugacityCorresponding T K tc pc).s = some ((h - (fugacityCorresponding T K tc pc).g) / T) := ⟨_, rfl, rfl⟩

lemma corr_cp {T K tc pc : ℝ} (hT : 0 < T) (hK : 0 < K) (htc : 0 < tc) (hpc : 0 < pc) :
    (fugacityCorresponding T K tc pc).cp = 1000 * cc RR (bC tc (pc / 1000)) (aC tc (pc / 1000) T) (daC tc (pc / 1000)) T K := by
  have hR := RRpos
  have hs : 0 < Real.sqrt T := Real.sqrt_pos.mpr hT
  unfold fugacityCorresponding
  dsimp only
  rw [rpow15 htc.le, rpow15 hT.le]
  change (-(2 * Real.sqrt T * ((-8.6392e-6) * (tc * Real.sqrt tc) / (pc / 1000)) * RR) / (bC tc (pc / 1000) * (RR * T + bC tc (pc / 1000) * K))
    + Real.sqrt T * aC tc (pc / 1000) T * RR ^ 2 / (bC tc (pc / 1000) * (RR * T + bC tc (pc / 1000) * K) ^ 2)
    + 2 * Real.sqrt T * ((-8.6392e-6) * (tc * Real.sqrt tc) / (pc / 1000)) * RR / (bC tc (pc / 1000) * (RR * T + 2 * bC tc (pc / 1000) * K))
    - aC tc (pc / 1000) T * RR / (Real.sqrt T * bC tc (pc / 1000) * (RR * T + 2 * bC tc (pc / 1000) * K))
    - ((-8.6392e-6) * (tc * Real.sqrt tc) / (pc / 1000)) * Real.log (RR * T + 2 * bC tc (pc / 1000) * K) / (Real.sqrt T * bC tc (pc / 1000))
    + ((-8.6392e-6) * (tc * Real.sqrt tc) / (pc / 1000)) * Real.log (RR * T + bC tc (pc / 1000) * K) / (Real.sqrt T * bC tc (pc / 1000))
    + 3 * aC tc (pc / 1000) T * Real.log (RR * T + 2 * bC tc (pc / 1000) * K) / (4 * (T * Real.sqrt T) * bC tc (pc / 1000))
    - 3 * aC tc (pc / 1000) T * Real.log (RR * T + bC tc (pc / 1000) * K) / (4 * (T * Real.sqrt T) * bC tc (pc / 1000))
    - Real.sqrt T * aC tc (pc / 1000) T * RR ^ 2 / (bC tc (pc / 1000) * (RR * T + 2 * bC tc (pc / 1000) * K) ^ 2)
    + aC tc (pc / 1000) T * RR / (Real.sqrt T * bC tc (pc / 1000) * (RR * T + bC tc (pc / 1000) * K))) * 1000 = _
  have e : (-8.6392e-6) * (tc * Real.sqrt tc) / (pc / 1000) = daC tc (pc / 1000) := by unfold daC; ring
  rw [e]
  have hb : 0 < bC tc (pc / 1000) := by unfold bC; positivity
  unfold cc
  generalize bC tc (pc / 1000) = b at *
  have hx : 0 < RR * T + b * K := by positivity
  have hy : 0 < RR * T + 2 * b * K := by positivity
  generalize RR * T + b * K = x at *
  generalize RR * T + 2 * b * K = y at *
  field_simp
  ring

lemma corr_v {T K tc pc : ℝ} : (fugacityCorresponding T K tc pc).v = RR * T / K + (bC tc (pc / 1000)
    - aC tc (pc / 1000) T * RR * Real.sqrt T / ((RR * T + bC tc (pc / 1000) * K) * (RR * T + 2 * bC tc (pc / 1000) * K))
    + cC tc (pc / 1000) T * Real.sqrt K + dC tc (pc / 1000) T * K) := by
  unfold fugacityCorresponding aC bC cC dC
  dsimp only
  ring

end ThermoFun.Cork
