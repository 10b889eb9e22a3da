import Verif.Lemmas.TSOps
import Verif.Model.Substance
import Verif.Model.Density
import Mathlib.Analysis.SpecialFunctions.Pow.Deriv
import Mathlib.Analysis.SpecialFunctions.ExpDeriv

/-!
`Carries x T P`: the derivatives a ThermoScalar carries are the partial derivatives of its value, with the closure rules of the operators.
-/

namespace ThermoFun

/-- The derivatives carried by `x`, a function of temperature (K) and pressure (Pa), are those of its value at (T, P). -/
structure Carries (x : ℝ → ℝ → TS) (T P : ℝ) : Prop where
  ddt : HasDerivAt (fun t => (x t P).val) (x T P).ddt T
  ddp : HasDerivAt (fun p => (x T p).val) (x T P).ddp P

namespace TS
variable (a b : TS) (c : ℝ)

@[simp] lemma op_ddt_add : (a + b).ddt = a.ddt + b.ddt := rfl
@[simp] lemma op_ddt_addL : (c + a).ddt = a.ddt := rfl
@[simp] lemma op_ddt_addR : (a + c).ddt = a.ddt := rfl
@[simp] lemma op_ddt_neg : (-a).ddt = -a.ddt := rfl
@[simp] lemma op_ddt_sub : (a - b).ddt = a.ddt - b.ddt := rfl
@[simp] lemma op_ddt_subL : (c - a).ddt = -a.ddt := rfl
@[simp] lemma op_ddt_subR : (a - c).ddt = a.ddt := rfl
@[simp] lemma op_ddt_mul : (a * b).ddt = a.val * b.ddt + a.ddt * b.val := rfl
@[simp] lemma ddt_mulL : (mulL c a).ddt = c * a.ddt := by unfold mulL; split <;> rfl
@[simp] lemma op_ddt_mulL : (c * a).ddt = c * a.ddt := ddt_mulL a c
@[simp] lemma op_ddt_mulR : (a * c).ddt = c * a.ddt := ddt_mulL a c
@[simp] lemma op_ddt_div : (a / b).ddt = (a.ddt * b.val - a.val * b.ddt) / b.val ^ 2 := by
  change (div a b).ddt = _
  simp only [div, ddt_mk5]; rw [show (1.0 : ℝ) = 1 by norm_num]; ring
@[simp] lemma op_ddt_divL : (c / a).ddt = -(c * a.ddt) / a.val ^ 2 := by
  change (divL c a).ddt = _
  simp only [divL]; split <;> (simp only [ddt_mk5]; rw [show (1.0 : ℝ) = 1 by norm_num]; ring)
@[simp] lemma op_ddt_divR : (a / c).ddt = a.ddt / c := by
  change (divR a c).ddt = _
  simp only [divR, ddt_mulL]; rw [show (1.0 : ℝ) = 1 by norm_num]; ring

@[simp] lemma op_ddp_add : (a + b).ddp = a.ddp + b.ddp := rfl
@[simp] lemma op_ddp_addL : (c + a).ddp = a.ddp := rfl
@[simp] lemma op_ddp_addR : (a + c).ddp = a.ddp := rfl
@[simp] lemma op_ddp_neg : (-a).ddp = -a.ddp := rfl
@[simp] lemma op_ddp_sub : (a - b).ddp = a.ddp - b.ddp := rfl
@[simp] lemma op_ddp_subL : (c - a).ddp = -a.ddp := rfl
@[simp] lemma op_ddp_subR : (a - c).ddp = a.ddp := rfl
@[simp] lemma op_ddp_mul : (a * b).ddp = a.val * b.ddp + a.ddp * b.val := rfl
@[simp] lemma ddp_mulL : (mulL c a).ddp = c * a.ddp := by unfold mulL; split <;> rfl
@[simp] lemma op_ddp_mulL : (c * a).ddp = c * a.ddp := ddp_mulL a c
@[simp] lemma op_ddp_mulR : (a * c).ddp = c * a.ddp := ddp_mulL a c
@[simp] lemma op_ddp_div : (a / b).ddp = (a.ddp * b.val - a.val * b.ddp) / b.val ^ 2 := by
  change (div a b).ddp = _
  simp only [div, ddp_mk5]; rw [show (1.0 : ℝ) = 1 by norm_num]; ring
@[simp] lemma op_ddp_divL : (c / a).ddp = -(c * a.ddp) / a.val ^ 2 := by
  change (divL c a).ddp = _
  simp only [divL]; split <;> (simp only [ddp_mk5]; rw [show (1.0 : ℝ) = 1 by norm_num]; ring)
@[simp] lemma op_ddp_divR : (a / c).ddp = a.ddp / c := by
  change (divR a c).ddp = _
  simp only [divR, ddp_mulL]; rw [show (1.0 : ℝ) = 1 by norm_num]; ring

lemma ddt_powR (h : a.val ≠ 0) : (powR a c).ddt = c * a.val ^ (c - 1) * a.ddt := by
  simp only [powR, if_neg h, ddt_mk5]; rw [Real.rpow_sub_one h]; ring
lemma ddp_powR (h : a.val ≠ 0) : (powR a c).ddp = c * a.val ^ (c - 1) * a.ddp := by
  simp only [powR, if_neg h, ddp_mk5]; rw [Real.rpow_sub_one h]; ring
lemma ddt_log (h : a.val ≠ 0) : (log a).ddt = a.ddt / a.val := by
  simp only [log, if_neg h, ddt_mk5]; rw [show (1.0 : ℝ) = 1 by norm_num]; ring
lemma ddp_log (h : a.val ≠ 0) : (log a).ddp = a.ddp / a.val := by
  simp only [log, if_neg h, ddp_mk5]; rw [show (1.0 : ℝ) = 1 by norm_num]; ring
lemma ddt_sqrt (h : a.val ≠ 0) : (sqrt a).ddt = 0.5 * Real.sqrt a.val / a.val * a.ddt := by
  simp only [sqrt, if_neg h, ddt_mk5]
lemma ddp_sqrt (h : a.val ≠ 0) : (sqrt a).ddp = 0.5 * Real.sqrt a.val / a.val * a.ddp := by
  simp only [sqrt, if_neg h, ddp_mk5]
@[simp] lemma ddt_temperature (t : ℝ) : (temperature t).ddt = 1 := rfl
@[simp] lemma ddp_temperature (t : ℝ) : (temperature t).ddp = 0 := rfl
@[simp] lemma ddt_addAssign : (addAssign a b).ddt = a.ddt + b.ddt := rfl
@[simp] lemma ddp_addAssign : (addAssign a b).ddp = a.ddp + b.ddp := rfl
@[simp] lemma ddt_subAssign : (subAssign a b).ddt = a.ddt - b.ddt := rfl
@[simp] lemma ddp_subAssign : (subAssign a b).ddp = a.ddp - b.ddp := rfl

end TS

@[simp] lemma ddt_pbar (P : ℝ) : (pbar P).ddt = 0 := by simp [pbar, TS.divAssignD, TS.mulAssignD, TS.pressure, TS.mk5]
@[simp] lemma ddp_pbar (P : ℝ) : (pbar P).ddp = 1 / 1e5 := by simp [pbar, TS.divAssignD, TS.mulAssignD, TS.pressure, TS.mk5]; norm_num

namespace Carries
variable {x y : ℝ → ℝ → TS} {T P : ℝ}

lemma const (c : TS) (h1 : c.ddt = 0) (h2 : c.ddp = 0) : Carries (fun _ _ => c) T P :=
  ⟨by rw [h1]; exact hasDerivAt_const _ _, by rw [h2]; exact hasDerivAt_const _ _⟩

lemma default : Carries (fun _ _ => TS.default) T P := const _ rfl rfl
lemma assign (c : ℝ) : Carries (fun _ _ => TS.assign TS.default c) T P := const _ rfl rfl
lemma ofVal (c : ℝ) : Carries (fun _ _ => TS.ofVal c) T P := const _ rfl rfl

lemma temp : Carries (fun t _ => TS.temperature t) T P := ⟨hasDerivAt_id' T, hasDerivAt_const _ _⟩

lemma pres : Carries (fun _ p => pbar p) T P := by
  refine ⟨by rw [ddt_pbar]; exact hasDerivAt_const _ _, ?_⟩
  rw [ddp_pbar]
  have : (fun p => (pbar p).val) = fun p : ℝ => p / 1e5 := by
    funext p; simp [pbar]
  rw [this]
  exact (hasDerivAt_id' P).div_const _

lemma add (hx : Carries x T P) (hy : Carries y T P) : Carries (fun t p => x t p + y t p) T P := by
  refine ⟨?_, ?_⟩
  · simp only [TS.op_val_add, TS.op_ddt_add]; exact hx.ddt.fun_add hy.ddt
  · simp only [TS.op_val_add, TS.op_ddp_add]; exact hx.ddp.fun_add hy.ddp
lemma addL (c : ℝ) (hy : Carries y T P) : Carries (fun t p => c + y t p) T P := by
  refine ⟨?_, ?_⟩
  · simp only [TS.op_val_addL, TS.op_ddt_addL]; exact hy.ddt.const_add _
  · simp only [TS.op_val_addL, TS.op_ddp_addL]; exact hy.ddp.const_add _
lemma addR (hy : Carries y T P) (c : ℝ) : Carries (fun t p => y t p + c) T P := by
  refine ⟨?_, ?_⟩
  · simp only [TS.op_val_addR, TS.op_ddt_addR]; exact hy.ddt.add_const _
  · simp only [TS.op_val_addR, TS.op_ddp_addR]; exact hy.ddp.add_const _
lemma neg (hy : Carries y T P) : Carries (fun t p => -(y t p)) T P := by
  refine ⟨?_, ?_⟩
  · simp only [TS.op_val_neg, TS.op_ddt_neg]; exact hy.ddt.fun_neg
  · simp only [TS.op_val_neg, TS.op_ddp_neg]; exact hy.ddp.fun_neg
lemma sub (hx : Carries x T P) (hy : Carries y T P) : Carries (fun t p => x t p - y t p) T P := by
  refine ⟨?_, ?_⟩
  · simp only [TS.op_val_sub, TS.op_ddt_sub]; exact hx.ddt.fun_sub hy.ddt
  · simp only [TS.op_val_sub, TS.op_ddp_sub]; exact hx.ddp.fun_sub hy.ddp
lemma subL (c : ℝ) (hy : Carries y T P) : Carries (fun t p => c - y t p) T P := by
  refine ⟨?_, ?_⟩
  · simp only [TS.op_val_subL, TS.op_ddt_subL]; exact hy.ddt.const_sub _
  · simp only [TS.op_val_subL, TS.op_ddp_subL]; exact hy.ddp.const_sub _
lemma subR (hy : Carries y T P) (c : ℝ) : Carries (fun t p => y t p - c) T P := by
  refine ⟨?_, ?_⟩
  · simp only [TS.op_val_subR, TS.op_ddt_subR]; exact hy.ddt.sub_const _
  · simp only [TS.op_val_subR, TS.op_ddp_subR]; exact hy.ddp.sub_const _
lemma mul (hx : Carries x T P) (hy : Carries y T P) : Carries (fun t p => x t p * y t p) T P := by
  refine ⟨?_, ?_⟩
  · simp only [TS.op_val_mul, TS.op_ddt_mul]; exact (hx.ddt.fun_mul hy.ddt).congr_deriv (by ring)
  · simp only [TS.op_val_mul, TS.op_ddp_mul]; exact (hx.ddp.fun_mul hy.ddp).congr_deriv (by ring)
lemma mulL (c : ℝ) (hy : Carries y T P) : Carries (fun t p => c * y t p) T P := by
  refine ⟨?_, ?_⟩
  · simp only [TS.op_val_mulL, TS.op_ddt_mulL]; exact hy.ddt.const_mul _
  · simp only [TS.op_val_mulL, TS.op_ddp_mulL]; exact hy.ddp.const_mul _
lemma mulR (hy : Carries y T P) (c : ℝ) : Carries (fun t p => y t p * c) T P := by
  refine ⟨?_, ?_⟩
  · simp only [TS.op_val_mulR, TS.op_ddt_mulR]; exact (hy.ddt.mul_const _).congr_deriv (mul_comm _ _)
  · simp only [TS.op_val_mulR, TS.op_ddp_mulR]; exact (hy.ddp.mul_const _).congr_deriv (mul_comm _ _)
lemma div (hx : Carries x T P) (hy : Carries y T P) (h : (y T P).val ≠ 0) : Carries (fun t p => x t p / y t p) T P := by
  refine ⟨?_, ?_⟩
  · simp only [TS.op_val_div, TS.op_ddt_div]; exact hx.ddt.fun_div hy.ddt h
  · simp only [TS.op_val_div, TS.op_ddp_div]; exact hx.ddp.fun_div hy.ddp h
lemma divL (c : ℝ) (hy : Carries y T P) (h : (y T P).val ≠ 0) : Carries (fun t p => c / y t p) T P := by
  refine ⟨?_, ?_⟩
  · simp only [TS.op_val_divL, TS.op_ddt_divL]
    exact ((hasDerivAt_const T c).fun_div hy.ddt h).congr_deriv (by ring)
  · simp only [TS.op_val_divL, TS.op_ddp_divL]
    exact ((hasDerivAt_const P c).fun_div hy.ddp h).congr_deriv (by ring)
lemma divR (hy : Carries y T P) (c : ℝ) : Carries (fun t p => y t p / c) T P := by
  refine ⟨?_, ?_⟩
  · simp only [TS.op_val_divR, TS.op_ddt_divR]; exact hy.ddt.div_const _
  · simp only [TS.op_val_divR, TS.op_ddp_divR]; exact hy.ddp.div_const _
lemma powR (hy : Carries y T P) (c : ℝ) (h : (y T P).val ≠ 0 ∨ 1 < c) : Carries (fun t p => TS.powR (y t p) c) T P := by
  by_cases h0 : (y T P).val = 0
  · have h1 : 1 < c := h.resolve_left (by simp [h0])
    have hz : (0 : ℝ) ^ (c - 1) = 0 := Real.zero_rpow (by linarith)
    refine ⟨?_, ?_⟩
    · simp only [TS.val_powR]
      refine (hy.ddt.rpow_const (p := c) (Or.inr h1.le)).congr_deriv ?_
      simp [TS.powR, h0, hz]
    · simp only [TS.val_powR]
      refine (hy.ddp.rpow_const (p := c) (Or.inr h1.le)).congr_deriv ?_
      simp [TS.powR, h0, hz]
  · refine ⟨?_, ?_⟩
    · simp only [TS.val_powR, TS.ddt_powR _ _ h0]
      exact (hy.ddt.rpow_const (p := c) (Or.inl h0)).congr_deriv (by ring)
    · simp only [TS.val_powR, TS.ddp_powR _ _ h0]
      exact (hy.ddp.rpow_const (p := c) (Or.inl h0)).congr_deriv (by ring)
lemma log (hy : Carries y T P) (h : (y T P).val ≠ 0) : Carries (fun t p => TS.log (y t p)) T P := by
  refine ⟨?_, ?_⟩
  · simp only [TS.val_log, TS.ddt_log _ h]; exact hy.ddt.log h
  · simp only [TS.val_log, TS.ddp_log _ h]; exact hy.ddp.log h
lemma log10 (hy : Carries y T P) (h : (y T P).val ≠ 0) : Carries (fun t p => TS.log10 (y t p)) T P := (hy.log h).divR TS.ln10
lemma exp (hy : Carries y T P) : Carries (fun t p => TS.exp (y t p)) T P := ⟨hy.ddt.exp, hy.ddp.exp⟩
lemma sqrt (hy : Carries y T P) (h : 0 < (y T P).val) : Carries (fun t p => TS.sqrt (y t p)) T P := by
  have hs : Real.sqrt (y T P).val * Real.sqrt (y T P).val = (y T P).val := Real.mul_self_sqrt h.le
  have hs0 : Real.sqrt (y T P).val ≠ 0 := (Real.sqrt_pos.mpr h).ne'
  refine ⟨?_, ?_⟩
  · simp only [TS.val_sqrt, TS.ddt_sqrt _ h.ne']
    refine (hy.ddt.sqrt h.ne').congr_deriv ?_
    have := h.ne'
    field_simp
    rw [pow_two, hs]; norm_num; ring
  · simp only [TS.val_sqrt, TS.ddp_sqrt _ h.ne']
    refine (hy.ddp.sqrt h.ne').congr_deriv ?_
    have := h.ne'
    field_simp
    rw [pow_two, hs]; norm_num; ring
lemma addAssign (hx : Carries x T P) (hy : Carries y T P) : Carries (fun t p => TS.addAssign (x t p) (y t p)) T P :=
  ⟨hx.ddt.fun_add hy.ddt, hx.ddp.fun_add hy.ddp⟩
lemma subAssign (hx : Carries x T P) (hy : Carries y T P) : Carries (fun t p => TS.subAssign (x t p) (y t p)) T P :=
  ⟨hx.ddt.fun_sub hy.ddt, hx.ddp.fun_sub hy.ddp⟩
lemma addAssignD (hx : Carries x T P) (c : ℝ) : Carries (fun t p => TS.addAssignD (x t p) c) T P :=
  ⟨hx.ddt.add_const _, hx.ddp.add_const _⟩
lemma mulAssignD (hx : Carries x T P) (c : ℝ) : Carries (fun t p => TS.mulAssignD (x t p) c) T P :=
  ⟨hx.ddt.mul_const _, hx.ddp.mul_const _⟩

/-- Two results that agree along the two axes near the point. -/
lemma congr (hx : Carries x T P) (h0 : y T P = x T P) (h1 : ∀ᶠ t in nhds T, y t P = x t P) (h2 : ∀ᶠ p in nhds P, y T p = x T p) :
    Carries y T P := by
  refine ⟨?_, ?_⟩
  · rw [h0]; exact hx.ddt.congr_of_eventuallyEq (h1.mono fun t h => by simp only [h])
  · rw [h0]; exact hx.ddp.congr_of_eventuallyEq (h2.mono fun t h => by simp only [h])

end Carries

/-- Applies the closure rules of `Carries`; the side conditions are left. -/
macro "carries" : tactic => `(tactic|
  repeat' first
    | exact Carries.temp | exact Carries.pres | exact Carries.default | exact Carries.assign _ | exact Carries.ofVal _
    | assumption
    | apply Carries.add | apply Carries.sub | apply Carries.mul
    | apply Carries.addL | apply Carries.addR | apply Carries.neg | apply Carries.subL | apply Carries.subR
    | apply Carries.mulL | apply Carries.mulR | apply Carries.divR
    | apply Carries.div | apply Carries.divL
    | apply Carries.powR | apply Carries.log | apply Carries.log10 | apply Carries.exp | apply Carries.sqrt
    | apply Carries.addAssign | apply Carries.subAssign | apply Carries.addAssignD | apply Carries.mulAssignD)

end ThermoFun
