import Verif.Model.LogK
import Mathlib.Analysis.SpecialFunctions.Log.Deriv
import Mathlib.Analysis.SpecialFunctions.Sqrt
import Mathlib.Tactic.FieldSimp
import Mathlib.Tactic.LinearCombination
import Mathlib.Tactic.NormNum
import Mathlib.Tactic.Tauto

/-! Value and status of the ThermoScalar operators, for rewriting. -/

namespace ThermoFun.TS

@[simp] lemma val_mk5 (a b c d : ℝ) (s : Status) : (mk5 a b c d s).val = a := rfl
@[simp] lemma sta_mk5 (a b c d : ℝ) (s : Status) : (mk5 a b c d s).sta = s := rfl
@[simp] lemma ddt_mk5 (a b c d : ℝ) (s : Status) : (mk5 a b c d s).ddt = b := rfl
@[simp] lemma ddp_mk5 (a b c d : ℝ) (s : Status) : (mk5 a b c d s).ddp = c := rfl

@[simp] lemma val_ofVal (v : ℝ) : (ofVal v).val = v := rfl
@[simp] lemma val_default : (TS.default).val = 0 := rfl
@[simp] lemma val_temperature (t : ℝ) : (temperature t).val = t := rfl
@[simp] lemma val_pressure (t : ℝ) : (pressure t).val = t := rfl
@[simp] lemma val_add (a b : TS) : (add a b).val = a.val + b.val := rfl
@[simp] lemma val_addL (c : ℝ) (a : TS) : (addL c a).val = c + a.val := rfl
@[simp] lemma val_addR (a : TS) (c : ℝ) : (addR a c).val = c + a.val := rfl
@[simp] lemma val_neg (a : TS) : (neg a).val = -a.val := rfl
@[simp] lemma val_sub (a b : TS) : (sub a b).val = a.val - b.val := rfl
@[simp] lemma val_subR (a : TS) (c : ℝ) : (subR a c).val = a.val - c := rfl
@[simp] lemma val_subL (c : ℝ) (a : TS) : (subL c a).val = c - a.val := rfl
@[simp] lemma val_mul (a b : TS) : (mul a b).val = a.val * b.val := rfl
@[simp] lemma val_mulL (c : ℝ) (a : TS) : (mulL c a).val = c * a.val := by unfold mulL; split <;> rfl
@[simp] lemma val_mulR (a : TS) (c : ℝ) : (mulR a c).val = c * a.val := val_mulL c a
@[simp] lemma val_div (a b : TS) : (div a b).val = a.val / b.val := by
  simp only [div, val_mk5]; rw [show (1.0 : ℝ) = 1 by norm_num]; ring
@[simp] lemma val_divL (c : ℝ) (a : TS) : (divL c a).val = c / a.val := by
  simp only [divL]; split <;> (simp only [val_mk5]; rw [show (1.0 : ℝ) = 1 by norm_num]; ring)
@[simp] lemma val_divR (a : TS) (c : ℝ) : (divR a c).val = a.val / c := by
  simp only [divR, val_mulL]; rw [show (1.0 : ℝ) = 1 by norm_num]; ring
@[simp] lemma val_log (a : TS) : (log a).val = Real.log a.val := by simp only [log]; split <;> rfl
@[simp] lemma val_exp (a : TS) : (exp a).val = Real.exp a.val := rfl
@[simp] lemma val_sqrt (a : TS) : (sqrt a).val = Real.sqrt a.val := by simp only [sqrt]; split <;> rfl
@[simp] lemma val_powR (a : TS) (c : ℝ) : (powR a c).val = a.val ^ c := by simp only [powR]; split <;> rfl
lemma val_powR_half (a : TS) : (powR a 0.5).val = Real.sqrt a.val := by
  rw [val_powR, Real.sqrt_eq_rpow]; norm_num
@[simp] lemma val_addAssign (a b : TS) : (addAssign a b).val = a.val + b.val := rfl
@[simp] lemma val_subAssign (a b : TS) : (subAssign a b).val = a.val - b.val := rfl
@[simp] lemma val_divAssignD (a : TS) (c : ℝ) : (divAssignD a c).val = a.val / c := by
  simp only [divAssignD, mulAssignD]; rw [show (1.0 : ℝ) = 1 by norm_num]; ring

lemma status2_has (a b : TS) : status2 a b ≠ .notdefined ↔ a.has ∧ b.has := by
  unfold status2 has; split
  · rename_i h; simp only [ne_eq, not_true_eq_false, false_iff]; tauto
  · rename_i h; simp only [ne_eq, reduceCtorEq, not_false_eq_true, true_iff]; tauto
lemma status1_has (a : TS) : status1 a ≠ .notdefined ↔ a.has := by
  unfold status1 has; split <;> simp_all

@[simp] lemma has_temperature (t : ℝ) : (temperature t).has := by simp [has, temperature]
@[simp] lemma has_pressure (t : ℝ) : (pressure t).has := by simp [has, pressure]
@[simp] lemma has_default : ¬ (TS.default).has := by simp [has, TS.default, ofVal]
@[simp] lemma has_add (a b : TS) : (add a b).has ↔ a.has ∧ b.has := status2_has a b
@[simp] lemma has_addL (c : ℝ) (a : TS) : (addL c a).has ↔ a.has := status1_has a
@[simp] lemma has_addR (a : TS) (c : ℝ) : (addR a c).has ↔ a.has := status1_has a
@[simp] lemma has_neg (a : TS) : (neg a).has ↔ a.has := status1_has a
@[simp] lemma has_sub (a b : TS) : (sub a b).has ↔ a.has ∧ b.has := status2_has a b
@[simp] lemma has_subR (a : TS) (c : ℝ) : (subR a c).has ↔ a.has := status1_has a
@[simp] lemma has_subL (c : ℝ) (a : TS) : (subL c a).has ↔ a.has := status1_has a
@[simp] lemma has_mul (a b : TS) : (mul a b).has ↔ a.has ∧ b.has := status2_has a b
@[simp] lemma has_mulL (c : ℝ) (a : TS) : (mulL c a).has ↔ a.has := by
  unfold mulL; split <;> exact status1_has a
@[simp] lemma has_mulR (a : TS) (c : ℝ) : (mulR a c).has ↔ a.has := has_mulL c a
@[simp] lemma has_div (a b : TS) : (div a b).has ↔ a.has ∧ b.has := status2_has a b
@[simp] lemma has_divL (c : ℝ) (a : TS) : (divL c a).has ↔ a.has := by
  simp only [divL]; split <;> exact status1_has a
@[simp] lemma has_divR (a : TS) (c : ℝ) : (divR a c).has ↔ a.has := has_mulL _ a
@[simp] lemma has_log (a : TS) : (log a).has ↔ a.has := by simp only [log]; split <;> exact status1_has a
@[simp] lemma has_addAssign (a b : TS) : (addAssign a b).has ↔ a.has ∧ b.has := status2_has a b

end ThermoFun.TS
