import Verif.Model.TSOps
import Verif.Lemmas.TSVal

/-! Values and statuses of the infix operators. -/

namespace ThermoFun.TS

variable (a b : TS) (c : ℝ)

@[simp] lemma op_val_add : (a + b).val = a.val + b.val := val_add a b
@[simp] lemma op_val_addL : (c + a).val = c + a.val := val_addL c a
@[simp] lemma op_val_addR : (a + c).val = a.val + c := (val_addR a c).trans (add_comm _ _)
@[simp] lemma op_val_neg : (-a).val = -a.val := val_neg a
@[simp] lemma op_val_sub : (a - b).val = a.val - b.val := val_sub a b
@[simp] lemma op_val_subL : (c - a).val = c - a.val := val_subL c a
@[simp] lemma op_val_subR : (a - c).val = a.val - c := val_subR a c
@[simp] lemma op_val_mul : (a * b).val = a.val * b.val := val_mul a b
@[simp] lemma op_val_mulL : (c * a).val = c * a.val := val_mulL c a
@[simp] lemma op_val_mulR : (a * c).val = a.val * c := (val_mulR a c).trans (mul_comm _ _)
@[simp] lemma op_val_div : (a / b).val = a.val / b.val := val_div a b
@[simp] lemma op_val_divL : (c / a).val = c / a.val := val_divL c a
@[simp] lemma op_val_divR : (a / c).val = a.val / c := val_divR a c
@[simp] lemma val_log10 : (log10 a).val = Real.log a.val / ln10 := by simp [log10]

@[simp] lemma op_has_add : (a + b).has ↔ a.has ∧ b.has := has_add a b
@[simp] lemma op_has_addL : (c + a).has ↔ a.has := has_addL c a
@[simp] lemma op_has_addR : (a + c).has ↔ a.has := has_addR a c
@[simp] lemma op_has_neg : (-a).has ↔ a.has := has_neg a
@[simp] lemma op_has_sub : (a - b).has ↔ a.has ∧ b.has := has_sub a b
@[simp] lemma op_has_subL : (c - a).has ↔ a.has := has_subL c a
@[simp] lemma op_has_subR : (a - c).has ↔ a.has := has_subR a c
@[simp] lemma op_has_mul : (a * b).has ↔ a.has ∧ b.has := has_mul a b
@[simp] lemma op_has_mulL : (c * a).has ↔ a.has := has_mulL c a
@[simp] lemma op_has_mulR : (a * c).has ↔ a.has := has_mulR a c
@[simp] lemma op_has_div : (a / b).has ↔ a.has ∧ b.has := has_div a b
@[simp] lemma op_has_divL : (c / a).has ↔ a.has := has_divL c a
@[simp] lemma op_has_divR : (a / c).has ↔ a.has := has_divR a c
@[simp] lemma has_log10 : (log10 a).has ↔ a.has := by simp [log10]
@[simp] lemma has_powR : (powR a c).has ↔ a.has := by simp only [powR]; split <;> exact status1_has a
@[simp] lemma has_exp : (exp a).has ↔ a.has := status1_has a
@[simp] lemma has_sqrt : (sqrt a).has ↔ a.has := by simp only [sqrt]; split <;> exact status1_has a
@[simp] lemma has_subAssign : (subAssign a b).has ↔ a.has ∧ b.has := status2_has a b

lemma val_powR_two (a : TS) : (powR a 2).val = a.val ^ 2 := by
  rw [val_powR]; exact_mod_cast Real.rpow_natCast a.val 2
lemma val_powR_nat (a : TS) (n : Nat) : (powR a (n : ℝ)).val = a.val ^ n := by
  rw [val_powR]; exact Real.rpow_natCast a.val n

end ThermoFun.TS
