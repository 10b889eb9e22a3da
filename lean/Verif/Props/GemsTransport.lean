import Verif.Props.Gems
import Verif.Lemmas.Interval

/-!
# Viscosity and thermal conductivity of the gems water code

* C133: the viscosity is that of Watson et al. (1980), the formula named in the source.
* C134: the thermal conductivity is that of Sengers et al. (1984).

Both formulas hold a double sum over powers of 1/T − 1 and of ρ − 1.
-/

namespace ThermoFun

namespace Gems

open WP (el)
open Finset (range)

/-! ### The formulas -/

/-- The double sum of the formulas: Σᵢ Σⱼ B i j (1/T − 1)ⁱ (D − 1)ʲ, i from `a` to below `n` and j below `m`. -/
noncomputable def dsum (B : ℕ → ℕ → ℝ) (a n m : ℕ) (T D : ℝ) : ℝ := ∑ i ∈ Finset.Ico a n, ∑ j ∈ range m, B i j * (1 / T - 1) ^ i * (D - 1) ^ j

/-- √T / Σ aᵢ/Tⁱ. -/
noncomputable def dilute (a : ℕ → ℝ) (T : ℝ) : ℝ := Real.sqrt T / ∑ i ∈ range 4, a i / T ^ i

/-- The increase of the viscosity near the critical point. -/
noncomputable def critVisc (T D xt : ℝ) : ℝ := if (0.997 ≤ T ∧ T ≤ 1.0082 ∧ 0.755 ≤ D ∧ D ≤ 1.29) ∧ 22 ≤ xt then 0.922 * xt ^ (0.0263 : ℝ) else 1

/-- The viscosity (kg/(m s)) at reduced temperature and density, with the powers of 1/T − 1 up to below `n`. -/
noncomputable def viscF (n : ℕ) (T D xt : ℝ) : ℝ := 1e-6 * dilute (el viscA) T * Real.exp (D * dsum (fun i j => el2 viscB j i) 0 n 7 T D) * critVisc T D xt

/-- The thermal conductivity (W/(m K)), with the powers of 1/T − 1 up to below `n` in the conductivity and up to below `k` in the viscosity that its critical part holds. -/
noncomputable def condF (n k : ℕ) (T D xt dPdT : ℝ) : ℝ :=
  dilute (el thL) T * Real.exp (D * dsum (el2 thBL) 0 n 6 T D) +
  3.7711e-8 / (1e-6 * dilute (el viscA) T * Real.exp (D * dsum (el2 thBu) 0 k 5 T D)) * (T / D) ^ 2 * dPdT ^ 2 * xt ^ (0.4678 : ℝ) * Real.sqrt D *
    Real.exp (-18.66 * (T - 1) ^ 2 - (D - 1) ^ 4)

/-- Where the viscosity is calculated. -/
def ViscRange (Tk P : ℝ) : Prop := P ≤ 5000.01 ∧ (P ≤ 3500.01 ∨ Tk ≤ 423.16) ∧ (P ≤ 3000.01 ∨ Tk ≤ 873.16) ∧ Tk ≤ 1173.16

/-- Where the thermal conductivity is calculated. -/
def CondRange (Tk P : ℝ) : Prop := P ≤ 4000.01 ∧ (P ≤ 2000.01 ∨ Tk ≤ 398.16) ∧ (P ≤ 1500.01 ∨ Tk ≤ 673.16) ∧ Tk ≤ 1073.16

/-! ### The loops -/

lemma foldl_sum (f : ℕ → ℝ) (n : ℕ) (s : ℝ) : (List.range n).foldl (fun s i => s + f i) s = s + ∑ i ∈ range n, f i := by
  induction n with
  | zero => simp
  | succ n ih => rw [List.range_succ, List.foldl_append, ih, Finset.sum_range_succ]; simp [add_assoc]

lemma nested_tail (body : ℕ → ℕ → ℝ → ℝ) (m : ℕ) (l : List ℕ) (q : ℤ × ℝ) (hq : (m : ℤ) ≤ q.1) :
    (l.foldl (fun (q : ℤ × ℝ) i => (max (q.1 + 1) (m + 1),
      ((List.range (m + 1)).filter (fun (j : ℕ) => decide (q.1 < (j : ℤ)))).foldl (fun s j => body i j s) q.2)) q).2 = q.2 := by
  induction l generalizing q with
  | nil => rfl
  | cons a l ih =>
    rw [List.foldl_cons, ih]
    · have : (List.range (m + 1)).filter (fun (j : ℕ) => decide (q.1 < (j : ℤ))) = [] := by
        rw [List.filter_eq_nil_iff]
        intro j hj
        have := List.mem_range.1 hj
        simp only [decide_eq_true_eq]; omega
      dsimp only
      rw [this]; rfl
    · dsimp only; omega

/-- Only the first row is summed. -/
lemma nested_eq (body : ℕ → ℕ → ℝ → ℝ) (n m : ℕ) (s : ℝ) : nested body n m s = (List.range (m + 1)).foldl (fun s j => body 0 j s) s := by
  unfold nested
  rw [List.range_succ_eq_map (n := n), List.foldl_cons, nested_tail]
  · dsimp only
    congr 1
    rw [List.filter_eq_self]
    intro j _
    simp only [decide_eq_true_eq]; omega
  · dsimp only; omega

lemma nested_dsum (B : ℕ → ℕ → ℝ) (n m : ℕ) (T D : ℝ) : nested (fun i j s => s + B i j * (1 / T - 1) ^ i * (D - 1) ^ j) n m 0 = dsum B 0 1 (m + 1) T D := by
  rw [nested_eq, foldl_sum]
  simp [dsum]

lemma dsum_one (B : ℕ → ℕ → ℝ) (n m : ℕ) (D : ℝ) : dsum B 0 (n + 1) m 1 D = dsum B 0 1 m 1 D := by
  unfold dsum
  rw [← Finset.range_eq_Ico, Finset.sum_range_succ', ← Finset.range_eq_Ico, Finset.sum_range_one]
  simp

lemma dsum_split (B : ℕ → ℕ → ℝ) (n m : ℕ) (T D : ℝ) (hn : 1 ≤ n) : dsum B 0 n m T D = dsum B 0 1 m T D + dsum B 1 n m T D :=
  (Finset.sum_Ico_consecutive _ (by omega) hn).symm

/-! ### C133 -/

lemma viscos_eq {Tk P rho beta : ℝ} (h : ViscRange Tk P) :
    viscos Tk P rho beta = viscF 1 (Tk / 647.27) (rho / 317.763) (22.115e6 / 317.763 ^ 2 * beta * rho ^ 2) := by
  obtain ⟨h1, h2, h3, h4⟩ := h
  unfold viscos
  dsimp only
  rw [if_neg, nested_dsum (fun i j => el2 viscB j i), foldl_sum]
  · unfold viscF dilute critVisc
    have e : (1.0e-6 : ℝ) = 1e-6 := by norm_num
    have e2 : (22.1150e6 : ℝ) = 22.115e6 := by norm_num
    have e3 : (317.763e0 : ℝ) = 317.763 := by norm_num
    have e4 : (647.270e0 : ℝ) = 647.27 := by norm_num
    rw [e, e2, e3, e4, zero_add]
    have hc : (if (0.997e0 : ℝ) ≤ Tk / 647.27 ∧ Tk / 647.27 ≤ 1.0082e0 ∧ 0.755e0 ≤ rho / 317.763 ∧ rho / 317.763 ≤ 1.2900e0 then
          if 22.115e6 / 317.763 ^ 2 * beta * rho ^ 2 < 22.0e0 then (1 : ℝ) else 0.922 * (22.115e6 / 317.763 ^ 2 * beta * rho ^ 2) ^ (0.0263e0 : ℝ)
        else 1) =
      if ((0.997 : ℝ) ≤ Tk / 647.27 ∧ Tk / 647.27 ≤ 1.0082 ∧ 0.755 ≤ rho / 317.763 ∧ rho / 317.763 ≤ 1.29) ∧ 22 ≤ 22.115e6 / 317.763 ^ 2 * beta * rho ^ 2
        then 0.922 * (22.115e6 / 317.763 ^ 2 * beta * rho ^ 2) ^ (0.0263 : ℝ) else 1 := by
      generalize 22.115e6 / 317.763 ^ 2 * beta * rho ^ 2 = x
      have i1 : ((0.997e0 : ℝ) ≤ Tk / 647.27 ∧ Tk / 647.27 ≤ 1.0082e0 ∧ 0.755e0 ≤ rho / 317.763 ∧ rho / 317.763 ≤ 1.2900e0) ↔
          ((0.997 : ℝ) ≤ Tk / 647.27 ∧ Tk / 647.27 ≤ 1.0082 ∧ 0.755 ≤ rho / 317.763 ∧ rho / 317.763 ≤ 1.29) := by norm_num
      by_cases c : (0.997 : ℝ) ≤ Tk / 647.27 ∧ Tk / 647.27 ≤ 1.0082 ∧ 0.755 ≤ rho / 317.763 ∧ rho / 317.763 ≤ 1.29
      · rw [if_pos (i1.2 c)]
        by_cases k : 22 ≤ x
        · rw [if_neg (by norm_num; exact k), if_pos ⟨c, k⟩]
        · rw [if_pos (by norm_num; exact not_le.1 k), if_neg (fun h => k h.2)]
      · rw [if_neg (fun h => c (i1.1 h)), if_neg (fun h => c h.1)]
    rw [hc]
    ring
  · rintro (k | ⟨k, k'⟩ | ⟨k, k'⟩ | k)
    · linarith
    · rcases h2 with h | h <;> linarith
    · rcases h3 with h | h <;> linarith
    · linarith

/-- Where the code gives a viscosity, it is the one of the formula divided by the factor exp(D·Σ) of the terms with a power of 1/T − 1: the terms are left out.  At the critical temperature
this is the viscosity of the formula.  Missing: all other temperatures, see `C133_refuted`. -/
theorem C133_partial {Tk P rho beta : ℝ} (h : ViscRange Tk P) :
    viscos Tk P rho beta * Real.exp (rho / 317.763 * dsum (fun i j => el2 viscB j i) 1 6 7 (Tk / 647.27) (rho / 317.763)) =
      viscF 6 (Tk / 647.27) (rho / 317.763) (22.115e6 / 317.763 ^ 2 * beta * rho ^ 2) ∧
    (Tk = 647.27 → viscos Tk P rho beta = viscF 6 1 (rho / 317.763) (22.115e6 / 317.763 ^ 2 * beta * rho ^ 2)) := by
  rw [viscos_eq h]
  constructor
  · unfold viscF
    rw [dsum_split _ 6 7 _ _ (by norm_num), mul_add, Real.exp_add]; ring
  · rintro rfl
    rw [div_self (by norm_num)]
    unfold viscF
    rw [dsum_one _ 5]

/-- The hypotheses of `C133_partial` are met at 25 °C and 1 bar, and at the critical temperature and 220 bar. -/
example : ViscRange 298.15 1 ∧ ViscRange 647.27 220 := by unfold ViscRange; norm_num

lemma exp_16 : (16 : ℝ) < Real.exp 2.7758 := by
  have h := (Enc.exp (Enc.lit (x := (2.7758 : ℝ)) 2.7758 (by norm_num))).rat_lt 16 (by decide +kernel)
  exact_mod_cast h

/-- For water of 25 °C and 997.047 kg/m³ the formula gives more than 16 times the viscosity of the code. -/
theorem C133_refuted (beta : ℝ) : ViscRange 298.15 1 ∧ 0 < viscos 298.15 1 997.047 beta ∧
    16 * viscos 298.15 1 997.047 beta < viscF 6 (298.15 / 647.27) (997.047 / 317.763) (22.115e6 / 317.763 ^ 2 * beta * 997.047 ^ 2) := by
  have hr : ViscRange 298.15 1 := by unfold ViscRange; norm_num
  have hp : 0 < viscos 298.15 1 997.047 beta := by
    rw [viscos_eq hr]
    unfold viscF critVisc
    rw [if_neg (by norm_num), mul_one]
    refine mul_pos (mul_pos (by norm_num) (div_pos (Real.sqrt_pos.2 (by norm_num)) ?_)) (Real.exp_pos _)
    norm_num [Finset.sum_range_succ, el, viscA]
  refine ⟨hr, hp, ?_⟩
  rw [← (C133_partial hr).1, mul_comm (16 : ℝ)]
  refine mul_lt_mul_of_pos_left (exp_16.trans_le (Real.exp_le_exp.2 ?_)) hp
  norm_num [dsum, Finset.sum_Ico_succ_top, Finset.sum_range_succ, el2, el, viscB]

/-! ### C134 -/

lemma thcond_eq {Tk P rho alph beta : ℝ} (h : CondRange Tk P) : thcond Tk P rho alph beta =
    condF 1 1 (Tk / 647.27) (rho / 317.763) (22.115e6 / 317.763 ^ 2 * beta * rho ^ 2) (647.27 / 22.115e6 * alph / beta) := by
  obtain ⟨h1, h2, h3, h4⟩ := h
  unfold thcond
  dsimp only
  rw [if_neg, nested_dsum (el2 thBL), nested_dsum (el2 thBu), foldl_sum, foldl_sum]
  · unfold condF dilute
    have e : (1.0e-6 : ℝ) = 1e-6 := by norm_num
    have e2 : (22.1150e6 : ℝ) = 22.115e6 := by norm_num
    have e3 : (317.763e0 : ℝ) = 317.763 := by norm_num
    have e4 : (647.270e0 : ℝ) = 647.27 := by norm_num
    have e5 : (0.5 : ℝ) = 1 / 2 := by norm_num
    have e6 : (0.4678e0 : ℝ) = 0.4678 := by norm_num
    have e7 : (-18.66e0 : ℝ) = -18.66 := by norm_num
    rw [e, e2, e3, e4, e5, e6, e7, zero_add, zero_add, ← Real.sqrt_eq_rpow, ← Real.sqrt_eq_rpow, mul_div_assoc]
  · rintro (k | ⟨k, k'⟩ | ⟨k, k'⟩ | k)
    · linarith
    · rcases h2 with h | h <;> linarith
    · rcases h3 with h | h <;> linarith
    · linarith

/-- Where the code gives a thermal conductivity, it is the one of the formula without the terms with a power of 1/T − 1; at the critical temperature this is the one of the formula.
Missing: all other temperatures, see `C134_refuted`. -/
theorem C134_partial {Tk P rho alph beta : ℝ} (h : CondRange Tk P) :
    thcond Tk P rho alph beta = condF 1 1 (Tk / 647.27) (rho / 317.763) (22.115e6 / 317.763 ^ 2 * beta * rho ^ 2) (647.27 / 22.115e6 * alph / beta) ∧
    (Tk = 647.27 → thcond Tk P rho alph beta = condF 5 6 1 (rho / 317.763) (22.115e6 / 317.763 ^ 2 * beta * rho ^ 2) (647.27 / 22.115e6 * alph / beta)) := by
  refine ⟨thcond_eq h, ?_⟩
  rintro rfl
  rw [thcond_eq h, div_self (by norm_num)]
  unfold condF
  rw [dsum_one _ 4, dsum_one _ 5]

/-- The hypotheses of `C134_partial` are met at 25 °C and 1 bar, and at the critical temperature and 220 bar. -/
example : CondRange 298.15 1 ∧ CondRange 647.27 220 := by unfold CondRange; norm_num

/-- For water at its greatest density (expansivity 0), here 277.13 K and 999.97 kg/m³, the formula gives more than 1.15 times the thermal conductivity of the code. -/
theorem C134_refuted (beta : ℝ) : CondRange 277.13 1 ∧ 0 < thcond 277.13 1 999.97 0 beta ∧
    1.15 * thcond 277.13 1 999.97 0 beta < condF 5 6 (277.13 / 647.27) (999.97 / 317.763) (22.115e6 / 317.763 ^ 2 * beta * 999.97 ^ 2) 0 := by
  have hr : CondRange 277.13 1 := by unfold CondRange; norm_num
  have h0 : ∀ n k T D xt, condF n k T D xt 0 = dilute (el thL) T * Real.exp (D * dsum (el2 thBL) 0 n 6 T D) := by
    intro n k T D xt
    unfold condF; simp
  have hd : 0 < dilute (el thL) (277.13 / 647.27) := by
    refine div_pos (Real.sqrt_pos.2 (by norm_num)) ?_
    norm_num [Finset.sum_range_succ, el, thL]
  have e : thcond 277.13 1 999.97 0 beta = dilute (el thL) (277.13 / 647.27) * Real.exp (999.97 / 317.763 * dsum (el2 thBL) 0 1 6 (277.13 / 647.27) (999.97 / 317.763)) := by
    rw [thcond_eq hr, mul_zero, zero_div, h0]
  refine ⟨hr, by rw [e]; exact mul_pos hd (Real.exp_pos _), ?_⟩
  rw [e, h0, dsum_split _ 5 6 _ _ (by norm_num), mul_add, Real.exp_add, mul_comm (1.15 : ℝ), ← mul_assoc (dilute _ _) (Real.exp _) (Real.exp _)]
  refine mul_lt_mul_of_pos_left ?_ (mul_pos hd (Real.exp_pos _))
  refine lt_of_lt_of_le ?_ (Real.add_one_le_exp _)
  norm_num [dsum, Finset.sum_Ico_succ_top, Finset.sum_range_succ, el2, el, thBL]

end Gems

end ThermoFun
