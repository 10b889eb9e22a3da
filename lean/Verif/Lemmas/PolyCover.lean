import Mathlib.Data.Real.Basic
import Mathlib.Tactic.Positivity
import Mathlib.Tactic.Linarith
import Mathlib.Tactic.NormNum
import Mathlib.Algebra.Order.BigOperators.Group.List
import Mathlib.Data.Real.Archimedean
import Mathlib.Algebra.Order.Floor.Ring

/-!
Sign of a polynomial with rational coefficients on an interval [0, N/K], proved by evaluating bounds on the pieces [i/K, (i+1)/K].
-/

namespace ThermoFun

namespace Poly

/-- Σ c xᵉ. -/
noncomputable def eval (l : List (ℚ × ℕ)) (x : ℝ) : ℝ := (l.map fun t => (t.1 : ℝ) * x ^ t.2).sum

/-- An upper bound on [a, b], 0 ≤ a. -/
def hi (l : List (ℚ × ℕ)) (a b : ℚ) : ℚ := (l.map fun t => if 0 ≤ t.1 then t.1 * b ^ t.2 else t.1 * a ^ t.2).sum

lemma eval_le (l : List (ℚ × ℕ)) (a b : ℚ) (x : ℝ) (h0 : 0 ≤ a) (h1 : (a : ℝ) ≤ x) (h2 : x ≤ b) : eval l x ≤ (hi l a b : ℝ) := by
  induction l with
  | nil => simp [eval, hi]
  | cons t l ih =>
    simp only [eval, hi, List.map_cons, List.sum_cons] at ih ⊢
    push_cast
    refine add_le_add ?_ ih
    have ha : (0 : ℝ) ≤ a := by exact_mod_cast h0
    split_ifs with h
    · push_cast
      exact mul_le_mul_of_nonneg_left (pow_le_pow_left₀ (ha.trans h1) h2 _) (by exact_mod_cast h)
    · push_cast
      exact mul_le_mul_of_nonpos_left (pow_le_pow_left₀ ha h1 _) (by exact_mod_cast (not_le.1 h).le)

/-- Is the bound negative on the pieces number 0 … N-1? -/
def negUpTo (l : List (ℚ × ℕ)) (K : ℕ) : ℕ → Bool
  | 0 => true
  | n + 1 => decide (hi l ((n : ℚ) / K) (((n : ℚ) + 1) / K) < 0) && negUpTo l K n

lemma neg_of_cover (l : List (ℚ × ℕ)) (K N : ℕ) (hK : 0 < K) (h : negUpTo l K N = true) (x : ℝ) (h0 : 0 ≤ x) (hx : x ≤ (N : ℝ) / K)
    (hN : 0 < N) : eval l x < 0 := by
  have hK' : (0 : ℝ) < K := by exact_mod_cast hK
  have key : ∀ n, negUpTo l K n = true → ∀ i < n, hi l ((i : ℚ) / K) (((i : ℚ) + 1) / K) < 0 := by
    intro n
    induction n with
    | zero => intro _ i hi; omega
    | succ n ih =>
      intro hn i hin
      simp only [negUpTo, Bool.and_eq_true, decide_eq_true_eq] at hn
      rcases Nat.lt_succ_iff_lt_or_eq.1 hin with h | rfl
      · exact ih hn.2 i h
      · exact hn.1
  -- the piece that contains x
  have : ∃ i < N, (i : ℝ) / K ≤ x ∧ x ≤ ((i : ℝ) + 1) / K := by
    rcases eq_or_lt_of_le hx with h | h
    · refine ⟨N - 1, by omega, ?_, ?_⟩
      · rw [h, Nat.cast_sub hN]; gcongr; norm_num
      · rw [h, Nat.cast_sub hN]; gcongr; norm_num
    · refine ⟨⌊x * K⌋₊, ?_, ?_, ?_⟩
      · rw [Nat.floor_lt (by positivity)]; exact (lt_div_iff₀ hK').1 h
      · rw [div_le_iff₀ hK']; exact Nat.floor_le (by positivity)
      · rw [le_div_iff₀ hK']; exact (Nat.lt_floor_add_one _).le
  obtain ⟨i, hi, h1, h2⟩ := this
  have h3 := eval_le l ((i : ℚ) / K) (((i : ℚ) + 1) / K) x (by positivity) (by push_cast; exact h1) (by push_cast; exact h2)
  have h4 : ((Poly.hi l ((i : ℚ) / K) (((i : ℚ) + 1) / K) : ℚ) : ℝ) < 0 := by exact_mod_cast key N h i hi
  linarith

end Poly

end ThermoFun
