import Verif.Lemmas.StpState
import Mathlib.Analysis.Calculus.MeanValue

/-!
The Newton iteration for the density.
-/

namespace ThermoFun.Stp

/-- On the densities within r of y the pressure is defined and its slope between s and S. -/
structure Steep (cf : Nat → Row) (T y r s S : ℝ) : Prop where
  poly : ∀ z, |z - y| ≤ r → poly (fun k => (cf k).c T) z ≠ 0
  lo : ∀ z, |z - y| ≤ r → s ≤ slope cf T z
  hi : ∀ z, |z - y| ≤ r → slope cf T z ≤ S

/-- The pressure difference is a slope in between times the difference in density. -/
lemma Steep.mvt {cf : Nat → Row} {T y r s S z : ℝ} (h : Steep cf T y r s S) (hz : |z - y| ≤ r) :
    ∃ d, s ≤ d ∧ d ≤ S ∧ pressure cf T z - pressure cf T y = d * (z - y) := by
  have key : ∀ a b : ℝ, a < b → (∀ x, x ∈ Set.Icc a b → |x - y| ≤ r) →
      ∃ d, s ≤ d ∧ d ≤ S ∧ pressure cf T b - pressure cf T a = d * (b - a) := by
    intro a b hab hin
    obtain ⟨c, hc, e⟩ := exists_hasDerivAt_eq_slope (fun y => pressure cf T y) (fun y => slope cf T y) hab
      (fun x hx => (pressure_d cf (h.poly x (hin x hx))).continuousAt.continuousWithinAt)
      (fun x hx => pressure_d cf (h.poly x (hin x ⟨hx.1.le, hx.2.le⟩)))
    have hc' := hin c ⟨hc.1.le, hc.2.le⟩
    refine ⟨_, h.lo c hc', h.hi c hc', ?_⟩
    rw [e]
    field_simp [(sub_pos.mpr hab).ne']
  have hr : 0 ≤ r := (abs_nonneg _).trans hz
  obtain ⟨h1, h2⟩ := abs_le.mp hz
  rcases lt_trichotomy z y with hzy | hzy | hzy
  · obtain ⟨d, a, b, e⟩ := key z y hzy fun x hx => by
      rw [abs_le]; exact ⟨by linarith [hx.1], by linarith [hx.2]⟩
    exact ⟨d, a, b, by linarith⟩
  · subst hzy
    have h0 : |z - z| ≤ r := by simpa using hr
    exact ⟨slope cf T z, h.lo z h0, h.hi z h0, by ring⟩
  · exact key y z hzy fun x hx => by
      rw [abs_le]; exact ⟨by linarith [hx.1], by linarith [hx.2]⟩

lemma clamp_id {m : Fluid} {x : ℝ} (h1 : m.rhomin ≤ x) (h2 : x ≤ m.rhomax) : m.clamp x = x := by
  unfold Fluid.clamp
  dsimp only
  rw [if_neg (not_lt.mpr h1), if_neg (not_lt.mpr h2)]

/-- The Newton iteration for the density comes to an end, next to the density that has the given pressure. -/
lemma newton_conv {m : Fluid} {T P y r s S : ℝ} (h : Steep m.cf T y r s S) (hs : 0 < s) (hS : 2 * S ≤ 3 * s) (hP : 0 < P) (hy : pressure m.cf T y = P)
    (lo : m.rhomin ≤ y - r) (hi : y + r ≤ m.rhomax) (n : Nat) : ∀ z, |z - y| ≤ r → S * |z - y| * (1 / 2) ^ n ≤ 1e-10 * P →
      ∃ w, newton m T P (n + 1) z = .ok w ∧ |w - y| ≤ 1 / 2 * (1e-10 * P / s) ∧ |w - y| ≤ 1 / 2 * |z - y| := by
  induction n with
  | zero =>
    intro z hz hn
    obtain ⟨d, d1, d2, e⟩ := h.mvt hz
    have g1 := h.lo z hz
    have g2 := h.hi z hz
    have gp : 0 < slope m.cf T z := hs.trans_le g1
    have dp : 0 < d := hs.trans_le d1
    have step : |z + -(pressure m.cf T z - P) / slope m.cf T z - y| ≤ 1 / 2 * |z - y| := by
      rw [← hy, e, show z + -(d * (z - y)) / slope m.cf T z - y = (1 - d / slope m.cf T z) * (z - y) by field_simp; ring, abs_mul]
      refine mul_le_mul_of_nonneg_right ?_ (abs_nonneg _)
      rw [abs_le]
      refine ⟨?_, ?_⟩
      · have : d / slope m.cf T z ≤ 3 / 2 := by rw [div_le_iff₀ gp]; linarith
        linarith
      · have : 1 / 2 ≤ d / slope m.cf T z := by rw [le_div_iff₀ gp]; linarith
        linarith
    obtain ⟨b1, b2⟩ := abs_le.mp (step.trans (show 1 / 2 * |z - y| ≤ r by linarith [abs_nonneg (z - y)]))
    have pd : |pressure m.cf T z - P| ≤ 1e-10 * P := by
      rw [← hy, e, hy, abs_mul, abs_of_pos dp]
      have := mul_le_mul_of_nonneg_right d2 (abs_nonneg (z - y))
      linarith
    have c : ¬ |1 - pressure m.cf T z / P| > 1e-10 := by
      rw [not_lt, show 1 - pressure m.cf T z / P = -(pressure m.cf T z - P) / P by field_simp; ring, abs_div, abs_neg, abs_of_pos hP, div_le_iff₀ hP]
      exact pd
    refine ⟨z + -(pressure m.cf T z - P) / slope m.cf T z, ?_, ?_, step⟩
    · unfold newton
      rw [if_neg (h.poly z hz)]
      dsimp only
      rw [if_neg (fun q => gp.ne' q.1), if_neg gp.ne', if_neg c, clamp_id (by linarith) (by linarith)]
    · refine step.trans (mul_le_mul_of_nonneg_left ?_ (by norm_num))
      rw [le_div_iff₀ hs]
      rw [← hy, e, hy, abs_mul, abs_of_pos dp] at pd
      have := mul_le_mul_of_nonneg_right d1 (abs_nonneg (z - y))
      linarith
  | succ n ih =>
    intro z hz hn
    obtain ⟨d, d1, d2, e⟩ := h.mvt hz
    have g1 := h.lo z hz
    have g2 := h.hi z hz
    have gp : 0 < slope m.cf T z := hs.trans_le g1
    have dp : 0 < d := hs.trans_le d1
    have step : |z + -(pressure m.cf T z - P) / slope m.cf T z - y| ≤ 1 / 2 * |z - y| := by
      rw [← hy, e, show z + -(d * (z - y)) / slope m.cf T z - y = (1 - d / slope m.cf T z) * (z - y) by field_simp; ring, abs_mul]
      refine mul_le_mul_of_nonneg_right ?_ (abs_nonneg _)
      rw [abs_le]
      refine ⟨?_, ?_⟩
      · have : d / slope m.cf T z ≤ 3 / 2 := by rw [div_le_iff₀ gp]; linarith
        linarith
      · have : 1 / 2 ≤ d / slope m.cf T z := by rw [le_div_iff₀ gp]; linarith
        linarith
    have hr := step.trans (show 1 / 2 * |z - y| ≤ r by linarith [abs_nonneg (z - y)])
    obtain ⟨b1, b2⟩ := abs_le.mp hr
    by_cases c : |1 - pressure m.cf T z / P| > 1e-10
    · have hn' : S * |z + -(pressure m.cf T z - P) / slope m.cf T z - y| * (1 / 2) ^ n ≤ 1e-10 * P := by
        have hS0 : 0 ≤ S := by linarith
        have := mul_le_mul_of_nonneg_right (mul_le_mul_of_nonneg_left step hS0) (pow_nonneg (by norm_num : (0 : ℝ) ≤ 1 / 2) n)
        rw [pow_succ] at hn
        linarith
      obtain ⟨w, w1, w2, w3⟩ := ih _ hr hn'
      refine ⟨w, ?_, w2, by linarith [abs_nonneg (z - y)]⟩
      rw [newton, if_neg (h.poly z hz)]
      dsimp only
      rw [if_neg (fun q => gp.ne' q.1), if_neg gp.ne', if_pos c, clamp_id (by linarith) (by linarith)]
      exact w1
    · refine ⟨z + -(pressure m.cf T z - P) / slope m.cf T z, ?_, ?_, step⟩
      · rw [newton, if_neg (h.poly z hz)]
        dsimp only
        rw [if_neg (fun q => gp.ne' q.1), if_neg gp.ne', if_neg c, clamp_id (by linarith) (by linarith)]
      · refine step.trans (mul_le_mul_of_nonneg_left ?_ (by norm_num))
        rw [not_lt, show 1 - pressure m.cf T z / P = -(pressure m.cf T z - P) / P by field_simp; ring, abs_div, abs_neg, abs_of_pos hP,
          div_le_iff₀ hP, ← hy, e, hy, abs_mul, abs_of_pos dp] at c
        rw [le_div_iff₀ hs]
        have := mul_le_mul_of_nonneg_right d1 (abs_nonneg (z - y))
        linarith

/-- What the iteration returns is a step from a density at which the pressure is right to ten digits. -/
lemma newton_last {m : Fluid} {T P : ℝ} (n : Nat) : ∀ z w, newton m T P n z = .ok w →
    ∃ x, poly (fun k => (m.cf k).c T) x ≠ 0 ∧ |1 - pressure m.cf T x / P| ≤ 1e-10 ∧
      w = if slope m.cf T x = 0 then (if pressure m.cf T x > P then m.rhomin else m.rhomax) else m.clamp (x + -(pressure m.cf T x - P) / slope m.cf T x) := by
  induction n with
  | zero => intro z w h; simp [newton] at h
  | succ n ih =>
    intro z w h
    rw [newton] at h
    split_ifs at h with h1 h2 h3 h4 h5 h6 h7
    all_goals dsimp only at h
    all_goals (repeat' split_ifs at h)
    all_goals first
      | exact ih _ _ h
      | (cases h; refine ⟨z, h1, by simpa using ‹¬_ > (1e-10 : ℝ)›, ?_⟩; simp_all)

end ThermoFun.Stp
