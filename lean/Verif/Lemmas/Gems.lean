import Verif.Lemmas.HGK
import Verif.Model.Gems

/-! The functions of the Haar–Gallagher–Kell equation of WaterHGK-JNgems.cpp with their partial derivatives. -/

namespace ThermoFun

namespace Gems

open WP (el)
open HGK (eli eventually_pos)

variable {t d : ℝ}

lemma tz_pos : 0 < tz := by unfold tz; norm_num
lemma gascon_pos : 0 < gascon := by unfold gascon; norm_num

/-! ### The functions of temperature of the base function -/

/-- The third derivative of `b1`. -/
noncomputable def b1ttt (t : ℝ) : ℝ :=
  2 * el bp 1 / t ^ 3 - 60 * el bp 4 * (tz / t) ^ 3 / t ^ 3 - 210 * el bp 6 * (tz / t) ^ 5 / t ^ 3

/-- The third derivative of `b2`. -/
noncomputable def b2ttt (t : ℝ) : ℝ :=
  -6 * el bq 2 * (tz / t) / t ^ 3 - 24 * el bq 3 * (tz / t) ^ 2 / t ^ 3 - 120 * el bq 5 * (tz / t) ^ 4 / t ^ 3

lemma bp_zero : el bp 2 = 0 ∧ el bp 3 = 0 ∧ el bp 5 = 0 ∧ el bp 7 = 0 ∧ el bp 8 = 0 ∧ el bp 9 = 0 := by
  norm_num [el, bp]

lemma bq_zero : el bq 1 = 0 ∧ el bq 4 = 0 ∧ el bq 6 = 0 ∧ el bq 7 = 0 ∧ el bq 8 = 0 ∧ el bq 9 = 0 := by
  norm_num [el, bq]

lemma bb_eq (t : ℝ) : bb t =
    { b1 := el bp 0 + el bp 1 * Real.log (1 / (tz / t)) + el bp 4 * (tz / t) ^ 3 + el bp 6 * (tz / t) ^ 5
      b2 := el bq 0 + el bq 2 * (tz / t) + el bq 3 * (tz / t) ^ 2 + el bq 5 * (tz / t) ^ 4
      b1t := el bp 1 * (tz / t) / tz - 3 * el bp 4 * (tz / t) ^ 3 / t - 5 * el bp 6 * (tz / t) ^ 5 / t
      b2t := -el bq 2 * (tz / t) / t - 2 * el bq 3 * (tz / t) ^ 2 / t - 4 * el bq 5 * (tz / t) ^ 4 / t
      b1tt := 9 * el bp 4 * (tz / t) ^ 3 / t / t + 25 * el bp 6 * (tz / t) ^ 5 / t / t -
        (el bp 1 * (tz / t) / tz - 3 * el bp 4 * (tz / t) ^ 3 / t - 5 * el bp 6 * (tz / t) ^ 5 / t) / t
      b2tt := el bq 2 * (tz / t) / t / t + 4 * el bq 3 * (tz / t) ^ 2 / t / t + 16 * el bq 5 * (tz / t) ^ 4 / t / t -
        (-el bq 2 * (tz / t) / t - 2 * el bq 3 * (tz / t) ^ 2 / t - 4 * el bq 5 * (tz / t) ^ 4 / t) / t } := by
  obtain ⟨h2, h3, h5, h7, h8, h9⟩ := bp_zero
  obtain ⟨k1, k4, k6, k7, k8, k9⟩ := bq_zero
  have hr : (List.range 8).map (· + 2) = [2, 3, 4, 5, 6, 7, 8, 9] := by decide
  simp only [bb, hr, List.foldl, bbStep, h2, h3, h5, h7, h8, h9, k4, k6, k7, k8, k9, zero_mul, mul_zero, zero_div, add_zero, sub_zero]
  congr 1 <;> norm_num <;> ring

lemma log_jet {x y : ℝ} (hx : 0 < x) : Jet (fun x _ => Helm.ofT (Real.log x) (1 / x) (-1 / x ^ 2) (2 / x ^ 3)) x y := by
  obtain ⟨m1, m2, m3⟩ := WP.jet_log hx.ne'
  exact .ofT m1 m2 m3

lemma logD_jet {x y : ℝ} (hy : 0 < y) : Jet (fun _ y => Helm.ofD (Real.log y) (1 / y) (-1 / y ^ 2) (2 / y ^ 3)) x y := by
  obtain ⟨m1, m2, m3⟩ := WP.jet_log hy.ne'
  exact .ofD m1 m2 m3

lemma fst_pos {x y : ℝ} (hx : 0 < x) : ∀ᶠ q : ℝ × ℝ in nhds (x, y), 0 < q.1 :=
  (continuousAt_fst (p := (x, y))).eventually_const_lt hx

/-- `b1` with its derivatives. -/
lemma b1_jet (ht : 0 < t) : Jet (fun t _ => Helm.ofT (bb t).b1 (bb t).b1t (bb t).b1tt (b1ttt t)) t d := by
  refine (((((Jet.const (el bp 0 - el bp 1 * Real.log tz)).plus ((log_jet ht).scale (el bp 1))).plus ((Jet.zpowT ht.ne' (-3)).scale (el bp 4 * tz ^ 3)))).plus
    ((Jet.zpowT ht.ne' (-5)).scale (el bp 6 * tz ^ 5))).congr_ev ((fst_pos ht).mono fun q hq => ?_)
  obtain ⟨s, _⟩ := q
  have hs : s ≠ 0 := ne_of_gt hq
  have htz := tz_pos.ne'
  have hl : Real.log (1 / (tz / s)) = Real.log s - Real.log tz := by
    rw [one_div, inv_div, Real.log_div hs htz]
  ext <;> simp only [bb_eq, b1ttt, hl, Helm.plus, Helm.scale, Helm.ofT, Helm.const, zpow_neg, div_pow] <;> norm_cast <;> push_cast <;> field_simp <;> ring

/-- `b2` with its derivatives. -/
lemma b2_jet (ht : 0 < t) : Jet (fun t _ => Helm.ofT (bb t).b2 (bb t).b2t (bb t).b2tt (b2ttt t)) t d := by
  refine (((((Jet.const (el bq 0)).plus ((Jet.zpowT ht.ne' (-1)).scale (el bq 2 * tz))).plus ((Jet.zpowT ht.ne' (-2)).scale (el bq 3 * tz ^ 2)))).plus
    ((Jet.zpowT ht.ne' (-4)).scale (el bq 5 * tz ^ 4))).congr_ev ((fst_pos ht).mono fun q hq => ?_)
  obtain ⟨s, _⟩ := q
  have hs : s ≠ 0 := ne_of_gt hq
  have htz := tz_pos.ne'
  ext <;> simp only [bb_eq, b2ttt, Helm.plus, Helm.scale, Helm.ofT, Helm.const, zpow_neg, div_pow] <;> norm_cast <;> push_cast <;> field_simp <;> ring

/-! ### The base function -/

/-- The constant of the hard sphere term for which the derivative by density is the compressibility factor of the code: (g1 + g2 + 1) / 2. -/
noncomputable def cHS : ℝ := (g1 + g2 + 1) / 2

/-- The hard sphere term with its derivatives by `y`. -/
noncomputable def hs (y : ℝ) : ℝ := -Real.log (1 - y) - (g2 - 1) / (1 - y) + cHS / (1 - y) ^ 2
noncomputable def hs1 (y : ℝ) : ℝ := 1 / (1 - y) - (g2 - 1) / (1 - y) ^ 2 + 2 * cHS / (1 - y) ^ 3
noncomputable def hs2 (y : ℝ) : ℝ := 1 / (1 - y) ^ 2 - 2 * (g2 - 1) / (1 - y) ^ 3 + 6 * cHS / (1 - y) ^ 4
noncomputable def hs3 (y : ℝ) : ℝ := 2 / (1 - y) ^ 3 - 6 * (g2 - 1) / (1 - y) ^ 4 + 24 * cHS / (1 - y) ^ 5

lemma hs_deriv {y : ℝ} (hy : y < 1) : HasDerivAt hs (hs1 y) y ∧ HasDerivAt hs1 (hs2 y) y ∧ HasDerivAt hs2 (hs3 y) y := by
  have h0 : 1 - y ≠ 0 := by linarith [hy] |> fun h : (0:ℝ) < 1 - y => h.ne'
  have hd : HasDerivAt (fun u : ℝ => 1 - u) (-1) y := by simpa using (hasDerivAt_id' y).const_sub 1
  have hi : ∀ n : ℕ, HasDerivAt (fun u : ℝ => 1 / (1 - u) ^ n) (n / (1 - y) ^ (n + 1)) y := by
    intro n
    refine ((hasDerivAt_const y (1 : ℝ)).fun_div (hd.fun_pow n) (pow_ne_zero n h0)).congr_deriv ?_
    rcases n with _ | n
    · simp
    · simp only [Nat.add_one_sub_one]; push_cast; field_simp; ring
  refine ⟨?_, ?_, ?_⟩
  · have h1 := ((hd.log h0).fun_neg.fun_sub ((hi 1).const_mul (g2 - 1))).fun_add ((hi 2).const_mul cHS)
    refine (h1.congr_deriv ?_).congr_of_eventuallyEq (Filter.Eventually.of_forall fun u => ?_)
    · simp only [hs1]; push_cast; field_simp
    · simp only [hs]; ring
  · have h1 := ((hi 1).fun_sub ((hi 2).const_mul (g2 - 1))).fun_add ((hi 3).const_mul (2 * cHS))
    refine (h1.congr_deriv ?_).congr_of_eventuallyEq (Filter.Eventually.of_forall fun u => ?_)
    · simp only [hs2]; push_cast; field_simp; ring
    · simp only [hs1]; ring
  · have h1 := ((hi 2).fun_sub ((hi 3).const_mul (2 * (g2 - 1)))).fun_add ((hi 4).const_mul (6 * cHS))
    refine (h1.congr_deriv ?_).congr_of_eventuallyEq (Filter.Eventually.of_forall fun u => ?_)
    · simp only [hs3]; push_cast; field_simp; ring
    · simp only [hs2]; ring

/-- The reduced base function (with the constant `cHS`) with its partial derivatives. -/
noncomputable def baseRed (t d : ℝ) : Helm :=
  let B1 := Helm.ofT (bb t).b1 (bb t).b1t (bb t).b1tt (b1ttt t)
  let B2 := Helm.ofT (bb t).b2 (bb t).b2t (bb t).b2tt (b2ttt t)
  let D := Helm.ofD d 1 0 0
  let Y := (B1.times D).scale 0.25
  ((((Y.lift (hs Y.f) (hs1 Y.f) (hs2 Y.f) (hs3 Y.f)).plus (D.times (B2.plus (B1.scale (-gf))))).plus
    (Helm.ofD (Real.log d) (1 / d) (-1 / d ^ 2) (2 / d ^ 3))).plus (Helm.ofT (Real.log t) (1 / t) (-1 / t ^ 2) (2 / t ^ 3))).plus
    (Helm.const (15.166666667e0 + Real.log (gascon / 0.101325e0)))

/-- The base function (with the constant `cHS`) with its partial derivatives. -/
noncomputable def baseJ (t d : ℝ) : Helm := (Helm.ofT (gascon * t) gascon 0 0).times (baseRed t d)

lemma baseRed_jet (ht : 0 < t) (hd : 0 < d) (hy : 0.25 * ((bb t).b1 * d) < 1) : Jet baseRed t d := by
  have hY : Jet (fun t d => ((Helm.ofT (bb t).b1 (bb t).b1t (bb t).b1tt (b1ttt t)).times (Helm.ofD d 1 0 0)).scale 0.25) t d :=
    ((b1_jet ht).times Jet.varD).scale _
  obtain ⟨e1, e2, e3⟩ := hs_deriv (y := 0.25 * ((bb t).b1 * d)) hy
  exact ((((hY.lift e1 e2 e3).plus (Jet.varD.times ((b2_jet ht).plus ((b1_jet ht).scale _)))).plus (logD_jet hd)).plus (log_jet ht)).plus (Jet.const _)

lemma rt_jet : Jet (fun t _ => Helm.ofT (gascon * t) gascon 0 0) t d :=
  (Jet.varT.scale gascon).congr_fun fun x y => by ext <;> simp [Helm.scale, Helm.ofT]

lemma baseJ_jet (ht : 0 < t) (hd : 0 < d) (hy : 0.25 * ((bb t).b1 * d) < 1) : Jet baseJ t d := rt_jet.times (baseRed_jet ht hd hy)

/-! ### The quantities of the code are derivatives of the base function -/

section base

variable (hd : 0 < d) (ht : 0 < t) (hb : (bb t).b1 ≠ 0) (hy : 0.25 * ((bb t).b1 * d) < 1)

include hd ht hb hy

lemma x_ne : 1 - 0.25 * ((bb t).b1 * d) ≠ 0 := by
  have h : (0 : ℝ) < 1 - 0.25 * ((bb t).b1 * d) := by linarith
  exact h.ne'

lemma base_zb : gascon * t * d * (base (bb t) t d).zb = d ^ 2 * (baseJ t d).fD := by
  have hx := x_ne hd ht hb hy
  have hq : (0.25e0 : ℝ) = 0.25 := by norm_num
  simp only [base, baseJ, baseRed, Helm.times, Helm.plus, Helm.scale, Helm.ofT, Helm.ofD, Helm.const, Helm.lift, hs, hs1, cHS, hq, mul_assoc]
  generalize (bb t).b1 = b1 at *
  generalize (bb t).b2 = b2 at *
  generalize (bb t).b1t = b1t
  generalize (bb t).b2t = b2t
  generalize (bb t).b1tt = b1tt
  generalize (bb t).b2tt = b2tt
  obtain ⟨w, hw⟩ : ∃ w, w = 1 - 0.25 * (b1 * d) := ⟨_, rfl⟩
  have hY : 0.25 * (b1 * d) = 1 - w := by rw [hw]; ring
  have hd0 := hd.ne'
  have hb' : b1 = 4 * (1 - w) / d := by field_simp; linarith
  rw [← hw] at hx
  simp only [hY, sub_sub_cancel]
  have hw1 : 1 - w ≠ 0 := fun h => hb (by rw [hb', h]; simp)
  rw [hb']
  clear hy hb hw hY hb' b1
  field_simp
  ring

lemma base_dpdd : gascon * t * ((base (bb t) t d).zb + (base (bb t) t d).yb * (base (bb t) t d).dzb) = 2 * d * (baseJ t d).fD + d ^ 2 * (baseJ t d).fDD := by
  have hx := x_ne hd ht hb hy
  have hq : (0.25e0 : ℝ) = 0.25 := by norm_num
  simp only [base, baseJ, baseRed, Helm.times, Helm.plus, Helm.scale, Helm.ofT, Helm.ofD, Helm.const, Helm.lift, hs, hs1, hs2, cHS, hq, mul_assoc]
  generalize (bb t).b1 = b1 at *
  generalize (bb t).b2 = b2 at *
  generalize (bb t).b1t = b1t
  generalize (bb t).b2t = b2t
  generalize (bb t).b1tt = b1tt
  generalize (bb t).b2tt = b2tt
  obtain ⟨w, hw⟩ : ∃ w, w = 1 - 0.25 * (b1 * d) := ⟨_, rfl⟩
  have hY : 0.25 * (b1 * d) = 1 - w := by rw [hw]; ring
  have hd0 := hd.ne'
  have hb' : b1 = 4 * (1 - w) / d := by field_simp; linarith
  rw [← hw] at hx
  simp only [hY, sub_sub_cancel]
  have hw1 : 1 - w ≠ 0 := fun h => hb (by rw [hb', h]; simp)
  rw [hb']
  clear hy hb hw hY hb' b1
  field_simp
  ring

lemma base_dpdt : gascon * t * d * (base (bb t) t d).dpdtb = d ^ 2 * (baseJ t d).fTD := by
  have hx := x_ne hd ht hb hy
  have hq : (0.25e0 : ℝ) = 0.25 := by norm_num
  simp only [base, baseJ, baseRed, Helm.times, Helm.plus, Helm.scale, Helm.ofT, Helm.ofD, Helm.const, Helm.lift, hs, hs1, hs2, cHS, hq, mul_assoc]
  generalize (bb t).b1 = b1 at *
  generalize (bb t).b2 = b2 at *
  generalize (bb t).b1t = b1t
  generalize (bb t).b2t = b2t
  generalize (bb t).b1tt = b1tt
  generalize (bb t).b2tt = b2tt
  obtain ⟨w, hw⟩ : ∃ w, w = 1 - 0.25 * (b1 * d) := ⟨_, rfl⟩
  have hY : 0.25 * (b1 * d) = 1 - w := by rw [hw]; ring
  have hd0 := hd.ne'
  have hb' : b1 = 4 * (1 - w) / d := by field_simp; linarith
  rw [← hw] at hx
  simp only [hY, sub_sub_cancel]
  have hw1 : 1 - w ≠ 0 := fun h => hb (by rw [hb', h]; simp)
  rw [hb']
  clear hy hb hw hY hb' b1
  field_simp
  ring

lemma base_ub : gascon * t * (base (bb t) t d).ub = (baseJ t d).f - t * (baseJ t d).fT + gascon * t := by
  have hx := x_ne hd ht hb hy
  have hq : (0.25e0 : ℝ) = 0.25 := by norm_num
  simp only [base, baseJ, baseRed, Helm.times, Helm.plus, Helm.scale, Helm.ofT, Helm.ofD, Helm.const, Helm.lift, hs, hs1, hs2, cHS, hq, mul_assoc]
  generalize (bb t).b1 = b1 at *
  generalize (bb t).b2 = b2 at *
  generalize (bb t).b1t = b1t
  generalize (bb t).b2t = b2t
  generalize (bb t).b1tt = b1tt
  generalize (bb t).b2tt = b2tt
  obtain ⟨w, hw⟩ : ∃ w, w = 1 - 0.25 * (b1 * d) := ⟨_, rfl⟩
  have hY : 0.25 * (b1 * d) = 1 - w := by rw [hw]; ring
  have hd0 := hd.ne'
  have hb' : b1 = 4 * (1 - w) / d := by field_simp; linarith
  rw [← hw] at hx
  simp only [hY, sub_sub_cancel]
  have hw1 : 1 - w ≠ 0 := fun h => hb (by rw [hb', h]; simp)
  rw [hb']
  clear hy hb hw hY hb' b1
  field_simp
  ring

lemma base_cvb : gascon * (base (bb t) t d).cvb = -t * (baseJ t d).fTT + gascon := by
  have hx := x_ne hd ht hb hy
  have hq : (0.25e0 : ℝ) = 0.25 := by norm_num
  simp only [base, baseJ, baseRed, Helm.times, Helm.plus, Helm.scale, Helm.ofT, Helm.ofD, Helm.const, Helm.lift, hs, hs1, hs2, cHS, hq, mul_assoc]
  generalize (bb t).b1 = b1 at *
  generalize (bb t).b2 = b2 at *
  generalize (bb t).b1t = b1t
  generalize (bb t).b2t = b2t
  generalize (bb t).b1tt = b1tt
  generalize (bb t).b2tt = b2tt
  obtain ⟨w, hw⟩ : ∃ w, w = 1 - 0.25 * (b1 * d) := ⟨_, rfl⟩
  have hY : 0.25 * (b1 * d) = 1 - w := by rw [hw]; ring
  have hd0 := hd.ne'
  have hb' : b1 = 4 * (1 - w) / d := by field_simp; linarith
  rw [← hw] at hx
  simp only [hY, sub_sub_cancel]
  have hw1 : 1 - w ≠ 0 := fun h => hb (by rw [hb', h]; simp)
  rw [hb']
  clear hy hb hw hY hb' b1
  field_simp
  ring

/-- The reported Helmholtz energy of the base function differs by the rounding of the constant. -/
lemma base_ab : gascon * t * (base (bb t) t d).ab = (baseJ t d).f + gascon * t * ((28.16666667 - cHS) / (1 - 0.25 * ((bb t).b1 * d)) ^ 2) := by
  have hx := x_ne hd ht hb hy
  have hq : (0.25e0 : ℝ) = 0.25 := by norm_num
  have hl : Real.log (d * (t * gascon) / 0.101325e0) = Real.log d + (Real.log t + Real.log (gascon / 0.101325e0)) := by
    have h1 : gascon / 0.101325e0 ≠ 0 := div_ne_zero gascon_pos.ne' (by norm_num)
    rw [mul_div_assoc, mul_div_assoc, Real.log_mul hd.ne' (mul_ne_zero ht.ne' h1), Real.log_mul ht.ne' h1]
  have h28 : (28.16666667e0 : ℝ) = 28.16666667 := by norm_num
  simp only [base, baseJ, baseRed, Helm.times, Helm.plus, Helm.scale, Helm.ofT, Helm.ofD, Helm.const, Helm.lift, hs, hl, hq, h28, mul_assoc]
  generalize (bb t).b1 = b1 at *
  generalize (bb t).b2 = b2 at *
  generalize Real.log (1 - 0.25 * (b1 * d)) = L1
  generalize Real.log d = L2
  generalize Real.log t = L3
  generalize Real.log (gascon / 0.101325e0) = L4
  generalize cHS = c
  generalize (28.16666667 : ℝ) = c'
  generalize (15.166666667e0 : ℝ) = c''
  generalize (bb t).b1t = b1t
  generalize (bb t).b2t = b2t
  generalize (bb t).b1tt = b1tt
  generalize (bb t).b2tt = b2tt
  obtain ⟨w, hw⟩ : ∃ w, w = 1 - 0.25 * (b1 * d) := ⟨_, rfl⟩
  have hY : 0.25 * (b1 * d) = 1 - w := by rw [hw]; ring
  have hd0 := hd.ne'
  have hb' : b1 = 4 * (1 - w) / d := by field_simp; linarith
  rw [← hw] at hx
  simp only [hY, sub_sub_cancel]
  have hw1 : 1 - w ≠ 0 := fun h => hb (by rw [hb', h]; simp)
  rw [hb']
  clear hy hb hw hY hb' b1
  field_simp
  ring

variable (al : ℝ)

lemma dalBase_dd : (dalBase (bb t) t d al).dd = (baseJ t d).fD := by
  have hx := x_ne hd ht hb hy
  have hq : (0.25e0 : ℝ) = 0.25 := by norm_num
  simp only [dalBase, baseJ, baseRed, Helm.times, Helm.plus, Helm.scale, Helm.ofT, Helm.ofD, Helm.const, Helm.lift, hs, hs1, hs2, cHS, hq, mul_assoc]
  generalize (bb t).b1 = b1 at *
  generalize (bb t).b2 = b2 at *
  generalize (bb t).b1t = b1t
  generalize (bb t).b2t = b2t
  generalize (bb t).b1tt = b1tt
  generalize (bb t).b2tt = b2tt
  obtain ⟨w, hw⟩ : ∃ w, w = 1 - 0.25 * (b1 * d) := ⟨_, rfl⟩
  have hY : 0.25 * (b1 * d) = 1 - w := by rw [hw]; ring
  have hd0 := hd.ne'
  have hb' : b1 = 4 * (1 - w) / d := by field_simp; linarith
  rw [← hw] at hx
  simp only [hY, sub_sub_cancel]
  have hw1 : 1 - w ≠ 0 := fun h => hb (by rw [hb', h]; simp)
  rw [hb']
  clear hy hb hw hY hb' b1
  field_simp
  ring

lemma dalBase_d2d : (dalBase (bb t) t d al).d2d = (baseJ t d).fDD := by
  have hx := x_ne hd ht hb hy
  have hq : (0.25e0 : ℝ) = 0.25 := by norm_num
  simp only [dalBase, baseJ, baseRed, Helm.times, Helm.plus, Helm.scale, Helm.ofT, Helm.ofD, Helm.const, Helm.lift, hs, hs1, hs2, cHS, hq, mul_assoc]
  generalize (bb t).b1 = b1 at *
  generalize (bb t).b2 = b2 at *
  generalize (bb t).b1t = b1t
  generalize (bb t).b2t = b2t
  generalize (bb t).b1tt = b1tt
  generalize (bb t).b2tt = b2tt
  obtain ⟨w, hw⟩ : ∃ w, w = 1 - 0.25 * (b1 * d) := ⟨_, rfl⟩
  have hY : 0.25 * (b1 * d) = 1 - w := by rw [hw]; ring
  have hd0 := hd.ne'
  have hb' : b1 = 4 * (1 - w) / d := by field_simp; linarith
  rw [← hw] at hx
  simp only [hY, sub_sub_cancel]
  have hw1 : 1 - w ≠ 0 := fun h => hb (by rw [hb', h]; simp)
  rw [hb']
  clear hy hb hw hY hb' b1
  field_simp
  ring

lemma dalBase_d2dt : (dalBase (bb t) t d al).d2dt = (baseJ t d).fTD := by
  have hx := x_ne hd ht hb hy
  have hq : (0.25e0 : ℝ) = 0.25 := by norm_num
  simp only [dalBase, baseJ, baseRed, Helm.times, Helm.plus, Helm.scale, Helm.ofT, Helm.ofD, Helm.const, Helm.lift, hs, hs1, hs2, cHS, hq, mul_assoc]
  generalize (bb t).b1 = b1 at *
  generalize (bb t).b2 = b2 at *
  generalize (bb t).b1t = b1t
  generalize (bb t).b2t = b2t
  generalize (bb t).b1tt = b1tt
  generalize (bb t).b2tt = b2tt
  obtain ⟨w, hw⟩ : ∃ w, w = 1 - 0.25 * (b1 * d) := ⟨_, rfl⟩
  have hY : 0.25 * (b1 * d) = 1 - w := by rw [hw]; ring
  have hd0 := hd.ne'
  have hb' : b1 = 4 * (1 - w) / d := by field_simp; linarith
  rw [← hw] at hx
  simp only [hY, sub_sub_cancel]
  have hw1 : 1 - w ≠ 0 := fun h => hb (by rw [hb', h]; simp)
  rw [hb']
  clear hy hb hw hY hb' b1
  field_simp
  ring

lemma dalBase_d2tp : (dalBase (bb t) t d al).d2tp = (baseJ t d).fTD - al * d * (baseJ t d).fDD := by
  have hx := x_ne hd ht hb hy
  have hq : (0.25e0 : ℝ) = 0.25 := by norm_num
  simp only [dalBase, baseJ, baseRed, Helm.times, Helm.plus, Helm.scale, Helm.ofT, Helm.ofD, Helm.const, Helm.lift, hs, hs1, hs2, cHS, hq, mul_assoc]
  generalize (bb t).b1 = b1 at *
  generalize (bb t).b2 = b2 at *
  generalize (bb t).b1t = b1t
  generalize (bb t).b2t = b2t
  generalize (bb t).b1tt = b1tt
  generalize (bb t).b2tt = b2tt
  obtain ⟨w, hw⟩ : ∃ w, w = 1 - 0.25 * (b1 * d) := ⟨_, rfl⟩
  have hY : 0.25 * (b1 * d) = 1 - w := by rw [hw]; ring
  have hd0 := hd.ne'
  have hb' : b1 = 4 * (1 - w) / d := by field_simp; linarith
  rw [← hw] at hx
  simp only [hY, sub_sub_cancel]
  have hw1 : 1 - w ≠ 0 := fun h => hb (by rw [hb', h]; simp)
  rw [hb']
  clear hy hb hw hY hb' b1
  field_simp
  ring

lemma dalBase_d3dt : (dalBase (bb t) t d al).d3dt = (baseJ t d).fTDD - al * d * (baseJ t d).fDDD := by
  have hx := x_ne hd ht hb hy
  have hq : (0.25e0 : ℝ) = 0.25 := by norm_num
  simp only [dalBase, baseJ, baseRed, Helm.times, Helm.plus, Helm.scale, Helm.ofT, Helm.ofD, Helm.const, Helm.lift, hs, hs1, hs2, hs3, cHS, hq, mul_assoc]
  generalize (bb t).b1 = b1 at *
  generalize (bb t).b2 = b2 at *
  generalize (bb t).b1t = b1t
  generalize (bb t).b2t = b2t
  generalize (bb t).b1tt = b1tt
  generalize (bb t).b2tt = b2tt
  obtain ⟨w, hw⟩ : ∃ w, w = 1 - 0.25 * (b1 * d) := ⟨_, rfl⟩
  have hY : 0.25 * (b1 * d) = 1 - w := by rw [hw]; ring
  have hd0 := hd.ne'
  have hb' : b1 = 4 * (1 - w) / d := by field_simp; linarith
  rw [← hw] at hx
  simp only [hY, sub_sub_cancel]
  have hw1 : 1 - w ≠ 0 := fun h => hb (by rw [hb', h]; simp)
  rw [hb']
  clear hy hb hw hY hb' b1
  field_simp
  ring

lemma dalBase_d3tt : (dalBase (bb t) t d al).d3tt = (baseJ t d).fTTD - al * d * (baseJ t d).fTDD := by
  have hx := x_ne hd ht hb hy
  have hq : (0.25e0 : ℝ) = 0.25 := by norm_num
  simp only [dalBase, baseJ, baseRed, Helm.times, Helm.plus, Helm.scale, Helm.ofT, Helm.ofD, Helm.const, Helm.lift, hs, hs1, hs2, hs3, cHS, hq, mul_assoc]
  generalize (bb t).b1 = b1 at *
  generalize (bb t).b2 = b2 at *
  generalize (bb t).b1t = b1t
  generalize (bb t).b2t = b2t
  generalize (bb t).b1tt = b1tt
  generalize (bb t).b2tt = b2tt
  obtain ⟨w, hw⟩ : ∃ w, w = 1 - 0.25 * (b1 * d) := ⟨_, rfl⟩
  have hY : 0.25 * (b1 * d) = 1 - w := by rw [hw]; ring
  have hd0 := hd.ne'
  have hb' : b1 = 4 * (1 - w) / d := by field_simp; linarith
  rw [← hw] at hx
  simp only [hY, sub_sub_cancel]
  have hw1 : 1 - w ≠ 0 := fun h => hb (by rw [hb', h]; simp)
  rw [hb']
  clear hy hb hw hY hb' b1
  field_simp
  ring

end base

end Gems

end ThermoFun
