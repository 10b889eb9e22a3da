import Verif.Lemmas.Gems

/-! The residual function of WaterHGK-JNgems.cpp with its partial derivatives. -/

namespace ThermoFun

namespace Gems

open WP (el)
open HGK (eli)

variable {t d : ℝ}

/-! ### Terms 1 to 36 -/

/-- A term `G / k (1 - exp(-d))^k (tz/t)^(l-1)` with its partial derivatives. -/
noncomputable def rTerm (G : ℝ) (k l : ℤ) (t d : ℝ) : Helm :=
  let E := Helm.ofD (1 - Real.exp (-d)) (Real.exp (-d)) (-Real.exp (-d)) (Real.exp (-d))
  ((E.lift (E.f ^ k) (k / E.f * E.f ^ k) ((k - 1) / E.f * (k / E.f * E.f ^ k)) ((k - 2) / E.f * ((k - 1) / E.f * (k / E.f * E.f ^ k)))).times
    (Helm.ofT (t ^ (1 - l)) ((1 - l : ℤ) / t * t ^ (1 - l)) (((1 - l : ℤ) - 1) / t * ((1 - l : ℤ) / t * t ^ (1 - l)))
      (((1 - l : ℤ) - 2) / t * (((1 - l : ℤ) - 1) / t * ((1 - l : ℤ) / t * t ^ (1 - l)))))).scale (G / k * tz ^ (l - 1))

lemma e_jet : Jet (fun _ d => Helm.ofD (1 - Real.exp (-d)) (Real.exp (-d)) (-Real.exp (-d)) (Real.exp (-d))) t d := by
  have h : HasDerivAt (fun d : ℝ => Real.exp (-d)) (-Real.exp (-d)) d := by
    exact ((hasDerivAt_neg d).exp).congr_deriv (by ring)
  refine .ofD ?_ h ?_
  · simpa using h.const_sub 1
  · simpa using h.fun_neg

lemma e_ne (hd : 0 < d) : 1 - Real.exp (-d) ≠ 0 := by
  have : Real.exp (-d) < 1 := by rw [Real.exp_lt_one_iff]; linarith
  have h : (0 : ℝ) < 1 - Real.exp (-d) := by linarith
  exact h.ne'

lemma rTerm_jet (G : ℝ) (k l : ℤ) (ht : 0 < t) (hd : 0 < d) : Jet (rTerm G k l) t d :=
  (((e_jet (t := t) (d := d)).zpow (e_ne hd) k).times (Jet.zpowT ht.ne' (1 - l))).scale _

lemma v_pow (ht : 0 < t) (l : ℤ) : (tz / t) ^ (l - 1) = tz ^ (l - 1) * t ^ (1 - l) := by
  rw [div_zpow, div_eq_mul_inv, ← zpow_neg, neg_sub]

lemma v_pow' (ht : 0 < t) (l : ℤ) : (tz / t) ^ l = tz ^ (l - 1) * t ^ (1 - l) * (tz / t) := by
  rw [← v_pow ht, ← zpow_add_one₀ (div_ne_zero tz_pos.ne' ht.ne')]; congr 1; ring

/-- What the sums of `resid` say about a function with its derivatives. -/
structure Rel (t d : ℝ) (s : RAcc) (h : Helm) : Prop where
  q0 : s.q0 + s.qp = d ^ 2 * h.fD
  q5 : s.q5 = 2 * d * h.fD + d ^ 2 * h.fDD
  ar : gascon * t * s.ar = h.f
  dadt : s.dadt = h.fT
  dpdtr : s.dpdtr = d ^ 2 * h.fTD
  cvr : gascon * s.cvr + s.q2a = -t * h.fTT

lemma rel_step (ht : 0 < t) (hd : 0 < d) {s : RAcc} {h : Helm} (hr : Rel t d s h) (i : ℕ) (hi : eli ii i + 1 ≠ 0) :
    Rel t d (residStep t d s i) (h.plus (rTerm (el g i) (eli ii i + 1) (eli jj i) t d)) := by
  have he := e_ne hd
  have ht0 := ht.ne'
  have hd0 := hd.ne'
  have htz := tz_pos.ne'
  have hg := gascon_pos.ne'
  have hexp := (Real.exp_pos (-d)).ne'
  have haa : aa = 1 := by unfold aa; norm_num
  obtain ⟨a1, a2, a3, a4, a5, a6⟩ := hr
  obtain ⟨k, hk'⟩ : ∃ k, eli ii i + 1 = k := ⟨_, rfl⟩
  rw [hk'] at hi ⊢
  have hk : (k : ℝ) ≠ 0 := by exact_mod_cast hi
  obtain ⟨l, hl'⟩ : ∃ l, eli jj i = l := ⟨_, rfl⟩
  rw [hl']
  constructor <;> simp only [residStep, hk', hl', rTerm, Helm.plus, Helm.times, Helm.scale, Helm.lift, Helm.ofT, Helm.ofD, haa, neg_mul, one_mul, v_pow ht, v_pow' ht,
    zpow_sub_one₀ he]
  all_goals generalize tz ^ (l - 1) = Z
  all_goals generalize t ^ (1 - l) = W
  all_goals generalize (1 - Real.exp (-d)) ^ k = K
  all_goals generalize Real.exp (-d) = e at *
  all_goals push_cast
  · rw [add_right_comm, a1]; field_simp; ring
  · rw [a2]; field_simp; ring
  · rw [mul_add, a3]; field_simp
  · rw [a4]; field_simp; ring
  · rw [a5]; field_simp; ring
  · rw [mul_add, add_right_comm, a6]; field_simp; ring

/-- What the sums of `dalHGK` say about a function with its derivatives; `err` is the error of the second derivative by density. -/
structure RelD (d al err : ℝ) (s : Dal) (h : Helm) : Prop where
  dd : s.dd = h.fD
  d2d : s.d2d = h.fDD + err
  d2dt : s.d2dt = h.fTD
  d2tp : s.d2tp = h.fTD - al * d * h.fDD
  d3dt : s.d3dt = h.fTDD - al * d * h.fDDD
  d3tt : s.d3tt = h.fTTD - al * d * h.fTDD

lemma relD_step (ht : 0 < t) (hd : 0 < d) {al err : ℝ} {s : Dal} {h : Helm} (hr : RelD d al err s h) (i : ℕ) (hi : eli ii i + 1 ≠ 0) :
    RelD d al err (dalStep t d al s i) (h.plus (rTerm (el g i) (eli ii i + 1) (eli jj i) t d)) := by
  have he := e_ne hd
  have ht0 := ht.ne'
  have hd0 := hd.ne'
  have htz := tz_pos.ne'
  have hexp := (Real.exp_pos (-d)).ne'
  have haa : aa = 1 := by unfold aa; norm_num
  obtain ⟨a1, a2, a3, a4, a5, a6⟩ := hr
  obtain ⟨k, hk'⟩ : ∃ k, eli ii i + 1 = k := ⟨_, rfl⟩
  rw [hk'] at hi ⊢
  have hk : (k : ℝ) ≠ 0 := by exact_mod_cast hi
  obtain ⟨l, hl'⟩ : ∃ l, eli jj i = l := ⟨_, rfl⟩
  rw [hl']
  have h3 : (1 - Real.exp (-d)) ^ (k - 3) = (1 - Real.exp (-d)) ^ k / (1 - Real.exp (-d)) ^ 3 := by
    rw [zpow_sub₀ he]; norm_cast
  constructor <;> simp only [dalStep, hk', hl', rTerm, Helm.plus, Helm.times, Helm.scale, Helm.lift, Helm.ofT, Helm.ofD, haa, neg_mul, one_mul, v_pow ht, sub_add_cancel, v_pow' ht,
    zpow_sub_one₀ he, h3]
  all_goals generalize tz ^ (l - 1) = Z
  all_goals generalize t ^ (1 - l) = W
  all_goals generalize (1 - Real.exp (-d)) ^ k = K
  all_goals generalize Real.exp (-d) = e at *
  all_goals push_cast
  · rw [a1]; field_simp; ring
  · rw [a2]; field_simp; ring
  · rw [a3]; field_simp; ring
  · rw [a4]; field_simp; ring
  · rw [a5]; field_simp; ring
  · rw [a6]; field_simp; ring

/-! ### Terms 37 to 40 -/

/-- `G del^l exp(-a del^k) exp(-b tau^2)`, `del = d/di - 1`, `tau = t/ti - 1`, with its partial derivatives. -/
noncomputable def xTerm (G a b di ti : ℝ) (k l : ℤ) (t d : ℝ) : Helm :=
  let X := Helm.ofD (d / di - 1) (1 / di) 0 0
  let P : ℤ → Helm := fun p => X.lift (X.f ^ p) (p / X.f * X.f ^ p) ((p - 1) / X.f * (p / X.f * X.f ^ p))
    ((p - 2) / X.f * ((p - 1) / X.f * (p / X.f * X.f ^ p)))
  let A := (P k).scale (-a)
  let B := Helm.ofT (-b * (t / ti - 1) ^ 2) (-2 * b * (t / ti - 1) / ti) (-2 * b / ti ^ 2) 0
  (((P l).times (A.lift (Real.exp A.f) (Real.exp A.f) (Real.exp A.f) (Real.exp A.f))).times
    (B.lift (Real.exp B.f) (Real.exp B.f) (Real.exp B.f) (Real.exp B.f))).scale G

lemma xTerm_jet (G a b di ti : ℝ) (k l : ℤ) (hdi : di ≠ 0) (hti : ti ≠ 0) (hdel : d / di - 1 ≠ 0) : Jet (xTerm G a b di ti k l) t d := by
  have hX : Jet (fun _ d => Helm.ofD (d / di - 1) (1 / di) 0 0) t d := by
    refine .ofD ?_ (hasDerivAt_const d _) (hasDerivAt_const d _)
    exact ((hasDerivAt_id' d).div_const di).sub_const 1
  have hB : Jet (fun t _ => Helm.ofT (-b * (t / ti - 1) ^ 2) (-2 * b * (t / ti - 1) / ti) (-2 * b / ti ^ 2) 0) t d := by
    have h1 : HasDerivAt (fun t : ℝ => t / ti - 1) (1 / ti) t := ((hasDerivAt_id' t).div_const ti).sub_const 1
    refine .ofT ?_ ?_ (hasDerivAt_const t _)
    · refine ((h1.fun_pow 2).const_mul (-b)).congr_deriv ?_
      simp only [Nat.add_one_sub_one, pow_one]; push_cast; field_simp
    · refine ((h1.const_mul (-2 * b)).div_const ti).congr_deriv ?_
      field_simp
  exact ((((hX.zpow hdel l).times ((hX.zpow hdel k).scale (-a)).exp).times hB.exp).scale G)

/-- 1 where neither exponential is cut off, 0 elsewhere. -/
noncomputable def keep (a b di ti : ℝ) (k : ℤ) (t d : ℝ) : ℝ :=
  (if -a * (d / di - 1) ^ k < EXPTOL then 0 else 1) * (if -b * (t / ti - 1) * (t / ti - 1) ≤ EXPTOL then 0 else 1)

/-- The term as programmed. -/
noncomputable def xCut (G a b di ti : ℝ) (k l : ℤ) (t d : ℝ) : Helm := (xTerm G a b di ti k l t d).scale (keep a b di ti k t d)

lemma xCut_jet (G a b di ti : ℝ) (k l : ℤ) (hdi : di ≠ 0) (hti : ti ≠ 0) (hdel : d / di - 1 ≠ 0)
    (h1 : -a * (d / di - 1) ^ k ≠ EXPTOL) (h2 : -b * (t / ti - 1) * (t / ti - 1) ≠ EXPTOL) : Jet (xCut G a b di ti k l) t d := by
  refine ((xTerm_jet G a b di ti k l hdi hti hdel).scale (keep a b di ti k t d)).congr_ev ?_
  have c1 : ContinuousAt (fun q : ℝ × ℝ => -a * (q.2 / di - 1) ^ k) (t, d) := by
    have c : ContinuousAt (fun q : ℝ × ℝ => q.2 / di - 1) (t, d) := (continuousAt_snd.div_const di).sub continuousAt_const
    exact (c.zpow₀ k (Or.inl hdel)).const_mul (-a)
  have c2 : ContinuousAt (fun q : ℝ × ℝ => -b * (q.1 / ti - 1) * (q.1 / ti - 1)) (t, d) := by
    have c : ContinuousAt (fun q : ℝ × ℝ => q.1 / ti - 1) (t, d) := (continuousAt_fst.div_const ti).sub continuousAt_const
    exact (c.const_mul (-b)).mul c
  have e1 : ∀ᶠ q : ℝ × ℝ in nhds (t, d), (-a * (q.2 / di - 1) ^ k < EXPTOL ↔ -a * (d / di - 1) ^ k < EXPTOL) := by
    rcases lt_or_gt_of_ne h1 with h | h
    · exact (c1.eventually_lt_const h).mono fun q hq => ⟨fun _ => h, fun _ => hq⟩
    · exact (c1.eventually_const_lt h).mono fun q hq => ⟨fun hh => absurd hq (not_lt.2 hh.le), fun hh => absurd h (not_lt.2 hh.le)⟩
  have e2 : ∀ᶠ q : ℝ × ℝ in nhds (t, d), (-b * (q.1 / ti - 1) * (q.1 / ti - 1) ≤ EXPTOL ↔ -b * (t / ti - 1) * (t / ti - 1) ≤ EXPTOL) := by
    rcases lt_or_gt_of_ne h2 with h | h
    · exact (c2.eventually_lt_const h).mono fun q hq => ⟨fun _ => h.le, fun _ => le_of_lt hq⟩
    · exact (c2.eventually_const_lt h).mono fun q hq => ⟨fun hh => absurd hq (not_lt.2 hh), fun hh => absurd h (not_lt.2 hh)⟩
  filter_upwards [e1, e2] with q h3 h4
  simp only [xCut, keep, h3, h4]

/-- The error made by `dalHGK` in the second derivative by density of a term. -/
noncomputable def xErr (G a b di ti : ℝ) (k l : ℤ) (t d : ℝ) : ℝ :=
  keep a b di ti k t d * (G * (d / di - 1) ^ l * Real.exp (-a * (d / di - 1) ^ k) * Real.exp (-b * (t / ti - 1) ^ 2) / di ^ 2 *
    (l / (d / di - 1) ^ 2 - l / di ^ 2))

/-- The term of index `j`. -/
noncomputable def xJ (j : ℕ) : ℝ → ℝ → Helm := xCut (el g (j + 36)) (el aad j) (el aat j) (el adz j) (el atz j) (eli ii (j + 36)) (eli jj (j + 36))

lemma delOf_eq {di : ℝ} (h : 1.0e-10 ≤ |d / di - 1|) : delOf d di = d / di - 1 := by
  rw [delOf]; exact if_neg (not_lt.2 h)

lemma rel_extra (ht : 0 < t) (hd : 0 < d) {s : RAcc} {h : Helm} (hr : Rel t d s h) (j : ℕ) (hG : el g (j + 36) ≠ 0) (hdi : el adz j ≠ 0)
    (hti : el atz j ≠ 0) (hdel : 1.0e-10 ≤ |d / el adz j - 1|) : Rel t d (residExtra t d s j) (h.plus (xJ j t d)) := by
  have ht0 := ht.ne'
  have hd0 := hd.ne'
  have hg := gascon_pos.ne'
  have hx : d / el adz j - 1 ≠ 0 := by
    intro h0; rw [h0, abs_zero] at hdel; norm_num at hdel
  obtain ⟨a1, a2, a3, a4, a5, a6⟩ := hr
  rw [residExtra, if_neg hG]
  simp only [delOf_eq hdel]
  unfold xJ
  generalize el g (j + 36) = G
  generalize el aad j = a
  generalize el aat j = b
  generalize el adz j = di at *
  generalize el atz j = ti at *
  generalize eli ii (j + 36) = k
  generalize eli jj (j + 36) = l
  have hx2 : (d / di - 1) ^ (k - 2) = (d / di - 1) ^ k / (d / di - 1) ^ 2 := by rw [zpow_sub₀ hx]; norm_cast
  have hb : -b * (t / ti - 1) * (t / ti - 1) = -b * (t / ti - 1) ^ 2 := by ring
  have c1 : cutLt (-a * (d / di - 1) ^ k) = (if -a * (d / di - 1) ^ k < EXPTOL then 0 else 1) * Real.exp (-a * (d / di - 1) ^ k) := by
    unfold cutLt; split <;> simp
  have c2 : cutLe (-b * (t / ti - 1) ^ 2) = (if -b * (t / ti - 1) ^ 2 ≤ EXPTOL then 0 else 1) * Real.exp (-b * (t / ti - 1) ^ 2) := by
    unfold cutLe; split <;> simp
  have hdd : d = di * ((d / di - 1) + 1) := by field_simp; ring
  have htt : t = ti * ((t / ti - 1) + 1) := by field_simp; ring
  constructor <;> simp only [xCut, keep, xTerm, Helm.plus, Helm.times, Helm.scale, Helm.lift, Helm.ofT, Helm.ofD, hb, c1, c2, zpow_sub_one₀ hx, hx2]
  all_goals generalize (if -a * (d / di - 1) ^ k < EXPTOL then (0 : ℝ) else 1) = i1
  all_goals generalize (if -b * (t / ti - 1) ^ 2 ≤ EXPTOL then (0 : ℝ) else 1) = i2
  all_goals generalize Real.exp (-a * (d / di - 1) ^ k) = x1
  all_goals generalize Real.exp (-b * (t / ti - 1) ^ 2) = x2
  all_goals generalize (d / di - 1) ^ k = K
  all_goals generalize (d / di - 1) ^ l = L
  all_goals generalize d / di - 1 = δ at *
  all_goals generalize t / ti - 1 = τ at *
  all_goals push_cast
  · rw [← add_assoc, a1]; field_simp; ring
  · rw [a2]; field_simp; ring
  · rw [mul_add, a3]; field_simp
  · rw [a4]; field_simp; ring
  · rw [a5]; field_simp; ring
  · rw [← add_assoc, a6]; field_simp; ring

lemma relD_extra (ht : 0 < t) (hd : 0 < d) {al err : ℝ} {s : Dal} {h : Helm} (hr : RelD d al err s h) (j : ℕ) (hdi : el adz j ≠ 0)
    (hti : el atz j ≠ 0) (hdel : 1.0e-10 ≤ |d / el adz j - 1|) :
    RelD d al (err + xErr (el g (j + 36)) (el aad j) (el aat j) (el adz j) (el atz j) (eli ii (j + 36)) (eli jj (j + 36)) t d)
      (dalExtra t d al s j) (h.plus (xJ j t d)) := by
  have ht0 := ht.ne'
  have hd0 := hd.ne'
  have hx : d / el adz j - 1 ≠ 0 := by
    intro h0; rw [h0, abs_zero] at hdel; norm_num at hdel
  obtain ⟨a1, a2, a3, a4, a5, a6⟩ := hr
  rw [dalExtra]
  simp only [delOf_eq hdel]
  unfold xJ
  generalize el g (j + 36) = G
  generalize el aad j = a
  generalize el aat j = b
  generalize el adz j = di at *
  generalize el atz j = ti at *
  generalize eli ii (j + 36) = k
  generalize eli jj (j + 36) = l
  have hx2 : (d / di - 1) ^ (k - 2) = (d / di - 1) ^ k / (d / di - 1) ^ 2 := by rw [zpow_sub₀ hx]; norm_cast
  have hx3 : (d / di - 1) ^ (k - 3) = (d / di - 1) ^ k / (d / di - 1) ^ 3 := by rw [zpow_sub₀ hx]; norm_cast
  have hb : -b * (t / ti - 1) * (t / ti - 1) = -b * (t / ti - 1) ^ 2 := by ring
  have c1 : cutLt (-a * (d / di - 1) ^ k) = (if -a * (d / di - 1) ^ k < EXPTOL then 0 else 1) * Real.exp (-a * (d / di - 1) ^ k) := by
    unfold cutLt; split <;> simp
  have c2 : cutLe (-b * (t / ti - 1) ^ 2) = (if -b * (t / ti - 1) ^ 2 ≤ EXPTOL then 0 else 1) * Real.exp (-b * (t / ti - 1) ^ 2) := by
    unfold cutLe; split <;> simp
  constructor <;> simp only [xErr, xCut, keep, xTerm, Helm.plus, Helm.times, Helm.scale, Helm.lift, Helm.ofT, Helm.ofD, hb, c1, c2, zpow_sub_one₀ hx, hx2, hx3]
  all_goals generalize (if -a * (d / di - 1) ^ k < EXPTOL then (0 : ℝ) else 1) = i1
  all_goals generalize (if -b * (t / ti - 1) ^ 2 ≤ EXPTOL then (0 : ℝ) else 1) = i2
  all_goals generalize Real.exp (-a * (d / di - 1) ^ k) = x1
  all_goals generalize Real.exp (-b * (t / ti - 1) ^ 2) = x2
  all_goals generalize (d / di - 1) ^ k = K
  all_goals generalize (d / di - 1) ^ l = L
  all_goals generalize d / di - 1 = δ at *
  all_goals generalize t / ti - 1 = τ at *
  all_goals push_cast
  · rw [a1]; field_simp; ring
  · rw [a2]; field_simp; ring
  · rw [a3]; field_simp; ring
  · rw [a4]; field_simp; ring
  · rw [a5]; field_simp; ring
  · rw [a6]; field_simp; ring

end Gems

end ThermoFun
