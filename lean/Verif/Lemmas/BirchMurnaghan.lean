import Verif.Model.BirchMurnaghan
import Verif.Lemmas.TSOps
import Mathlib.Analysis.SpecialFunctions.Pow.Deriv
import Mathlib.Analysis.Calculus.MeanValue

/-!
The values of the Birch-Murnaghan model as real functions, their derivatives, and the convergence of the halved Newton steps.
-/

namespace ThermoFun.BM

open Set

/-! ### Halved Newton steps -/

section Newton

variable {f f' : ℝ → ℝ} {lo hi m M r : ℝ}

/-- A halved Newton step. -/
noncomputable def nstep (f f' : ℝ → ℝ) (u : ℝ) : ℝ := u - f u / f' u / 2

open Classical in
/-- The loop over reals. -/
noncomputable def nloop (f f' : ℝ → ℝ) : Nat → ℝ → ℝ → ℝ
  | 0, u, _ => u
  | n + 1, u, old => if |u - old| > 1e-10 then nloop f f' n (nstep f f' u) u else u

lemma nstep_ratio (hf : ∀ u ∈ Icc lo hi, HasDerivAt f (f' u) u) (hm : 0 < m) (hM : ∀ u ∈ Icc lo hi, -M ≤ f' u ∧ f' u ≤ -m)
    (hr : r ∈ Icc lo hi) (h0 : f r = 0) {u : ℝ} (hu : u ∈ Icc lo hi) :
    ∃ k, m / M ≤ k ∧ k ≤ M / m ∧ f u / f' u = k * (u - r) := by
  have key : ∀ a b, a < b → a ∈ Icc lo hi → b ∈ Icc lo hi → ∃ s, m ≤ s ∧ s ≤ M ∧ f b - f a = -s * (b - a) := by
    intro a b hab ha hb
    have hsub : Icc a b ⊆ Icc lo hi := fun x hx => ⟨ha.1.trans hx.1, hx.2.trans hb.2⟩
    obtain ⟨c, hc, hc2⟩ := exists_hasDerivAt_eq_slope f f' hab
      (fun x hx => (hf x (hsub hx)).continuousAt.continuousWithinAt) (fun x hx => hf x (hsub (Ioo_subset_Icc_self hx)))
    have h1 := hM c (hsub (Ioo_subset_Icc_self hc))
    refine ⟨-f' c, by linarith [h1.2], by linarith [h1.1], ?_⟩
    rw [hc2, neg_neg, div_mul_cancel₀ _ (by linarith)]
  have hu' := hM u hu
  have hMpos : 0 < M := by linarith [hu'.1, hu'.2]
  have hne : f' u ≠ 0 := by linarith [hu'.2]
  obtain ⟨s, h1, h2, h3⟩ : ∃ s, m ≤ s ∧ s ≤ M ∧ f u = -s * (u - r) := by
    rcases lt_trichotomy u r with h | h | h
    · obtain ⟨s, h1, h2, h3⟩ := key u r h hu hr
      exact ⟨s, h1, h2, by rw [h0] at h3; linarith⟩
    · exact ⟨m, le_refl _, by linarith [hu'.1, hu'.2], by rw [h, h0]; ring⟩
    · obtain ⟨s, h1, h2, h3⟩ := key r u h hr hu
      exact ⟨s, h1, h2, by rw [h0] at h3; linarith⟩
  have hp : 0 < -f' u := by linarith [hu'.2]
  refine ⟨s / (-f' u), ?_, ?_, ?_⟩
  · rw [div_le_div_iff₀ hMpos hp]
    nlinarith [hu'.1, hu'.2]
  · rw [div_le_div_iff₀ hp hm]
    nlinarith [hu'.1, hu'.2]
  · rw [h3]
    field_simp

/-- Halved Newton steps stay between the start and the root, and the error shrinks by the factor 1 - m/(2M) or more. -/
lemma nstep_close (hf : ∀ u ∈ Icc lo hi, HasDerivAt f (f' u) u) (hm : 0 < m) (hM : ∀ u ∈ Icc lo hi, -M ≤ f' u ∧ f' u ≤ -m)
    (h2 : M ≤ 2 * m) (hr : r ∈ Icc lo hi) (h0 : f r = 0) {u : ℝ} (hu : u ∈ Icc lo hi) :
    nstep f f' u ∈ uIcc r u ∧ |nstep f f' u - r| ≤ (1 - m / (2 * M)) * |u - r| ∧
      (|nstep f f' u - u| ≤ 1e-10 → |nstep f f' u - r| ≤ 3e-10) := by
  obtain ⟨k, hk1, hk2, hk⟩ := nstep_ratio hf hm hM hr h0 hu
  have hMm : m ≤ M := by have := hM u hu; linarith [this.1, this.2]
  have hMpos : 0 < M := by linarith
  have hk3 : k ≤ 2 := hk2.trans (by rw [div_le_iff₀ hm]; exact h2)
  have hk4 : 1 / 2 ≤ k := le_trans (by rw [div_le_div_iff₀ (by norm_num) hMpos]; linarith) hk1
  have hw : nstep f f' u = r + (1 - k / 2) * (u - r) := by unfold nstep; rw [hk]; ring
  have hc : 0 ≤ 1 - k / 2 := by linarith
  have habs : |nstep f f' u - r| = (1 - k / 2) * |u - r| := by rw [hw, add_sub_cancel_left, abs_mul, abs_of_nonneg hc]
  refine ⟨?_, ?_, fun h => ?_⟩
  · rw [hw, mem_uIcc]
    rcases le_total r u with h | h
    · left
      constructor
      · nlinarith
      · nlinarith
    · right
      constructor
      · nlinarith
      · nlinarith
  · rw [habs]
    refine mul_le_mul_of_nonneg_right ?_ (abs_nonneg _)
    have : m / (2 * M) = m / M / 2 := by field_simp
    rw [this]; linarith
  · rw [habs]
    have h3 : |nstep f f' u - u| = k / 2 * |u - r| := by
      rw [hw, show r + (1 - k / 2) * (u - r) - u = -(k / 2 * (u - r)) by ring, abs_neg, abs_mul, abs_of_nonneg (by linarith)]
    rw [h3] at h
    have h4 := abs_nonneg (u - r)
    nlinarith

lemma nloop_close (hf : ∀ u ∈ Icc lo hi, HasDerivAt f (f' u) u) (hm : 0 < m) (hM : ∀ u ∈ Icc lo hi, -M ≤ f' u ∧ f' u ≤ -m)
    (h2 : M ≤ 2 * m) (hr : r ∈ Icc lo hi) (h0 : f r = 0) (n : Nat) :
    ∀ u old, u ∈ Icc lo hi → (|u - old| ≤ 1e-10 → |u - r| ≤ 3e-10) →
      nloop f f' n u old ∈ uIcc r u ∧ (|nloop f f' n u old - r| ≤ 3e-10 ∨ |nloop f f' n u old - r| ≤ (1 - m / (2 * M)) ^ n * |u - r|) := by
  have hMm : m ≤ M := by have := hM r hr; linarith [this.1, this.2]
  have hMpos : 0 < M := by linarith
  have hq : 0 ≤ 1 - m / (2 * M) := by
    rw [sub_nonneg, div_le_one (by positivity)]; linarith
  induction n with
  | zero => intro u old hu h; exact ⟨by unfold nloop; exact right_mem_uIcc, Or.inr (by simp [nloop])⟩
  | succ n ih =>
    intro u old hu h
    unfold nloop
    by_cases hgt : |u - old| > 1e-10
    · rw [if_pos hgt]
      obtain ⟨a, b, c⟩ := nstep_close hf hm hM h2 hr h0 hu
      have hs : uIcc r u ⊆ Icc lo hi := uIcc_subset_Icc hr hu
      obtain ⟨d, e⟩ := ih (nstep f f' u) u (hs a) c
      refine ⟨uIcc_subset_uIcc left_mem_uIcc a d, ?_⟩
      rcases e with e | e
      · exact Or.inl e
      · right
        refine e.trans ?_
        rw [pow_succ, mul_assoc]
        exact mul_le_mul_of_nonneg_left b (pow_nonneg hq n)
    · rw [if_neg hgt]
      exact ⟨right_mem_uIcc, Or.inl (h (not_lt.mp hgt))⟩

end Newton

/-! ### The functions of the model -/

/-- The Birch-Murnaghan pressure. -/
noncomputable def bmP (vt K kp kpp v : ℝ) : ℝ :=
  3 / 2 * K * (1 + 3 / 4 * (kp - 4) * ((vt / v) ^ (2 / 3 : ℝ) - 1)
    + 3 / 8 * (143 / 9 - 7 * kp + kp * kp + kpp * K) * ((vt / v) ^ (2 / 3 : ℝ) - 1) * ((vt / v) ^ (2 / 3 : ℝ) - 1))
    * ((vt / v) ^ (2 / 3 : ℝ) - 1) * (vt / v) ^ (5 / 3 : ℝ)

/-- The value of `dveq`. -/
noncomputable def bmD (vt K kp kpp v : ℝ) : ℝ :=
  (K * vt * (vt * vt * (4509 + kp * kp * (243 - 99 * (vt / v) ^ (2 / 3 : ℝ))
        + 9 * kpp * K * (27 - 11 * (vt / v) ^ (2 / 3 : ℝ)) + 9 * kp * (-207 + 77 * (vt / v) ^ (2 / 3 : ℝ))
        - 1573 * (vt / v) ^ (2 / 3 : ℝ)) - 21 * (199 - 75 * kp + 9 * kp * kp + 9 * kpp * K) * vt * (vt / v) ^ (1 / 3 : ℝ) * v
      + 5 * (239 - 81 * kp + 9 * kp * kp + 9 * kpp * K) * (vt / v) ^ (2 / 3 : ℝ) * v * v)) / (48 * v * v * v * v)

/-- The value of `pint`. -/
noncomputable def bmInt (vt K kp kpp v : ℝ) : ℝ :=
  (-3 * K * vt * (6 * (199 - 75 * kp + 9 * kp * kp + 9 * kpp * K) * v * vt * (vt / v) ^ (1 / 3 : ℝ)
      + vt * vt * (-668 + kp * (276 - 63 * (vt / v) ^ (2 / 3 : ℝ)) + 9 * kp * kp * (-4 + (vt / v) ^ (2 / 3 : ℝ))
        + 9 * kpp * K * (-4 + (vt / v) ^ (2 / 3 : ℝ)) + 143 * (vt / v) ^ (2 / 3 : ℝ))
      + v * v * (287 + kp * kp * (9 - 36 * (vt / v) ^ (2 / 3 : ℝ))
        + 9 * kpp * K * (1 - 4 * (vt / v) ^ (2 / 3 : ℝ)) - 956 * (vt / v) ^ (2 / 3 : ℝ) + kp * (-87 + 324 * (vt / v) ^ (2 / 3 : ℝ)))))
    / (128 * v * v)

lemma veq_val (P vt K kp kpp v : TS) : (veq P vt K kp kpp v).val = bmP vt.val K.val kp.val kpp.val v.val - P.val := by
  simp only [veq, bmP, TS.op_val_add, TS.op_val_addL, TS.op_val_sub, TS.op_val_subL, TS.op_val_subR, TS.op_val_mul, TS.op_val_mulL,
    TS.op_val_div, TS.val_powR]

lemma dveq_val (vt K kp kpp v : TS) : (dveq vt K kp kpp v).val = bmD vt.val K.val kp.val kpp.val v.val := by
  simp only [dveq, bmD, TS.op_val_add, TS.op_val_addL, TS.op_val_sub, TS.op_val_subL, TS.op_val_subR, TS.op_val_mul, TS.op_val_mulL,
    TS.op_val_div, TS.val_powR]

lemma intVol_val (P Pref vt v K kp kpp : TS) :
    (intVol P Pref vt v K kp kpp).val = -Pref.val * vt.val + P.val * v.val - bmInt vt.val K.val kp.val kpp.val v.val := by
  simp only [intVol, bmInt, TS.op_val_add, TS.op_val_addL, TS.op_val_sub, TS.op_val_subL, TS.op_val_subR, TS.op_val_mul, TS.op_val_mulL,
    TS.op_val_div, TS.val_powR, TS.op_val_neg]

lemma step_val (P vt K kp kpp v : TS) : (step P vt K kp kpp v).val =
    nstep (fun v => bmP vt.val K.val kp.val kpp.val v - P.val) (bmD vt.val K.val kp.val kpp.val) v.val := by
  simp only [step, nstep, TS.op_val_sub, TS.op_val_div, TS.op_val_divR, veq_val, dveq_val]

lemma loop_val (P vt K kp kpp : TS) (n : Nat) : ∀ (v : TS) (old : ℝ), (loop P vt K kp kpp n v old).val =
    nloop (fun v => bmP vt.val K.val kp.val kpp.val v - P.val) (bmD vt.val K.val kp.val kpp.val) n v.val old := by
  induction n with
  | zero => intro v old; rfl
  | succ n ih =>
    intro v old
    unfold loop nloop
    by_cases h : |v.val - old| > 1e-10
    · rw [if_pos h, if_pos h, ih, step_val]
    · rw [if_neg h, if_neg h]

/-- The solver over reals. -/
noncomputable def vol (P vt K kp kpp v0 : ℝ) : ℝ :=
  nloop (fun v => bmP vt K kp kpp v - P) (bmD vt K kp kpp) 49 (nstep (fun v => bmP vt K kp kpp v - P) (bmD vt K kp kpp) v0) v0

lemma volume_val (P vt K kp kpp v0 : TS) : (volume P vt K kp kpp v0).val = vol P.val vt.val K.val kp.val kpp.val v0.val := by
  unfold volume vol
  rw [loop_val, step_val]

/-! ### Derivatives -/

lemma cube_sub {vt v : ℝ} (hvt : 0 < vt) (hv : 0 < v) : ∃ y, 0 < y ∧ (vt / v) ^ (1 / 3 : ℝ) = y ∧ (vt / v) ^ (2 / 3 : ℝ) = y ^ 2 ∧
    (vt / v) ^ (5 / 3 : ℝ) = y ^ 5 ∧ vt = v * y ^ 3 := by
  have hx : 0 < vt / v := div_pos hvt hv
  refine ⟨(vt / v) ^ (1 / 3 : ℝ), Real.rpow_pos_of_pos hx _, rfl, ?_, ?_, ?_⟩
  · rw [← Real.rpow_natCast, ← Real.rpow_mul hx.le]; norm_num
  · rw [← Real.rpow_natCast, ← Real.rpow_mul hx.le]; norm_num
  · rw [← Real.rpow_natCast, ← Real.rpow_mul hx.le]; norm_num; field_simp

lemma deriv_x {vt v : ℝ} (hvt : 0 < vt) (hv : 0 < v) (q : ℝ) :
    HasDerivAt (fun v => (vt / v) ^ q) (-q * (vt / v) ^ q / v) v := by
  have hx : 0 < vt / v := div_pos hvt hv
  have h1 : HasDerivAt (fun v => vt / v) (-(vt / v) / v) v := by
    have := (hasDerivAt_const v vt).fun_div (hasDerivAt_id' v) hv.ne'
    refine this.congr_deriv ?_
    field_simp; ring
  have := h1.rpow_const (p := q) (Or.inl hx.ne')
  refine this.congr_deriv ?_
  rw [Real.rpow_sub_one hx.ne']
  field_simp

lemma bmP_deriv {vt v : ℝ} (hvt : 0 < vt) (hv : 0 < v) (K kp kpp : ℝ) :
    HasDerivAt (fun v => bmP vt K kp kpp v) (bmD vt K kp kpp v) v := by
  have h2 := deriv_x hvt hv (2 / 3)
  have h5 := deriv_x hvt hv (5 / 3)
  have hs := h2.sub_const 1
  have hb := ((hs.const_mul (3 / 4 * (kp - 4))).const_add 1).fun_add
    (((hs.const_mul (3 / 8 * (143 / 9 - 7 * kp + kp * kp + kpp * K))).fun_mul hs))
  have := ((hb.const_mul (3 / 2 * K)).fun_mul hs).fun_mul h5
  refine this.congr_deriv ?_
  obtain ⟨y, hy, e1, e2, e3, e4⟩ := cube_sub hvt hv
  unfold bmD
  rw [e1, e2, e3]
  subst e4
  field_simp
  ring

lemma bmInt_deriv {vt v : ℝ} (hvt : 0 < vt) (hv : 0 < v) (K kp kpp : ℝ) :
    HasDerivAt (fun v => bmInt vt K kp kpp v) (bmP vt K kp kpp v) v := by
  have h1 := deriv_x hvt hv (1 / 3)
  have h2 := deriv_x hvt hv (2 / 3)
  have hv1 := hasDerivAt_id' v
  have a1 := ((hv1.const_mul (6 * (199 - 75 * kp + 9 * kp * kp + 9 * kpp * K))).mul_const vt).fun_mul h1
  have a2 := (((((h2.const_mul 63).const_sub 276).const_mul kp).const_add (-668)).fun_add
    ((h2.const_add (-4)).const_mul (9 * kp * kp))).fun_add ((h2.const_add (-4)).const_mul (9 * kpp * K))
  have a2 := (a2.fun_add (h2.const_mul 143)).const_mul (vt * vt)
  have a3 := (((((h2.const_mul 36).const_sub 9).const_mul (kp * kp)).const_add 287).fun_add
    (((h2.const_mul 4).const_sub 1).const_mul (9 * kpp * K))).fun_sub (h2.const_mul 956)
  have a3 := (hv1.fun_mul hv1).fun_mul (a3.fun_add (((h2.const_mul 324).const_add (-87)).const_mul kp))
  have hd : HasDerivAt (fun v => 128 * v * v) (128 * v + 128 * v) v := by
    have := (hv1.const_mul 128).fun_mul hv1
    refine this.congr_deriv (by ring)
  have := (((a1.fun_add a2).fun_add a3).const_mul (-3 * K * vt)).fun_div hd (by positivity)
  refine this.congr_deriv ?_
  obtain ⟨y, hy, e1, e2, e3, e4⟩ := cube_sub hvt hv
  unfold bmP
  rw [e1, e2, e3]
  subst e4
  field_simp
  ring

lemma bmInt_self {vt : ℝ} (hvt : 0 < vt) (K kp kpp : ℝ) : bmInt vt K kp kpp vt = 0 := by
  unfold bmInt
  rw [div_self hvt.ne', Real.one_rpow, Real.one_rpow]
  field_simp
  ring

end ThermoFun.BM
