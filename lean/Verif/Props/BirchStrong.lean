import Verif.Props.BirchMurnaghan

/-!
# Strongly compressed solids

Theorems about /repo/ThermoFun/Substances/Solids/SolidBMGottschalk.cpp:31-59 as modelled in Model/BirchMurnaghan.lean: with the third-order equation
and K' ≥ 4 the volume approaches the solution from below, however far away the start is (C106).
-/

namespace ThermoFun.BM

open Set Topology Filter

section Newton

variable {f f' : ℝ → ℝ} {lo r m M : ℝ}

/-- A halved Newton step from below, towards the root of a function that falls ever more slowly. -/
lemma nstep_left (hf : ∀ u ∈ Icc lo r, HasDerivAt f (f' u) u) (hc : ∀ u ∈ Icc lo r, ∀ w ∈ Icc lo r, u ≤ w → f' u ≤ f' w) (hm : 0 < m)
    (hr : f' r ≤ -m) (hM : ∀ u ∈ Icc lo r, -M ≤ f' u) (h0 : f r = 0) {u : ℝ} (hu : u ∈ Icc lo r) :
    nstep f f' u ∈ Icc u r ∧ r - nstep f f' u ≤ (1 - m / (2 * M)) * (r - u) ∧
      (|nstep f f' u - u| ≤ 1e-10 → r - nstep f f' u ≤ 2e-10 * (M / m)) := by
  have hrr : r ∈ Icc lo r := right_mem_Icc.2 (hu.1.trans hu.2)
  have hfu : f' u ≤ -m := (hc u hu r hrr hu.2).trans hr
  have hMu := hM u hu
  have hMpos : 0 < M := by linarith
  have hMm : m ≤ M := by linarith
  rcases hu.2.eq_or_lt with e | hlt
  · have : nstep f f' u = u := by unfold nstep; rw [e, h0]; ring
    rw [this, e, sub_self, mul_zero]
    exact ⟨⟨le_rfl, le_rfl⟩, le_rfl, fun _ => by positivity⟩
  have hsub : Icc u r ⊆ Icc lo r := Icc_subset_Icc_left hu.1
  obtain ⟨c, hcm, hcs⟩ := exists_hasDerivAt_eq_slope f f' hlt
    (fun x hx => (hf x (hsub hx)).continuousAt.continuousWithinAt) (fun x hx => hf x (hsub (Ioo_subset_Icc_self hx)))
  have hcI := hsub (Ioo_subset_Icc_self hcm)
  have h1 := hc u hu c hcI hcm.1.le
  have h2 := hc c hcI r hrr hcm.2.le
  have hru : 0 < r - u := by linarith
  rw [h0, eq_div_iff hru.ne'] at hcs
  -- the ratio of the slopes
  have hne : f' u ≠ 0 := by linarith
  obtain ⟨k, hk⟩ : ∃ k, k = f' c / f' u := ⟨_, rfl⟩
  have hkc : f' c = k * f' u := by rw [hk]; field_simp
  have hk1 : k ≤ 1 := by
    rw [hk, div_le_one_of_neg (by linarith)]; exact h1
  have hk0 : m / M ≤ k := by
    rw [hk, ← neg_div_neg_eq (f' c), div_le_div_iff₀ hMpos (by linarith)]
    nlinarith
  have hkp : 0 < k := lt_of_lt_of_le (by positivity) hk0
  have hw : nstep f f' u = u + k / 2 * (r - u) := by
    unfold nstep
    have : f u = -(k * f' u * (r - u)) := by rw [← hkc]; linarith
    rw [this]; field_simp; ring
  refine ⟨⟨?_, ?_⟩, ?_, fun h => ?_⟩
  · rw [hw]; nlinarith
  · rw [hw]; nlinarith
  · rw [hw]
    have : m / (2 * M) = m / M / 2 := by field_simp
    rw [this]; nlinarith
  · have h3 : nstep f f' u - u = k / 2 * (r - u) := by rw [hw]; ring
    rw [h3, abs_of_pos (by positivity)] at h
    have h4 : r - nstep f f' u ≤ r - u := by rw [hw]; nlinarith
    refine h4.trans ?_
    have h5 : m / M * (r - u) ≤ 2e-10 := by nlinarith
    have h6 : r - u = M / m * (m / M * (r - u)) := by field_simp
    rw [h6, mul_comm (2e-10 : ℝ)]
    exact mul_le_mul_of_nonneg_left h5 (by positivity)

lemma nloop_left (hf : ∀ u ∈ Icc lo r, HasDerivAt f (f' u) u) (hc : ∀ u ∈ Icc lo r, ∀ w ∈ Icc lo r, u ≤ w → f' u ≤ f' w) (hm : 0 < m)
    (hr : f' r ≤ -m) (hM : ∀ u ∈ Icc lo r, -M ≤ f' u) (h0 : f r = 0) (n : Nat) :
    ∀ u old, u ∈ Icc lo r → (|u - old| ≤ 1e-10 → r - u ≤ 2e-10 * (M / m)) →
      nloop f f' n u old ∈ Icc u r ∧ (r - nloop f f' n u old ≤ 2e-10 * (M / m) ∨ r - nloop f f' n u old ≤ (1 - m / (2 * M)) ^ n * (r - u)) := by
  induction n with
  | zero => intro u old hu h; exact ⟨by unfold nloop; exact ⟨le_rfl, hu.2⟩, Or.inr (by simp [nloop])⟩
  | succ n ih =>
    intro u old hu h
    have hrr : r ∈ Icc lo r := right_mem_Icc.2 (hu.1.trans hu.2)
    have hMm : m ≤ M := by linarith [hM r hrr]
    have hq : 0 ≤ 1 - m / (2 * M) := by
      rw [sub_nonneg, div_le_one (by linarith)]; linarith
    unfold nloop
    by_cases hgt : |u - old| > 1e-10
    · rw [if_pos hgt]
      obtain ⟨a, b, c⟩ := nstep_left hf hc hm hr hM h0 hu
      obtain ⟨d, e⟩ := ih (nstep f f' u) u ⟨hu.1.trans a.1, a.2⟩ c
      refine ⟨⟨a.1.trans d.1, d.2⟩, ?_⟩
      rcases e with e | e
      · exact Or.inl e
      · right
        refine e.trans ?_
        rw [pow_succ, mul_assoc]
        exact mul_le_mul_of_nonneg_left b (pow_nonneg hq n)
    · rw [if_neg hgt]
      exact ⟨⟨le_rfl, hu.2⟩, Or.inl (h (not_lt.mp hgt))⟩

end Newton

/-- The slope of the third-order equation in terms of y = (vt/v)^(1/3), but for the factor -K/(2 vt). -/
noncomputable def slopeY (c y : ℝ) : ℝ := y ^ 8 * (7 * y ^ 2 - 5) + c * (y ^ 8 * ((9 * y ^ 2 - 5) * (y ^ 2 - 1)))

lemma slopeY_mono {c y z : ℝ} (hc : 0 ≤ c) (hy : 1 ≤ y) (hz : y ≤ z) : slopeY c y ≤ slopeY c z := by
  have h2 : y ^ 2 ≤ z ^ 2 := pow_le_pow_left₀ (by linarith) hz 2
  have h8 : y ^ 8 ≤ z ^ 8 := pow_le_pow_left₀ (by linarith) hz 8
  have h1 : 1 ≤ y ^ 2 := one_le_pow₀ hy
  have hp : 0 ≤ y ^ 8 := by positivity
  unfold slopeY
  refine add_le_add (mul_le_mul h8 (by linarith) (by linarith) (by positivity)) (mul_le_mul_of_nonneg_left ?_ hc)
  exact mul_le_mul h8 (mul_le_mul (by linarith) (by linarith) (by linarith) (by linarith)) (mul_nonneg (by linarith) (by linarith)) (by positivity)

lemma slopeY_pos {c y : ℝ} (hc : 0 ≤ c) (hy : 1 ≤ y) : 0 < slopeY c y := by
  refine lt_of_lt_of_le ?_ (slopeY_mono hc le_rfl hy)
  unfold slopeY; norm_num

lemma third_D {vt K K1 K2 v y : ℝ} (hv : 0 < v) (h3 : K * K2 + (K1 - 4) * (K1 - 3) + 35 / 9 = 0) (e1 : (vt / v) ^ (1 / 3 : ℝ) = y)
    (e2 : (vt / v) ^ (2 / 3 : ℝ) = y ^ 2) (e4 : vt = v * y ^ 3) (hvt : 0 < vt) :
    bmD vt K K1 K2 v = -(K / (2 * vt) * slopeY (3 / 4 * (K1 - 4)) y) := by
  have hk : K2 * K = -((K1 - 4) * (K1 - 3) + 35 / 9) := by linear_combination h3
  have hy : y ≠ 0 := by
    rintro rfl
    rw [e4] at hvt; norm_num at hvt
  unfold bmD slopeY
  rw [e1, e2, mul_assoc 9 K2 K, hk]
  subst e4
  field_simp
  ring

lemma y_anti {vt v w y z : ℝ} (hv : 0 < v) (hz : 0 < z) (hvt : 0 < vt) (hvw : v ≤ w) (e : vt = v * y ^ 3) (e' : vt = w * z ^ 3) : z ≤ y := by
  by_contra hn
  push Not at hn
  rcases le_or_gt y 0 with hy | hy
  · have : y ^ 3 ≤ 0 := by nlinarith [sq_nonneg y]
    nlinarith
  have h3 : y ^ 3 < z ^ 3 := pow_lt_pow_left₀ hn hy.le (by norm_num)
  have : 0 < z ^ 3 := by positivity
  nlinarith

/-- **C106** (strong compression): with the third-order equation (the second derivative of the bulk modulus the program takes if none is given) and
K' ≥ 4, if the start lies below the solution `r`, which is at most the volume at zero pressure, the volume returned lies between the start and the
solution.  With q the ratio of the slopes of the pressure at the start and at the solution, it differs from the solution by at most 2q·10⁻¹⁰ cm³/mol,
or by the error of the start times (1 - 1/(2q))⁵⁰.
Missing from C106: K' < 4 or a second derivative that is given, with a slope that varies by more than a factor of two; starts above the solution with
such a slope. -/
theorem C106_below_partial (P vt K K1 K2 v0 : TS) (r d0 dr : ℝ) (hvt : 0 < vt.val) (hK : 0 < K.val) (h1 : 4 ≤ K1.val)
    (h3 : K.val * K2.val + (K1.val - 4) * (K1.val - 3) + 35 / 9 = 0) (hv0 : 0 < v0.val) (hv : v0.val ≤ r) (hr : r ≤ vt.val)
    (h0 : pressure vt.val K.val K1.val K2.val r = P.val) (hd0 : HasDerivAt (pressure vt.val K.val K1.val K2.val) d0 v0.val)
    (hdr : HasDerivAt (pressure vt.val K.val K1.val K2.val) dr r) :
    d0 ≤ dr ∧ dr < 0 ∧ v0.val ≤ (volume P vt K K1 K2 v0).val ∧ (volume P vt K K1 K2 v0).val ≤ r ∧
      (r - (volume P vt K K1 K2 v0).val ≤ 2e-10 * (d0 / dr) ∨ r - (volume P vt K K1 K2 v0).val ≤ (1 - dr / (2 * d0)) ^ 50 * (r - v0.val)) := by
  rw [volume_val]
  generalize vt.val = vt at *
  generalize K.val = K at *
  generalize K1.val = K1 at *
  generalize K2.val = K2 at *
  generalize P.val = P at *
  generalize v0.val = v0 at *
  have hc : (0 : ℝ) ≤ 3 / 4 * (K1 - 4) := by linarith
  have hD : ∀ v d, 0 < v → HasDerivAt (pressure vt K K1 K2) d v → d = bmD vt K K1 K2 v := fun v d hv hd =>
    HasDerivAt.unique hd ((bmP_deriv hvt hv K K1 K2).congr_of_eventuallyEq (Eventually.of_forall fun x => pressure_eq vt K K1 K2 x))
  have hr0 : 0 < r := hv0.trans_le hv
  rw [hD v0 d0 hv0 hd0, hD r dr hr0 hdr]
  have hmono : ∀ u ∈ Icc v0 r, ∀ w ∈ Icc v0 r, u ≤ w → bmD vt K K1 K2 u ≤ bmD vt K K1 K2 w := by
    intro u hu w hw huw
    have hu0 : 0 < u := hv0.trans_le hu.1
    have hw0 : 0 < w := hv0.trans_le hw.1
    obtain ⟨y, hy, a1, a2, -, a4⟩ := cube_sub hvt hu0
    obtain ⟨z, hz, b1, b2, -, b4⟩ := cube_sub hvt hw0
    rw [third_D hu0 h3 a1 a2 a4 hvt, third_D hw0 h3 b1 b2 b4 hvt]
    have hz1 : 1 ≤ z := y_anti hw0 one_pos hvt (hw.2.trans hr) b4 (by ring)
    have := slopeY_mono hc hz1 (y_anti hu0 hz hvt huw a4 b4)
    have : 0 ≤ K / (2 * vt) := by positivity
    nlinarith
  have hneg : bmD vt K K1 K2 r < 0 := by
    obtain ⟨z, hz, b1, b2, -, b4⟩ := cube_sub hvt hr0
    rw [third_D hr0 h3 b1 b2 b4 hvt]
    have hz1 : 1 ≤ z := y_anti hr0 one_pos hvt hr b4 (by ring)
    have := slopeY_pos hc hz1
    have : 0 < K / (2 * vt) := by positivity
    nlinarith
  have hl : v0 ∈ Icc v0 r := ⟨le_rfl, hv⟩
  have hrI : r ∈ Icc v0 r := ⟨hv, le_rfl⟩
  refine ⟨hmono v0 hl r hrI hv, hneg, ?_⟩
  have hf : ∀ u ∈ Icc v0 r, HasDerivAt (fun v => bmP vt K K1 K2 v - P) (bmD vt K K1 K2 u) u := fun u hu =>
    (bmP_deriv hvt (hv0.trans_le hu.1) K K1 K2).sub_const P
  have h0' : bmP vt K K1 K2 r - P = 0 := by rw [← pressure_eq, h0, sub_self]
  have hM : ∀ u ∈ Icc v0 r, -(-bmD vt K K1 K2 v0) ≤ bmD vt K K1 K2 u := fun u hu => by rw [neg_neg]; exact hmono v0 hl u hu hu.1
  have hm : 0 < -bmD vt K K1 K2 r := by linarith
  obtain ⟨a, b, c⟩ := nstep_left hf hmono hm (by rw [neg_neg]) hM h0' hl
  obtain ⟨d, e⟩ := nloop_left hf hmono hm (by rw [neg_neg]) hM h0' 49 _ v0 a c
  rw [neg_div_neg_eq] at e
  rw [mul_neg, neg_div_neg_eq] at e b
  refine ⟨a.1.trans d.1, d.2, ?_⟩
  rcases e with e | e
  · exact Or.inl e
  · right
    refine e.trans ?_
    have hle := hmono v0 hl r hrI hv
    have hq : 0 ≤ 1 - bmD vt K K1 K2 r / (2 * bmD vt K K1 K2 v0) := by
      rw [sub_nonneg, ← neg_div_neg_eq, div_le_one (by linarith)]; linarith
    rw [show (1 - bmD vt K K1 K2 r / (2 * bmD vt K K1 K2 v0)) ^ 50 = (1 - bmD vt K K1 K2 r / (2 * bmD vt K K1 K2 v0)) ^ 49
      * (1 - bmD vt K K1 K2 r / (2 * bmD vt K K1 K2 v0)) from pow_succ _ 49, mul_assoc]
    exact mul_le_mul_of_nonneg_left b (pow_nonneg hq _)

/-- **C106** (start): with the third-order equation, K' ≥ 4 and the reference pressure neglected, the start of the program, vt·exp(-P/K), lies below the
solution: its pressure is at least P. -/
theorem C106_start_partial (vt K K1 K2 P : ℝ) (hvt : 0 < vt) (hK : 0 < K) (h1 : 4 ≤ K1) (h3 : K * K2 + (K1 - 4) * (K1 - 3) + 35 / 9 = 0) (hP : 0 ≤ P) :
    P ≤ pressure vt K K1 K2 (vt * Real.exp (-1 / K * P)) ∧
      ∃ r, vt * Real.exp (-1 / K * P) ≤ r ∧ r ≤ vt ∧ pressure vt K K1 K2 r = P := by
  have hs0 : 0 < vt * Real.exp (-1 / K * P) := by positivity
  have hle : vt * Real.exp (-1 / K * P) ≤ vt := by
    have : Real.exp (-1 / K * P) ≤ 1 := by
      rw [Real.exp_le_one_iff]
      have : 0 ≤ P / K := by positivity
      rw [show -1 / K * P = -(P / K) by ring]; linarith
    nlinarith
  have key : P ≤ pressure vt K K1 K2 (vt * Real.exp (-1 / K * P)) := by
    obtain ⟨y, hy, -, e2, e5, e4⟩ := cube_sub hvt hs0
    have hy1 : 1 ≤ y := y_anti hs0 one_pos hvt hle e4 (by ring)
    have hlog : P = 3 * K * Real.log y := by
      have h := congrArg Real.log e4
      rw [Real.log_mul hs0.ne' (by positivity), Real.log_mul hvt.ne' (Real.exp_pos _).ne', Real.log_exp, Real.log_pow] at h
      push_cast at h
      field_simp at h
      linarith
    have hl := Real.log_le_sub_one_of_pos hy
    unfold pressure
    dsimp only
    rw [show K * K2 + (K1 - 4) * (K1 - 3) + 35 / 9 = 0 from h3, e2, e5]
    have hx : 0 ≤ y ^ 2 - 1 := by nlinarith
    have h5 : 1 ≤ y ^ 5 := one_le_pow₀ hy1
    have hb : 1 ≤ 1 + 3 / 4 * (K1 - 4) * (y ^ 2 - 1) + 3 / 8 * 0 * (y ^ 2 - 1) ^ 2 := by
      have : 0 ≤ 3 / 4 * (K1 - 4) * (y ^ 2 - 1) := mul_nonneg (by linarith) hx
      linarith
    calc P = 3 * K * Real.log y := hlog
      _ ≤ 3 / 2 * K * (y ^ 2 - 1) := by nlinarith [mul_nonneg hK.le (sq_nonneg (y - 1))]
      _ ≤ 3 / 2 * K * (y ^ 2 - 1) * y ^ 5 := le_mul_of_one_le_right (by positivity) h5
      _ ≤ _ := le_mul_of_one_le_right (by positivity) hb
  refine ⟨key, ?_⟩
  have hcont : ContinuousOn (pressure vt K K1 K2) (Icc (vt * Real.exp (-1 / K * P)) vt) := by
    intro v hv
    have := (bmP_deriv hvt (hs0.trans_le hv.1) K K1 K2).congr_of_eventuallyEq (f₁ := pressure vt K K1 K2)
      (Eventually.of_forall fun x => pressure_eq vt K K1 K2 x)
    exact this.continuousAt.continuousWithinAt
  have hend : pressure vt K K1 K2 vt = 0 := by
    unfold pressure; rw [div_self hvt.ne', Real.one_rpow]; norm_num
  obtain ⟨r, hr, hr2⟩ := intermediate_value_Icc' hle hcont (show P ∈ Icc (pressure vt K K1 K2 vt) _ from ⟨by rw [hend]; exact hP, key⟩)
  exact ⟨r, hr.1, hr.2, hr2⟩

/-- **C166** (Birch-Murnaghan): with the third-order equation and K' ≥ 4 the volume that solves the equation of state shrinks with pressure.
Missing from C166: the volume of the program, which is the solution only within the errors of C106; K' < 4. -/
theorem C166_birch_partial (vt K K1 K2 P1 P2 r1 r2 : ℝ) (hvt : 0 < vt) (hK : 0 < K) (h1 : 4 ≤ K1) (h3 : K * K2 + (K1 - 4) * (K1 - 3) + 35 / 9 = 0)
    (hr1 : 0 < r1) (hr1' : r1 ≤ vt) (hr2 : 0 < r2) (hr2' : r2 ≤ vt) (e1 : pressure vt K K1 K2 r1 = P1) (e2 : pressure vt K K1 K2 r2 = P2) (h : P1 < P2) :
    r2 < r1 := by
  have hc : (0 : ℝ) ≤ 3 / 4 * (K1 - 4) := by linarith
  have hanti : StrictAntiOn (pressure vt K K1 K2) (Icc (min r1 r2) vt) := by
    have hd : ∀ x ∈ Icc (min r1 r2) vt, HasDerivAt (pressure vt K K1 K2) (bmD vt K K1 K2 x) x ∧ bmD vt K K1 K2 x < 0 := by
      intro x hx
      have hx0 : 0 < x := (lt_min hr1 hr2).trans_le hx.1
      refine ⟨(bmP_deriv hvt hx0 K K1 K2).congr_of_eventuallyEq (Eventually.of_forall fun x => pressure_eq vt K K1 K2 x), ?_⟩
      obtain ⟨z, hz, b1, b2, -, b4⟩ := cube_sub hvt hx0
      rw [third_D hx0 h3 b1 b2 b4 hvt]
      have hz1 : 1 ≤ z := y_anti hx0 one_pos hvt hx.2 b4 (by ring)
      have := slopeY_pos hc hz1
      have : 0 < K / (2 * vt) := by positivity
      nlinarith
    refine strictAntiOn_of_deriv_neg (convex_Icc _ _) (fun x hx => (hd x hx).1.continuousAt.continuousWithinAt) fun x hx => ?_
    have hx' := interior_subset hx
    rw [(hd x hx').1.deriv]; exact (hd x hx').2
  by_contra hn
  push Not at hn
  have := hanti.antitoneOn ⟨min_le_left _ _, hr1'⟩ ⟨min_le_right _ _, hr2'⟩ hn
  rw [e1, e2] at this
  linarith

/-- Solutions exist at every pressure. -/
example : ∃ r1 r2, pressure 10 1000 4 exK2 r1 = 500 ∧ pressure 10 1000 4 exK2 r2 = 1000 ∧ r2 < r1 := by
  obtain ⟨-, r1, a1, a2, a3⟩ := C106_start_partial 10 1000 4 exK2 500 (by norm_num) (by norm_num) le_rfl (by unfold exK2; norm_num) (by norm_num)
  obtain ⟨-, r2, b1, b2, b3⟩ := C106_start_partial 10 1000 4 exK2 1000 (by norm_num) (by norm_num) le_rfl (by unfold exK2; norm_num) (by norm_num)
  have p : ∀ x : ℝ, 0 < 10 * Real.exp x := fun x => by positivity
  exact ⟨r1, r2, a3, b3, C166_birch_partial 10 1000 4 exK2 500 1000 r1 r2 (by norm_num) (by norm_num) le_rfl (by unfold exK2; norm_num)
    ((p _).trans_le a1) a2 ((p _).trans_le b1) b2 a3 b3 (by norm_num)⟩

/-- A solid of 10 cm³/mol compressed to 10/1.1³ cm³/mol from a start at 10/1.2³ cm³/mol: the slopes differ by a factor of almost three, and the volume
is found to 10⁻⁴ of the error of the start. -/
example : ∃ r : ℝ, r = 10 / 1.1 ^ 3 ∧ (volume (TS.ofVal (pressure 10 1000 4 exK2 r)) (TS.ofVal 10) (TS.ofVal 1000) (TS.ofVal 4) (TS.ofVal exK2)
    (TS.ofVal (10 / 1.2 ^ 3))).val ≤ r ∧ r - (volume (TS.ofVal (pressure 10 1000 4 exK2 r)) (TS.ofVal 10) (TS.ofVal 1000) (TS.ofVal 4) (TS.ofVal exK2)
    (TS.ofVal (10 / 1.2 ^ 3))).val ≤ 1e-4 * (r - 10 / 1.2 ^ 3) := by
  refine ⟨_, rfl, ?_⟩
  have hD : ∀ y : ℝ, 0 < y → HasDerivAt (pressure 10 1000 4 exK2) (-(1000 / (2 * 10) * slopeY (3 / 4 * (4 - 4)) y)) (10 / y ^ 3) := by
    intro y hy
    have hv : 0 < 10 / y ^ 3 := by positivity
    obtain ⟨z, hz, e1, e2, -, e4⟩ := cube_sub (vt := 10) (by norm_num) hv
    have ey : (10 : ℝ) = 10 / y ^ 3 * y ^ 3 := by field_simp
    have hzy : z = y := le_antisymm (y_anti hv hz (by norm_num) le_rfl ey e4) (y_anti hv hy (by norm_num) le_rfl e4 ey)
    rw [hzy] at e1 e2 e4
    rw [← third_D (K2 := exK2) hv (by unfold exK2; norm_num) e1 e2 e4 (by norm_num)]
    exact (bmP_deriv (by norm_num) hv 1000 4 exK2).congr_of_eventuallyEq (Eventually.of_forall fun x => pressure_eq 10 1000 4 exK2 x)
  obtain ⟨-, -, -, h2, h3⟩ := C106_below_partial (TS.ofVal (pressure 10 1000 4 exK2 (10 / 1.1 ^ 3))) (TS.ofVal 10) (TS.ofVal 1000) (TS.ofVal 4) (TS.ofVal exK2)
    (TS.ofVal (10 / 1.2 ^ 3)) (10 / 1.1 ^ 3) _ _ (by rw [TS.val_ofVal]; norm_num) (by rw [TS.val_ofVal]; norm_num) (by rw [TS.val_ofVal])
    (by simp only [TS.val_ofVal]; unfold exK2; norm_num) (by rw [TS.val_ofVal]; norm_num) (by rw [TS.val_ofVal]; norm_num)
    (by rw [TS.val_ofVal]; norm_num) rfl (by simp only [TS.val_ofVal]; exact hD 1.2 (by norm_num)) (by simp only [TS.val_ofVal]; exact hD 1.1 (by norm_num))
  refine ⟨h2, ?_⟩
  rcases h3 with h3 | h3
  · refine h3.trans ?_
    unfold slopeY; norm_num
  · refine h3.trans ?_
    rw [TS.val_ofVal]
    refine mul_le_mul_of_nonneg_right ?_ (by norm_num)
    unfold slopeY; norm_num

/-- The start at 1000 MPa, where P = K. -/
example : ∃ r, 10 * Real.exp (-1 / 1000 * 1000) ≤ r ∧ r ≤ 10 ∧ pressure 10 1000 4 exK2 r = 1000 :=
  (C106_start_partial 10 1000 4 exK2 1000 (by norm_num) (by norm_num) le_rfl (by unfold exK2; norm_num) (by norm_num)).2

end ThermoFun.BM
