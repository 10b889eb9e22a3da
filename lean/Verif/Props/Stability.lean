import Verif.Props.GasIdeal
import Verif.Props.Solids
import Mathlib.Analysis.Calculus.Deriv.MeanValue

/-!
# Volumes decrease with pressure

Theorems about the volumes of gases (/repo/ThermoFun/Substances/Gases/s_solmod2_.cpp:487-581, 2884-2971, 3692-3786, as modelled in
Model/Gas.lean) and of solids (SolidMurnaghanHP98.cpp, SolidBerman88.cpp, as modelled in Model/Substance.lean): the state
returned is mechanically stable (C166).
-/

namespace ThermoFun.Gas

open Topology Filter

/-- The pressure of the equation of state falls as the volume grows. -/
def Yields (pressure : ℝ → ℝ) (v : ℝ) : Prop := ∃ d, HasDerivAt pressure d v ∧ d < 0

/-- The general two-parameter equation of state. -/
noncomputable def eosP (u w R a b T v : ℝ) : ℝ := R * T / (v - b) - a / ((v + u * b) * (v + w * b))

lemma eosP_deriv {u w R a b T v : ℝ} (h0 : b < v) (h1 : 0 < v + u * b) (h2 : 0 < v + w * b) :
    HasDerivAt (eosP u w R a b T) (-R * T / (v - b) ^ 2 + a * (2 * v + (u + w) * b) / ((v + u * b) * (v + w * b)) ^ 2) v := by
  unfold eosP
  have d0 : HasDerivAt (fun x : ℝ => x - b) 1 v := (hasDerivAt_id' v).sub_const b
  have d1 : HasDerivAt (fun x : ℝ => x + u * b) 1 v := (hasDerivAt_id' v).add_const _
  have d2 : HasDerivAt (fun x : ℝ => x + w * b) 1 v := (hasDerivAt_id' v).add_const _
  have hx : v - b ≠ 0 := by linarith
  have := ((hasDerivAt_const v (R * T)).fun_div d0 hx).fun_sub ((hasDerivAt_const v a).fun_div (d1.fun_mul d2) (mul_pos h1 h2).ne')
  refine this.congr_deriv ?_
  ring

/-- If a pressure is met by one volume above b only, then with a negative slope. -/
lemma slope_of_unique {u w R a b T P v : ℝ} (hR : 0 < R) (hT : 0 < T) (hP : 0 < P) (ha : 0 ≤ a) (hb : 0 < b) (hu : 0 < 1 + u)
    (hw : 0 < 1 + w) (hv : b < v) (he : P = eosP u w R a b T v) (huniq : ∀ x, b < x → P = eosP u w R a b T x → x = v)
    (hs : -R * T / (v - b) ^ 2 + a * (2 * v + (u + w) * b) / ((v + u * b) * (v + w * b)) ^ 2 ≠ 0) :
    -R * T / (v - b) ^ 2 + a * (2 * v + (u + w) * b) / ((v + u * b) * (v + w * b)) ^ 2 < 0 := by
  have hpos : ∀ k : ℝ, 0 < 1 + k → ∀ x, b < x → 0 < x + k * b := fun k hk x hx => by nlinarith
  have hd := eosP_deriv (R := R) (a := a) (T := T) hv (hpos u hu v hv) (hpos w hw v hv)
  set d := -R * T / (v - b) ^ 2 + a * (2 * v + (u + w) * b) / ((v + u * b) * (v + w * b)) ^ 2 with hdd
  by_contra hn
  have hd0 : 0 < d := lt_of_le_of_ne (not_lt.mp hn) (Ne.symm hs)
  -- above P just to the right
  obtain ⟨x, hx1, hx2⟩ : ∃ x, v < x ∧ P < eosP u w R a b T x := by
    have hev : ∀ᶠ x in 𝓝[>] v, 0 < slope (eosP u w R a b T) v x :=
      ((hasDerivAt_iff_tendsto_slope.1 hd).mono_left (nhdsWithin_mono _ (fun x (hx : v < x) => hx.ne'))).eventually (lt_mem_nhds hd0)
    obtain ⟨x, hx, hx'⟩ := (hev.and self_mem_nhdsWithin).exists
    refine ⟨x, hx', ?_⟩
    have hxv : 0 < x - v := sub_pos.2 hx'
    rw [slope_def_field, div_pos_iff_of_pos_right hxv] at hx
    linarith
  -- below P far to the right
  have hbig : eosP u w R a b T (max x (b + R * T / P + 1)) < P := by
    have h1 : b + R * T / P + 1 ≤ max x (b + R * T / P + 1) := le_max_right _ _
    have hbx : b < max x (b + R * T / P + 1) := by have : 0 < R * T / P := by positivity
                                                   linarith
    unfold eosP
    generalize max x (b + R * T / P + 1) = X at *
    have h2 := mul_pos (hpos u hu _ hbx) (hpos w hw _ hbx)
    have h3 : 0 ≤ a / ((X + u * b) * (X + w * b)) := by positivity
    have h4 : R * T / (X - b) < P := by
      rw [div_lt_iff₀ (by linarith)]
      have : R * T / P < X - b := by linarith
      rw [div_lt_iff₀ hP] at this
      linarith
    linarith
  have hcont : ContinuousOn (eosP u w R a b T) (Set.Icc x (max x (b + R * T / P + 1))) := by
    intro y hy
    exact (eosP_deriv (lt_of_lt_of_le (hv.trans hx1) hy.1) (hpos u hu _ (lt_of_lt_of_le (hv.trans hx1) hy.1))
      (hpos w hw _ (lt_of_lt_of_le (hv.trans hx1) hy.1))).continuousAt.continuousWithinAt
  obtain ⟨y, hy, hyP⟩ := intermediate_value_Icc' (le_max_left _ _) hcont ⟨hbig.le, hx2.le⟩
  have := huniq y (lt_of_lt_of_le (hv.trans hx1) hy.1) hyP.symm
  have h5 := hy.1
  linarith

lemma prPressure_eos (a b T : ℝ) : prPressure a b T = eosP (1 + Real.sqrt 2) (1 - Real.sqrt 2) Rgas a b T := funext fun v => pr_pressure a b T v
lemma srkPressure_eos (a b T : ℝ) : srkPressure a b T = eosP 1 0 Rgas a b T := funext fun v => srk_pressure a b T v

/-- **C166** (Peng-Robinson, one real root): at the volume returned the pressure of the equation of state falls with the volume.
Missing from C166: three real roots with the literal for π (see `C166_choice_pr_partial` for exact roots), other models than Peng-Robinson,
SRK and Murnaghan; see also the refutation. -/
theorem C166_pr_partial (c T P Tc Pc : ℝ) (p : AB) (hT : 0 < T) (hP : 0 < P) (ha : 0 ≤ p.a) (hb : 0 < p.b) (h : PrSingle p.a p.b T P) :
    ∃ f, prPure c T P Tc Pc p = some f ∧ 0 < f.v ∧ Yields (prPressure p.a p.b T) f.v := by
  obtain ⟨f, h1, h2, h3, h4⟩ := C100_pr_partial c T P Tc Pc p hT hP ha hb h
  have r := pr_rootOf hT hP ha hb h.one
  have e : f.v = prZ p.a p.b T P * Rgas * T / P := by
    have := prPure_one (c := c) (Tc := Tc) (Pc := Pc) hT hP ha hb h.one
    rw [h1] at this
    rw [Option.some.inj this]
    rfl
  have hs := r.slope
  rw [← e] at hs
  rw [prPressure_eos] at h3 h4 ⊢
  have hu : 0 < 1 + (1 + Real.sqrt 2) := by linarith [sqrt2_pos]
  have hw : 0 < 1 + (1 - Real.sqrt 2) := by linarith [sqrt2_lt]
  exact ⟨f, h1, hb.trans h2, _, eosP_deriv h2 (by nlinarith) (by nlinarith),
    slope_of_unique Rpos hT hP ha hb hu hw h2 h3 h4 hs⟩

/-- **C166** (SRK, one real root): the same. -/
theorem C166_srk_partial (T P : ℝ) (p : AB) (hT : 0 < T) (hP : 0 < P) (ha : 0 ≤ p.a) (hb : 0 < p.b) (h : SrkSingle p.a p.b T P) :
    ∃ f, srkPure T P p = some f ∧ 0 < f.v ∧ Yields (srkPressure p.a p.b T) f.v := by
  obtain ⟨f, h1, h2, h3, h4⟩ := C100_srk_partial T P p hT hP ha hb h
  have r := srk_rootOf hT hP ha hb h.one
  have e : f.v = srkZ p.a p.b T P * Rgas * T / P := by
    have := srkPure_one hT hP ha hb h.one
    rw [h1] at this
    rw [Option.some.inj this]
    rfl
  have hs := r.slope
  rw [← e] at hs
  rw [srkPressure_eos] at h3 h4 ⊢
  exact ⟨f, h1, hb.trans h2, _, eosP_deriv h2 (by nlinarith) (by nlinarith),
    slope_of_unique Rpos hT hP ha hb (by norm_num) (by norm_num) h2 h3 h4 hs⟩

example : ∃ f, prPure 0.457235529 100 100 300 50 exAB = some f ∧ 0 < f.v ∧ Yields (prPressure exAB.a exAB.b 100) f.v :=
  C166_pr_partial 0.457235529 100 100 300 50 exAB (by norm_num) (by norm_num) exAB_vals.1 exAB_vals.2.1 exAB_pr

example : ∃ f, srkPure 100 100 exAB = some f ∧ 0 < f.v ∧ Yields (srkPressure exAB.a exAB.b 100) f.v :=
  C166_srk_partial 100 100 exAB (by norm_num) (by norm_num) exAB_vals.1 exAB_vals.2.1 exAB_srk

/-! ### The choice among three roots -/

lemma prLnPhi_deriv {A B z : ℝ} (hB : 0 < B) (hz : B < z) :
    HasDerivAt (prLnPhi A B) (1 - 1 / (z - B) + A / ((z + (1 + Real.sqrt 2) * B) * (z + (1 - Real.sqrt 2) * B))) z := by
  have h2 := sqrt2_pos
  have h2' := sqrt2_lt
  have hU : 0 < z + (1 + Real.sqrt 2) * B := by nlinarith
  have hW : 0 < z + (1 - Real.sqrt 2) * B := by nlinarith
  have hx : z - B ≠ 0 := by linarith
  unfold prLnPhi
  have d0 : HasDerivAt (fun x : ℝ => x - B) 1 z := (hasDerivAt_id' z).sub_const B
  have d1 : HasDerivAt (fun x : ℝ => x + (1 + Real.sqrt 2) * B) 1 z := (hasDerivAt_id' z).add_const _
  have d2 : HasDerivAt (fun x : ℝ => x + (1 - Real.sqrt 2) * B) 1 z := (hasDerivAt_id' z).add_const _
  have := (((hasDerivAt_id' z).sub_const 1).fun_sub (d0.log hx)).fun_sub
    (((d1.fun_div d2 hW.ne').log (div_pos hU hW).ne').const_mul (A / (2 * Real.sqrt 2 * B)))
  refine this.congr_deriv ?_
  field_simp
  ring

lemma srkLnPhi_deriv {A B z : ℝ} (hB : 0 < B) (hz : B < z) :
    HasDerivAt (srkLnPhi A B) (1 - 1 / (z - B) + A / ((z + 1 * B) * (z + 0 * B))) z := by
  have hz0 : 0 < z := hB.trans hz
  have hx : z - B ≠ 0 := by linarith
  unfold srkLnPhi
  have d0 : HasDerivAt (fun x : ℝ => x - B) 1 z := (hasDerivAt_id' z).sub_const B
  have hp : 0 < 1 + B / z := by positivity
  have := (((hasDerivAt_id' z).sub_const 1).fun_sub (d0.log hx)).fun_sub
    (((((hasDerivAt_const z B).fun_div (hasDerivAt_id' z) hz0.ne').const_add 1).log hp.ne').const_mul (A / B))
  refine this.congr_deriv ?_
  have hzB : z + B ≠ 0 := by positivity
  field_simp
  ring

/-- Between the roots ln φ has the sign of its slope that makes the middle root a maximum. -/
lemma middle_max {u w A B y1 y2 y3 : ℝ} {F : ℝ → ℝ} (hB : 0 < B) (hu : 0 < 1 + u) (hw : 0 < 1 + w) (h1 : B < y1) (h12 : y1 < y2) (h23 : y2 < y3)
    (hg : ∀ x, (x + u * B) * (x + w * B) * (x - B - 1) + A * (x - B) = (x - y1) * (x - y2) * (x - y3))
    (hF : ∀ z, B < z → HasDerivAt F (1 - 1 / (z - B) + A / ((z + u * B) * (z + w * B))) z) : F y1 < F y2 ∧ F y3 < F y2 := by
  have hd : ∀ z, B < z → 1 - 1 / (z - B) + A / ((z + u * B) * (z + w * B))
      = (z - y1) * (z - y2) * (z - y3) / ((z - B) * ((z + u * B) * (z + w * B))) := by
    intro z hz
    have hU : z + u * B ≠ 0 := by nlinarith
    have hW : z + w * B ≠ 0 := by nlinarith
    have hx : z - B ≠ 0 := by linarith
    rw [← hg z]
    generalize z + u * B = U at *
    generalize z + w * B = W at *
    generalize hX : z - B = X at *
    field_simp
  have hD : ∀ z, B < z → 0 < (z - B) * ((z + u * B) * (z + w * B)) := fun z hz =>
    mul_pos (by linarith) (mul_pos (by nlinarith) (by nlinarith))
  have hcont : ∀ a b, y1 ≤ a → ContinuousOn F (Set.Icc a b) := fun a b ha x hx =>
    (hF x (by linarith [hx.1])).continuousAt.continuousWithinAt
  constructor
  · refine strictMonoOn_of_deriv_pos (convex_Icc y1 y2) (hcont _ _ le_rfl) ?_ (Set.left_mem_Icc.2 h12.le) (Set.right_mem_Icc.2 h12.le) h12
    intro x hx
    rw [interior_Icc] at hx
    have hBx : B < x := h1.trans hx.1
    rw [(hF x hBx).deriv, hd x hBx]
    refine div_pos ?_ (hD x hBx)
    have e1 : 0 < x - y1 := by linarith [hx.1]
    have e2 : 0 < y2 - x := by linarith [hx.2]
    have e3 : 0 < y3 - x := by linarith [hx.2]
    have := mul_pos (mul_pos e1 e2) e3
    linarith
  · refine strictAntiOn_of_deriv_neg (convex_Icc y2 y3) (hcont _ _ h12.le) ?_ (Set.left_mem_Icc.2 h23.le) (Set.right_mem_Icc.2 h23.le) h23
    intro x hx
    rw [interior_Icc] at hx
    have hBx : B < x := by linarith [hx.1]
    rw [(hF x hBx).deriv, hd x hBx]
    refine div_neg_of_neg_of_pos ?_ (hD x hBx)
    have e1 : 0 < x - y1 := by linarith [hx.1]
    have e2 : 0 < x - y2 := by linarith [hx.1]
    have e3 : 0 < y3 - x := by linarith [hx.2]
    have := mul_pos (mul_pos e1 e2) e3
    linarith

lemma pick_not_middle {lnf : ℝ → ℝ} {B y1 y2 y3 : ℝ} (h1 : B < y1) (h12 : y1 < y2) (h23 : y2 < y3) (h : lnf y1 < lnf y2 ∧ lnf y3 < lnf y2) :
    (pick lnf B y1 y3 y2).1 = y1 ∧ lnf y1 ≤ lnf y3 ∨ (pick lnf B y1 y3 y2).1 = y3 ∧ lnf y3 < lnf y1 := by
  have e : ∀ y, B < y → lnfOr lnf B y = lnf y := fun y hy => by unfold lnfOr; rw [if_pos hy]
  unfold pick
  simp only [e y1 h1, e y2 (h1.trans h12), e y3 (h1.trans (h12.trans h23))]
  by_cases hc : lnf y3 < lnf y1
  · rw [if_pos hc, if_neg (by dsimp only; linarith [h.2])]
    exact .inr ⟨rfl, hc⟩
  · rw [if_neg hc, if_neg (by dsimp only; linarith [h.1])]
    exact .inl ⟨rfl, not_lt.mp hc⟩

lemma factor {a2 a1 a0 y1 y2 y3 : ℝ} (h1 : cubic a2 a1 a0 y1 = 0) (h2 : cubic a2 a1 a0 y2 = 0) (h3 : cubic a2 a1 a0 y3 = 0) (h12 : y1 < y2)
    (h23 : y2 < y3) (x : ℝ) : cubic a2 a1 a0 x = (x - y1) * (x - y2) * (x - y3) := by
  unfold cubic at *
  have e1 : (y2 ^ 2 + y2 * y1 + y1 ^ 2) + a2 * (y2 + y1) + a1 = 0 := by
    have : (y2 - y1) * ((y2 ^ 2 + y2 * y1 + y1 ^ 2) + a2 * (y2 + y1) + a1) = 0 := by linear_combination h2 - h1
    exact (mul_eq_zero.1 this).resolve_left (by linarith)
  have e2 : (y3 ^ 2 + y3 * y1 + y1 ^ 2) + a2 * (y3 + y1) + a1 = 0 := by
    have : (y3 - y1) * ((y3 ^ 2 + y3 * y1 + y1 ^ 2) + a2 * (y3 + y1) + a1) = 0 := by linear_combination h3 - h1
    exact (mul_eq_zero.1 this).resolve_left (by linarith)
  have e3 : a2 = -(y1 + y2 + y3) := by
    have : (y3 - y2) * (a2 + (y1 + y2 + y3)) = 0 := by linear_combination e2 - e1
    have := (mul_eq_zero.1 this).resolve_left (by linarith)
    linarith
  have e4 : a1 = y1 * y2 + y1 * y3 + y2 * y3 := by rw [e3] at e1; linear_combination e1
  have e5 : a0 = -(y1 * y2 * y3) := by rw [e3, e4] at h1; linear_combination h1
  rw [e3, e4, e5]; ring

/-- **C166** (choice of the root, Peng-Robinson): of three real roots above B = bP/(RT), in the order in which the solver lists them (least,
greatest, middle), the rule takes the least or the greatest, whichever has the smaller fugacity coefficient, and never the middle one, where
the pressure would rise with the volume. -/
theorem C166_choice_pr_partial (A B y1 y2 y3 : ℝ) (hB : 0 < B) (h1 : B < y1) (h12 : y1 < y2) (h23 : y2 < y3)
    (c1 : cubic (B - 1) (A - 3 * B ^ 2 - 2 * B) (B ^ 3 + B ^ 2 - A * B) y1 = 0)
    (c2 : cubic (B - 1) (A - 3 * B ^ 2 - 2 * B) (B ^ 3 + B ^ 2 - A * B) y2 = 0)
    (c3 : cubic (B - 1) (A - 3 * B ^ 2 - 2 * B) (B ^ 3 + B ^ 2 - A * B) y3 = 0) :
    (pick (prLnf A B) B y1 y3 y2).1 = y1 ∧ prLnPhi A B y1 ≤ prLnPhi A B y3 ∨
      (pick (prLnf A B) B y1 y3 y2).1 = y3 ∧ prLnPhi A B y3 < prLnPhi A B y1 := by
  have e : prLnf A B = prLnPhi A B := by
    funext z
    unfold prLnf prLnPhi
    rw [sqrt8, mul_comm B (2 * Real.sqrt 2)]; ring
  rw [e]
  refine pick_not_middle h1 h12 h23 (middle_max hB (u := 1 + Real.sqrt 2) (w := 1 - Real.sqrt 2) (A := A) (by linarith [sqrt2_pos])
    (by linarith [sqrt2_lt]) h1 h12 h23 (fun x => ?_) (fun z hz => prLnPhi_deriv hB hz))
  rw [← pr_cubic]
  exact factor c1 c2 c3 h12 h23 x

/-- **C166** (choice of the root, SRK): the same. -/
theorem C166_choice_srk_partial (A B y1 y2 y3 : ℝ) (hB : 0 < B) (h1 : B < y1) (h12 : y1 < y2) (h23 : y2 < y3)
    (c1 : cubic (-1) (A - B - B ^ 2) (-A * B) y1 = 0) (c2 : cubic (-1) (A - B - B ^ 2) (-A * B) y2 = 0)
    (c3 : cubic (-1) (A - B - B ^ 2) (-A * B) y3 = 0) :
    (pick (srkLnf A B) B y1 y3 y2).1 = y1 ∧ srkLnPhi A B y1 ≤ srkLnPhi A B y3 ∨
      (pick (srkLnf A B) B y1 y3 y2).1 = y3 ∧ srkLnPhi A B y3 < srkLnPhi A B y1 := by
  refine pick_not_middle (lnf := srkLnPhi A B) h1 h12 h23 (middle_max hB (u := 1) (w := 0) (A := A) (by norm_num) (by norm_num) h1 h12 h23 (fun x => ?_)
    (fun z hz => srkLnPhi_deriv hB hz))
  rw [← srk_cubic]
  exact factor c1 c2 c3 h12 h23 x

/-- The roots 1/9, 5/18 and 5/9 of the Peng-Robinson cubic with A = 119/324 and B = 1/18. -/
example : (pick (prLnf (119 / 324) (1 / 18)) (1 / 18) (1 / 9) (5 / 9) (5 / 18)).1 ≠ 5 / 18 := by
  rcases C166_choice_pr_partial (119 / 324) (1 / 18) (1 / 9) (5 / 18) (5 / 9) (by norm_num) (by norm_num) (by norm_num) (by norm_num)
    (by unfold cubic; norm_num) (by unfold cubic; norm_num) (by unfold cubic; norm_num) with ⟨h, -⟩ | ⟨h, -⟩ <;> rw [h] <;> norm_num

/-- The roots 1/4, 1/3 and 5/12 of the SRK cubic with A = 5/12 and B = 1/12. -/
example : (pick (srkLnf (5 / 12) (1 / 12)) (1 / 12) (1 / 4) (5 / 12) (1 / 3)).1 ≠ 1 / 3 := by
  rcases C166_choice_srk_partial (5 / 12) (1 / 12) (1 / 4) (1 / 3) (5 / 12) (by norm_num) (by norm_num) (by norm_num) (by norm_num)
    (by unfold cubic; norm_num) (by unfold cubic; norm_num) (by unfold cubic; norm_num) with ⟨h, -⟩ | ⟨h, -⟩ <;> rw [h] <;> norm_num

end ThermoFun.Gas

namespace ThermoFun

/-! ### Solids -/

/-- **C166** (Murnaghan equation of Holland and Powell): as long as the bulk modulus is positive (1.5·10⁻⁴ (T - Tr) < 1) the volume contributed
by the model is positive and falls strictly with the pressure, away from the reference point. -/
theorem C166_murnaghan_partial (Tst Pr : ℝ) (ref tps : TPS) (k0 a : ℝ) (h : MurnOk ref k0 a) (T P1 P2 : ℝ) (hc : 1.5e-4 * (T - Tst) < 1)
    (h0 : 0 ≤ P1) (h12 : P1 < P2) (hV : 0 < ref.V.val * (1 + a * 1e-5 * (T - Tst) - 20 * (a * 1e-5) * (Real.sqrt T - Real.sqrt Tst)))
    (h1 : P1 ≠ Pr ∨ T ≠ Tst) (h2 : P2 ≠ Pr ∨ T ≠ Tst) :
    tps.V.val < (murnaghan (TS.temperature T) (pbar P2) Tst Pr ref k0 a tps).V.val ∧
    (murnaghan (TS.temperature T) (pbar P2) Tst Pr ref k0 a tps).V.val < (murnaghan (TS.temperature T) (pbar P1) Tst Pr ref k0 a tps).V.val := by
  obtain ⟨-, -, -, v1, -⟩ := murnaghan_vals T P1 Tst Pr ref k0 a tps h h1
  obtain ⟨-, -, -, v2, -⟩ := murnaghan_vals T P2 Tst Pr ref k0 a tps h h2
  rw [v1, v2]
  have hk : 0 < k0 := lt_trans (by norm_num) h.bulk
  have hK : 0 < hpK k0 Tst T := mul_pos hk (by linarith)
  have hV' : 0 < hpV ref.V.val (a * 1e-5) Tst T := by
    unfold hpV
    rw [show (0.5 : ℝ) = 1 / 2 by norm_num, ← Real.sqrt_eq_rpow, ← Real.sqrt_eq_rpow]
    exact hV
  have hp1 : 0 ≤ kbar P1 := by unfold kbar; positivity
  have hp12 : kbar P1 < kbar P2 := by unfold kbar; gcongr
  have e : ∀ p : ℝ, 0 ≤ p → 1 - 4 * p / (hpK k0 Tst T + 4 * p) = hpK k0 Tst T / (hpK k0 Tst T + 4 * p) := by
    intro p hp
    have : hpK k0 Tst T + 4 * p ≠ 0 := by positivity
    field_simp
    ring
  rw [e _ hp1, e _ (hp1.trans hp12.le)]
  have hq2 : 0 < hpK k0 Tst T / (hpK k0 Tst T + 4 * kbar P2) := by
    have : 0 < kbar P2 := lt_of_le_of_lt hp1 hp12
    positivity
  constructor
  · have := mul_pos hV' (Real.rpow_pos_of_pos hq2 0.25)
    linarith
  · have hlt : hpK k0 Tst T / (hpK k0 Tst T + 4 * kbar P2) < hpK k0 Tst T / (hpK k0 Tst T + 4 * kbar P1) := by
      apply div_lt_div_of_pos_left hK (by positivity) (by linarith)
    have := mul_lt_mul_of_pos_left (Real.rpow_lt_rpow hq2.le hlt (by norm_num : (0 : ℝ) < 0.25)) hV'
    linarith

/-- Periclase (Holland and Powell) at 1000 K, from 1 to 10 kbar. -/
lemma exPericlase : MurnOk { TPS.default with V := TS.mk5 1.125 0 0 0 .read } 1650 6.2 ∧ MurnOk { TPS.default with V := TS.mk5 1.125 0 0 0 .read } 1000 6.2 ∧
    (0 : ℝ) < 1.125 * (1 + 6.2 * 1e-5 * (1000 - 298.15) - 20 * (6.2 * 1e-5) * (Real.sqrt 1000 - Real.sqrt 298.15)) ∧
    (0 : ℝ) < 1.125 * (1 + 6.2 * 1e-5 * (7298.15 - 298.15) - 20 * (6.2 * 1e-5) * (Real.sqrt 7298.15 - Real.sqrt 298.15)) := by
  have h1 : Real.sqrt 1000 ≤ 32 := by rw [Real.sqrt_le_iff]; norm_num
  have h2 : Real.sqrt 7298.15 ≤ 86 := by rw [Real.sqrt_le_iff]; norm_num
  have h3 := Real.sqrt_nonneg 298.15
  refine ⟨⟨by norm_num [abs_of_pos], by norm_num [abs_of_pos], by norm_num⟩, ⟨by norm_num [abs_of_pos], by norm_num [abs_of_pos], by norm_num⟩, ?_, ?_⟩
  · norm_num at *
    linarith
  · norm_num at *
    linarith

example (tps : TPS) :
    (murnaghan (TS.temperature 1000) (pbar 1e9) 298.15 1e5 { TPS.default with V := TS.mk5 1.125 0 0 0 .read } 1650 6.2 tps).V.val
      < (murnaghan (TS.temperature 1000) (pbar 1e8) 298.15 1e5 { TPS.default with V := TS.mk5 1.125 0 0 0 .read } 1650 6.2 tps).V.val :=
  (C166_murnaghan_partial 298.15 1e5 _ tps 1650 6.2 exPericlase.1 1000 1e8 1e9 (by norm_num) (by norm_num) (by norm_num) exPericlase.2.2.1
    (.inl (by norm_num)) (.inl (by norm_num))).2

/-- **C166** is violated: above 6965 K (with the reference temperature 298.15 K) the bulk modulus of the Murnaghan equation is negative and
nothing refuses it: at 7298.15 K a mineral with the bulk modulus 1000 kbar grows when the pressure rises from 1 to 2 kbar. -/
theorem C166_hot_refuted (Pr : ℝ) (ref tps : TPS) (a : ℝ) (h : MurnOk ref 1000 a)
    (hV : 0 < ref.V.val * (1 + a * 1e-5 * (7298.15 - 298.15) - 20 * (a * 1e-5) * (Real.sqrt 7298.15 - Real.sqrt 298.15))) :
    (murnaghan (TS.temperature 7298.15) (pbar 1e8) 298.15 Pr ref 1000 a tps).V.val
      < (murnaghan (TS.temperature 7298.15) (pbar 2e8) 298.15 Pr ref 1000 a tps).V.val := by
  obtain ⟨-, -, -, v1, -⟩ := murnaghan_vals 7298.15 1e8 298.15 Pr ref 1000 a tps h (.inr (by norm_num))
  obtain ⟨-, -, -, v2, -⟩ := murnaghan_vals 7298.15 2e8 298.15 Pr ref 1000 a tps h (.inr (by norm_num))
  rw [v1, v2]
  have hV' : 0 < hpV ref.V.val (a * 1e-5) 298.15 7298.15 := by
    unfold hpV
    rw [show (0.5 : ℝ) = 1 / 2 by norm_num, ← Real.sqrt_eq_rpow, ← Real.sqrt_eq_rpow]
    exact hV
  have hK : hpK 1000 298.15 7298.15 = -50 := by unfold hpK; norm_num
  have e1 : 1 - 4 * kbar 1e8 / (hpK 1000 298.15 7298.15 + 4 * kbar 1e8) = 25 / 23 := by rw [hK]; unfold kbar; norm_num
  have e2 : 1 - 4 * kbar 2e8 / (hpK 1000 298.15 7298.15 + 4 * kbar 2e8) = 25 / 21 := by rw [hK]; unfold kbar; norm_num
  rw [e1, e2]
  have := mul_lt_mul_of_pos_left (Real.rpow_lt_rpow (by norm_num) (by norm_num : (25 / 23 : ℝ) < 25 / 21) (by norm_num : (0 : ℝ) < 0.25)) hV'
  linarith

example (tps : TPS) :
    (murnaghan (TS.temperature 7298.15) (pbar 1e8) 298.15 1e5 { TPS.default with V := TS.mk5 1.125 0 0 0 .read } 1000 6.2 tps).V.val
      < (murnaghan (TS.temperature 7298.15) (pbar 2e8) 298.15 1e5 { TPS.default with V := TS.mk5 1.125 0 0 0 .read } 1000 6.2 tps).V.val :=
  C166_hot_refuted 1e5 _ tps 6.2 exPericlase.2.1 exPericlase.2.2.2

/-- **C166** is violated: the volume of the Berman model is a parabola in the pressure.  With the parameters of α-quartz (-2.434·10⁻⁶ and
10.137·10⁻¹² per bar) it passes its minimum at 120 kbar; at 200 kbar the mineral is smaller than at 300 kbar. -/
theorem C166_berman_refuted (Tst : ℝ) (ref tps : TPS) (hV : 0 < ref.V.val) (v0 v1 v2 : ℝ) :
    ∃ r1 r2, berman88 (TS.temperature Tst) (pbar 2e10) Tst 1e5 ref [v0, v1, v2, -2.434e-6, 10.137e-12] tps = .ok r1 ∧
      berman88 (TS.temperature Tst) (pbar 3e10) Tst 1e5 ref [v0, v1, v2, -2.434e-6, 10.137e-12] tps = .ok r2 ∧ r1.V.val < r2.V.val := by
  obtain ⟨r1, h1, e1, -⟩ := berman_vals Tst 2e10 Tst 1e5 ref tps v0 v1 v2 (-2.434e-6) 10.137e-12
  obtain ⟨r2, h2, e2, -⟩ := berman_vals Tst 3e10 Tst 1e5 ref tps v0 v1 v2 (-2.434e-6) 10.137e-12
  refine ⟨r1, r2, h1, h2, ?_⟩
  rw [e1, e2]
  refine mul_lt_mul_of_pos_left ?_ hV
  rw [sub_self]
  norm_num

end ThermoFun
