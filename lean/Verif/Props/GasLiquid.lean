import Verif.Props.Stability
import Mathlib.Analysis.SpecialFunctions.Trigonometric.InverseDeriv

/-!
# Gases below the saturation curve: the liquid root

Theorems about /repo/ThermoFun/Substances/Gases/s_solmod2_.cpp:487-581, 586-613, 2884-2971, 3692-3786 as modelled in Model/Gas.lean: where the
cubic has three roots and the least is the stable one it is returned exactly, and the properties belong together (C100, C101).
-/

namespace ThermoFun.Gas

open Topology Filter

lemma cth_range {a2 a1 a0 : ℝ} (h : cr a2 a1 a0 ^ 2 < cq a2 a1 ^ 3) :
    -1 < cr a2 a1 a0 / Real.sqrt (cq a2 a1 ^ 3) ∧ cr a2 a1 a0 / Real.sqrt (cq a2 a1 ^ 3) < 1 ∧ 0 < cth a2 a1 a0 ∧ cth a2 a1 a0 < Real.pi := by
  have hq3 : 0 < cq a2 a1 ^ 3 := lt_of_le_of_lt (sq_nonneg _) h
  have hsp := Real.sqrt_pos.mpr hq3
  have hss : Real.sqrt (cq a2 a1 ^ 3) ^ 2 = cq a2 a1 ^ 3 := Real.sq_sqrt hq3.le
  have habs : |cr a2 a1 a0| < Real.sqrt (cq a2 a1 ^ 3) := by
    apply abs_lt_of_sq_lt_sq _ hsp.le
    rw [hss]; exact h
  rw [abs_lt] at habs
  have h1 : -1 < cr a2 a1 a0 / Real.sqrt (cq a2 a1 ^ 3) := by rw [lt_div_iff₀ hsp]; linarith
  have h2 : cr a2 a1 a0 / Real.sqrt (cq a2 a1 ^ 3) < 1 := by rw [div_lt_iff₀ hsp]; linarith
  refine ⟨h1, h2, ?_, ?_⟩
  · unfold cth; exact Real.arccos_pos.2 h2
  · unfold cth
    refine lt_of_le_of_ne (Real.arccos_le_pi _) fun e => ?_
    rw [Real.arccos_eq_pi] at e
    linarith

/-- The first number returned is less than the two others. -/
lemma first_least {a2 a1 a0 : ℝ} (h : cr a2 a1 a0 ^ 2 < cq a2 a1 ^ 3) (e : ℝ) (he : |e - Real.pi| ≤ 5e-8) (he2 : Real.pi ≤ e) :
    cosRoot a2 a1 (cth a2 a1 a0 / 3) < cosRoot a2 a1 (cth a2 a1 a0 / 3 + 2 / 3 * e) ∧
    cosRoot a2 a1 (cth a2 a1 a0 / 3) < cosRoot a2 a1 (cth a2 a1 a0 / 3 - 2 / 3 * e) := by
  obtain ⟨-, -, h0, hpi⟩ := cth_range h
  obtain ⟨hq, -⟩ := three_facts h
  have hs := Real.sqrt_pos.2 hq
  have hp := Real.pi_gt_three
  have hp2 := Real.pi_lt_four
  rw [abs_le] at he
  norm_num at he
  have key : ∀ φ, Real.cos φ < Real.cos (cth a2 a1 a0 / 3) → cosRoot a2 a1 (cth a2 a1 a0 / 3) < cosRoot a2 a1 φ := by
    intro φ hφ
    unfold cosRoot
    nlinarith
  constructor
  · refine key _ ?_
    by_cases hx : cth a2 a1 a0 / 3 + 2 / 3 * e ≤ Real.pi
    · exact Real.cos_lt_cos_of_nonneg_of_le_pi (by linarith) hx (by linarith)
    · rw [← Real.cos_two_pi_sub]
      exact Real.cos_lt_cos_of_nonneg_of_le_pi (by linarith) (by linarith) (by linarith)
  · refine key _ ?_
    rw [← Real.cos_neg]
    refine Real.cos_lt_cos_of_nonneg_of_le_pi (by linarith) (by linarith) (by linarith)

lemma pi_le_lit : Real.pi ≤ 3.1415927 := by
  have := Real.pi_lt_d20
  norm_num at *
  linarith

lemma three_of_roots {a2 a1 a0 y1 y2 y3 : ℝ} (h1 : cubic a2 a1 a0 y1 = 0) (h2 : cubic a2 a1 a0 y2 = 0) (h3 : cubic a2 a1 a0 y3 = 0) (h12 : y1 < y2)
    (h23 : y2 < y3) : cr a2 a1 a0 ^ 2 < cq a2 a1 ^ 3 ∧ cosRoot a2 a1 (cth a2 a1 a0 / 3) = y1 := by
  have hf := factor h1 h2 h3 h12 h23
  have f0 := hf 0
  have f1 := hf 1
  have f2 := hf (-1)
  unfold cubic at f0 f1 f2
  have e2 : a2 = -(y1 + y2 + y3) := by linear_combination (f1 + f2 - 2 * f0) / 2
  have e0 : a0 = -(y1 * y2 * y3) := by linear_combination f0
  have e1 : a1 = y1 * y2 + y1 * y3 + y2 * y3 := by linear_combination (f1 - f2) / 2
  have hd : cr a2 a1 a0 ^ 2 < cq a2 a1 ^ 3 := by
    have : cq a2 a1 ^ 3 - cr a2 a1 a0 ^ 2 = ((y1 - y2) * (y1 - y3) * (y2 - y3)) ^ 2 / 108 := by
      unfold cq cr; rw [e2, e1, e0]; ring
    have h4 : (y1 - y2) * (y1 - y3) * (y2 - y3) ≠ 0 :=
      mul_ne_zero (mul_ne_zero (by linarith) (by linarith)) (by linarith)
    have : 0 < ((y1 - y2) * (y1 - y3) * (y2 - y3)) ^ 2 := by positivity
    linarith
  refine ⟨hd, ?_⟩
  have hz : cubic a2 a1 a0 (cosRoot a2 a1 (cth a2 a1 a0 / 3)) = 0 := by
    unfold cubic
    rw [cosRoot_eval hd, show 3 * (cth a2 a1 a0 / 3) = cth a2 a1 a0 by ring, sub_self, mul_zero]
  rw [hf] at hz
  have hl := first_least hd Real.pi (by rw [sub_self, abs_zero]; norm_num) le_rfl
  rcases mul_eq_zero.1 hz with h | h
  · rcases mul_eq_zero.1 h with h | h
    · linarith
    · exfalso
      rcases three_all hd h1 with e | e | e <;> linarith [hl.1, hl.2]
  · exfalso
    rcases three_all hd h1 with e | e | e <;> linarith [hl.1, hl.2]

/-- Above the least root ln φ is greater than at it, if it is at the greatest. -/
lemma least_best {u w A B y1 y2 y3 : ℝ} {F : ℝ → ℝ} (hB : 0 < B) (hu : 0 < 1 + u) (hw : 0 < 1 + w) (h1 : B < y1) (h12 : y1 < y2) (h23 : y2 < y3)
    (hg : ∀ x, (x + u * B) * (x + w * B) * (x - B - 1) + A * (x - B) = (x - y1) * (x - y2) * (x - y3))
    (hF : ∀ z, B < z → HasDerivAt F (1 - 1 / (z - B) + A / ((z + u * B) * (z + w * B))) z) (h13 : F y1 < F y3) {z : ℝ} (hz : y1 < z) :
    F y1 < F z := by
  have hd : ∀ z, B < z → 1 - 1 / (z - B) + A / ((z + u * B) * (z + w * B))
      = (z - y1) * (z - y2) * (z - y3) / ((z - B) * ((z + u * B) * (z + w * B))) := by
    intro z hz
    have hU : z + u * B ≠ 0 := by nlinarith
    have hW : z + w * B ≠ 0 := by nlinarith
    have hx : z - B ≠ 0 := by linarith
    rw [← hg z]
    generalize z + u * B = U at *
    generalize z + w * B = W at *
    generalize hX : z - B = X at *
    field_simp
  have hD : ∀ z, B < z → 0 < (z - B) * ((z + u * B) * (z + w * B)) := fun z hz =>
    mul_pos (by linarith) (mul_pos (by nlinarith) (by nlinarith))
  have hcont : ∀ s : Set ℝ, (∀ x ∈ s, y1 ≤ x) → ContinuousOn F s := fun s hs x hx =>
    (hF x (by linarith [hs x hx])).continuousAt.continuousWithinAt
  rcases le_or_gt z y2 with h | h
  · refine strictMonoOn_of_deriv_pos (convex_Icc y1 y2) (hcont _ fun x hx => hx.1) ?_ (Set.left_mem_Icc.2 h12.le) ⟨hz.le, h⟩ hz
    intro x hx
    rw [interior_Icc] at hx
    have hBx : B < x := h1.trans hx.1
    rw [(hF x hBx).deriv, hd x hBx]
    refine div_pos ?_ (hD x hBx)
    have := mul_pos (mul_pos (sub_pos.2 hx.1) (sub_pos.2 hx.2)) (sub_pos.2 (hx.2.trans h23))
    linarith
  · refine lt_of_lt_of_le h13 ?_
    rcases le_or_gt z y3 with h3 | h3
    · refine antitoneOn_of_deriv_nonpos (convex_Icc y2 y3) (hcont _ fun x hx => h12.le.trans hx.1) ?_ ?_ ⟨h.le, h3⟩ (Set.right_mem_Icc.2 h23.le) h3
      · intro x hx
        rw [interior_Icc] at hx
        exact (hF x (by linarith [hx.1])).differentiableAt.differentiableWithinAt
      · intro x hx
        rw [interior_Icc] at hx
        have hBx : B < x := by linarith [hx.1]
        rw [(hF x hBx).deriv, hd x hBx]
        refine div_nonpos_of_nonpos_of_nonneg ?_ (hD x hBx).le
        have := mul_pos (mul_pos (sub_pos.2 (h12.trans hx.1)) (sub_pos.2 hx.1)) (sub_pos.2 hx.2)
        linarith
    · refine monotoneOn_of_deriv_nonneg (convex_Ici y3) (hcont _ fun x hx => (h12.trans h23).le.trans hx) ?_ ?_ Set.self_mem_Ici h3.le h3.le
      · intro x hx
        rw [interior_Ici] at hx
        exact (hF x (by linarith [Set.mem_Ioi.1 hx])).differentiableAt.differentiableWithinAt
      · intro x hx
        rw [interior_Ici] at hx
        have hx := Set.mem_Ioi.1 hx
        have hBx : B < x := by linarith
        rw [(hF x hBx).deriv, hd x hBx]
        refine div_nonneg ?_ (hD x hBx).le
        have := mul_pos (mul_pos (sub_pos.2 ((h12.trans h23).trans hx)) (sub_pos.2 (h23.trans hx))) (sub_pos.2 hx)
        exact this.le

lemma pick_first {lnf : ℝ → ℝ} {B z1 z2 z3 : ℝ} (h1 : B < z1) (hk : lnf z1 < 1000) (h2 : B < z2 → lnf z1 < lnf z2) (h3 : B < z3 → lnf z1 < lnf z3) :
    pick lnf B z1 z2 z3 = (z1, lnf z1) := by
  have e1 : lnfOr lnf B z1 = lnf z1 := by unfold lnfOr; rw [if_pos h1]
  have e : ∀ z, (B < z → lnf z1 < lnf z) → lnf z1 < lnfOr lnf B z := by
    intro z hz
    unfold lnfOr
    split_ifs with h
    · exact hz h
    · exact hk
  unfold pick
  dsimp only
  rw [e1]
  have n2 : ¬ lnfOr lnf B z2 < lnf z1 := (e z2 h2).not_gt
  have n3 : ¬ lnfOr lnf B z3 < lnf z1 := (e z3 h3).not_gt
  simp only [n2, n3, if_false]

lemma prLnf_eq (A B : ℝ) : prLnf A B = prLnPhi A B := by
  funext z
  unfold prLnf prLnPhi
  rw [sqrt8, mul_comm B (2 * Real.sqrt 2)]; ring

/-- What the liquid root being stable says about the numbers the code computes. -/
lemma liquid_pick {u w a2 a1 a0 A B y1 y2 y3 : ℝ} {F : ℝ → ℝ} (hB : 0 < B) (hu : 0 < 1 + u) (hw : 0 < 1 + w)
    (hc : ∀ x, x ^ 3 + a2 * x ^ 2 + a1 * x + a0 = (x + u * B) * (x + w * B) * (x - B - 1) + A * (x - B))
    (h1 : B < y1) (h12 : y1 < y2) (h23 : y2 < y3) (c1 : cubic a2 a1 a0 y1 = 0) (c2 : cubic a2 a1 a0 y2 = 0) (c3 : cubic a2 a1 a0 y3 = 0)
    (hF : ∀ z, B < z → HasDerivAt F (1 - 1 / (z - B) + A / ((z + u * B) * (z + w * B))) z) (h13 : F y1 < F y3) :
    cr a2 a1 a0 ^ 2 < cq a2 a1 ^ 3 ∧ cosRoot a2 a1 (cth a2 a1 a0 / 3) = y1 ∧
      F y1 < F (cosRoot a2 a1 (cth a2 a1 a0 / 3 + 2 / 3 * 3.1415927)) ∧ F y1 < F (cosRoot a2 a1 (cth a2 a1 a0 / 3 - 2 / 3 * 3.1415927)) ∧
      B < cosRoot a2 a1 (cth a2 a1 a0 / 3 + 2 / 3 * 3.1415927) ∧ B < cosRoot a2 a1 (cth a2 a1 a0 / 3 - 2 / 3 * 3.1415927) := by
  obtain ⟨hd, e1⟩ := three_of_roots c1 c2 c3 h12 h23
  have hl := first_least hd 3.1415927 pi_lit pi_le_lit
  rw [e1] at hl
  have hg : ∀ x, (x + u * B) * (x + w * B) * (x - B - 1) + A * (x - B) = (x - y1) * (x - y2) * (x - y3) := fun x => by
    rw [← hc, ← factor c1 c2 c3 h12 h23 x]; rfl
  exact ⟨hd, e1, least_best hB hu hw h1 h12 h23 hg hF h13 hl.1, least_best hB hu hw h1 h12 h23 hg hF h13 hl.2, h1.trans hl.1, h1.trans hl.2⟩

/-- **C100** (Peng-Robinson, stable liquid): if the cubic has three real roots above B and ln φ is smaller at the least than at the greatest, the
volume and the fugacity coefficient of the least root are returned exactly: the literal for π does no harm. -/
theorem C100_liquid_pr_partial (c T P Tc Pc : ℝ) (p : AB) (hT : 0 < T) (hP : 0 < P) (hb : 0 < p.b) (y1 y2 y3 : ℝ) :
    let A := p.a * P / (Rgas * T) ^ 2
    let B := p.b * P / (Rgas * T)
    let g := cubic (B - 1) (A - 3 * B ^ 2 - 2 * B) (B ^ 3 + B ^ 2 - A * B)
    B < y1 → y1 < y2 → y2 < y3 → g y1 = 0 → g y2 = 0 → g y3 = 0 → prLnPhi A B y1 < prLnPhi A B y3 → prLnPhi A B y1 < 1000 →
      ∃ f, prPure c T P Tc Pc p = some f ∧ f.v = y1 * Rgas * T / P ∧ f.phi = Real.exp (prLnPhi A B y1) := by
  have hR := Rpos
  intro A B g h1 h12 h23 c1 c2 c3 h13 hk
  have hB : 0 < B := by positivity
  obtain ⟨hd, e1, f2, f3, -, -⟩ := liquid_pick hB (u := 1 + Real.sqrt 2) (w := 1 - Real.sqrt 2) (by linarith [sqrt2_pos])
    (by linarith [sqrt2_lt]) (pr_cubic A B) h1 h12 h23 c1 c2 c3 (fun z hz => prLnPhi_deriv hB hz) h13
  have hA : p.a * P / (Rgas ^ 2 * T ^ 2) = A := by simp only [A]; rw [mul_pow]
  unfold prPure
  dsimp only
  rw [hA, cardano_three hd, Option.map_some]
  refine ⟨_, rfl, ?_⟩
  dsimp only
  rw [prLnf_eq, e1, pick_first h1 hk (fun _ => f2) (fun _ => f3)]
  exact ⟨rfl, rfl⟩

/-- **C100** (SRK, stable liquid): the same. -/
theorem C100_liquid_srk_partial (T P : ℝ) (p : AB) (hT : 0 < T) (hP : 0 < P) (hb : 0 < p.b) (y1 y2 y3 : ℝ) :
    let A := p.a * P / (Rgas * T) ^ 2
    let B := p.b * P / (Rgas * T)
    let g := cubic (-1) (A - B - B ^ 2) (-A * B)
    B < y1 → y1 < y2 → y2 < y3 → g y1 = 0 → g y2 = 0 → g y3 = 0 → srkLnPhi A B y1 < srkLnPhi A B y3 → srkLnPhi A B y1 < 1000 →
      ∃ f, srkPure T P p = some f ∧ f.v = y1 * Rgas * T / P ∧ f.phi = Real.exp (srkLnPhi A B y1) := by
  have hR := Rpos
  intro A B g h1 h12 h23 c1 c2 c3 h13 hk
  have hB : 0 < B := by positivity
  obtain ⟨hd, e1, f2, f3, -, -⟩ := liquid_pick hB (u := 1) (w := 0) (by norm_num) (by norm_num) (srk_cubic A B) h1 h12 h23 c1 c2 c3
    (fun z hz => srkLnPhi_deriv hB hz) h13
  have hA : p.a * P / (Rgas ^ 2 * T ^ 2) = A := by simp only [A]; rw [mul_pow]
  unfold srkPure
  dsimp only
  rw [hA, cardano_three hd, Option.map_some]
  refine ⟨_, rfl, ?_⟩
  dsimp only
  rw [e1, pick_first (lnf := srkLnf A B) h1 hk (fun _ => f2) (fun _ => f3)]
  exact ⟨rfl, rfl⟩

lemma rootOf_gt {u w a b T P a2 a1 a0 z : ℝ} (hT : 0 < T) (hP : 0 < P) (ha : 0 ≤ a) (hb : 0 < b) (hu : 0 < 1 + u) (hw : 0 < 1 + w)
    (hc : ∀ x, x ^ 3 + a2 * x ^ 2 + a1 * x + a0 = (x + u * Bx b T P) * (x + w * Bx b T P) * (x - Bx b T P - 1) + Ax a T P * (x - Bx b T P))
    (hd : cr a2 a1 a0 ^ 2 < cq a2 a1 ^ 3) (hz : z ^ 3 + a2 * z ^ 2 + a1 * z + a0 = 0) (g1 : Bx b T P < z) : RootOf u w a b T P z := by
  have hR := Rpos
  have hB : 0 < Bx b T P := by unfold Bx; positivity
  have hA : 0 ≤ Ax a T P := by unfold Ax; positivity
  have hU : 0 < z + u * Bx b T P := by nlinarith
  have hW : 0 < z + w * Bx b T P := by nlinarith
  have g2 : z ≤ Bx b T P + 1 := by
    by_contra hn
    have := hc z
    rw [hz] at this
    have h1 := mul_pos (mul_pos hU hW) (show 0 < z - Bx b T P - 1 by linarith)
    have h2 := mul_nonneg hA (show 0 ≤ z - Bx b T P by linarith)
    linarith
  have e1 : ∀ x : ℝ, z * Rgas * T / P + x * b = (z + x * Bx b T P) * (Rgas * T / P) := by intro x; unfold Bx; field_simp
  have e0 : z * Rgas * T / P - b = (z - Bx b T P) * (Rgas * T / P) := by unfold Bx; field_simp
  refine ⟨g1, g2, hU, hW, ?_, ?_, ?_, ?_, ?_⟩
  · have : 0 < z * Rgas * T / P - b := by rw [e0]; exact mul_pos (by linarith) (by positivity)
    linarith
  · rw [e1]; positivity
  · rw [e1]; positivity
  · exact eos_of_cubic hR hT hP g1 hU hW (by have := hc z; rw [hz] at this; exact this.symm)
  · exact dPdV_ne hR hT hP g1 hU hW hc hd.ne' hz

/-- The first number as a function of the coefficients. -/
noncomputable def leastRoot (a2 a1 a0 : ℝ) : ℝ := cosRoot a2 a1 (cth a2 a1 a0 / 3)

lemma leastRoot_root {a2 a1 a0 : ℝ} (hd : cr a2 a1 a0 ^ 2 < cq a2 a1 ^ 3) :
    leastRoot a2 a1 a0 ^ 3 + a2 * leastRoot a2 a1 a0 ^ 2 + a1 * leastRoot a2 a1 a0 + a0 = 0 := by
  unfold leastRoot
  rw [cosRoot_eval hd, show 3 * (cth a2 a1 a0 / 3) = cth a2 a1 a0 by ring, sub_self, mul_zero]

lemma cth_diff {a2 a1 a0 : ℝ → ℝ} {P : ℝ} (h2 : DifferentiableAt ℝ a2 P) (h1 : DifferentiableAt ℝ a1 P) (h0 : DifferentiableAt ℝ a0 P)
    (hd : cr (a2 P) (a1 P) (a0 P) ^ 2 < cq (a2 P) (a1 P) ^ 3) (k : ℝ) :
    DifferentiableAt ℝ (fun x => cosRoot (a2 x) (a1 x) (cth (a2 x) (a1 x) (a0 x) / 3 + k)) P := by
  obtain ⟨r1, r2, -, -⟩ := cth_range hd
  obtain ⟨hq, -⟩ := three_facts hd
  have hq3 : 0 < cq (a2 P) (a1 P) ^ 3 := by positivity
  have dq : DifferentiableAt ℝ (fun x => cq (a2 x) (a1 x)) P := by unfold cq; fun_prop
  have dr : DifferentiableAt ℝ (fun x => cr (a2 x) (a1 x) (a0 x)) P := by unfold cr; fun_prop
  have ds : DifferentiableAt ℝ (fun x => cr (a2 x) (a1 x) (a0 x) / Real.sqrt (cq (a2 x) (a1 x) ^ 3)) P :=
    dr.div ((dq.pow 3).sqrt hq3.ne') (Real.sqrt_pos.2 hq3).ne'
  have dth : DifferentiableAt ℝ (fun x => cth (a2 x) (a1 x) (a0 x)) P := by
    unfold cth
    exact DifferentiableAt.comp (g := Real.arccos) P (Real.differentiableAt_arccos.2 ⟨r1.ne', r2.ne⟩) ds
  unfold cosRoot
  exact ((dq.sqrt hq.ne').const_mul _).mul ((dth.div_const 3).add_const k).cos |>.sub (h2.div_const 3)

/-- The choice of the liquid root persists near the pressure. -/
lemma liquid_near {a2 a1 a0 Bf : ℝ → ℝ} {L : ℝ → ℝ → ℝ} {P : ℝ} (h2 : DifferentiableAt ℝ a2 P) (h1 : DifferentiableAt ℝ a1 P)
    (h0 : DifferentiableAt ℝ a0 P) (hB : ContinuousAt Bf P)
    (hL : ∀ zf : ℝ → ℝ, ContinuousAt zf P → Bf P < zf P → ContinuousAt (fun x => L x (zf x)) P)
    (hd : cr (a2 P) (a1 P) (a0 P) ^ 2 < cq (a2 P) (a1 P) ^ 3) (hz : Bf P < leastRoot (a2 P) (a1 P) (a0 P))
    (hk : L P (leastRoot (a2 P) (a1 P) (a0 P)) < 1000)
    (f2 : L P (leastRoot (a2 P) (a1 P) (a0 P)) < L P (cosRoot (a2 P) (a1 P) (cth (a2 P) (a1 P) (a0 P) / 3 + 2 / 3 * 3.1415927)))
    (f3 : L P (leastRoot (a2 P) (a1 P) (a0 P)) < L P (cosRoot (a2 P) (a1 P) (cth (a2 P) (a1 P) (a0 P) / 3 - 2 / 3 * 3.1415927)))
    (b2 : Bf P < cosRoot (a2 P) (a1 P) (cth (a2 P) (a1 P) (a0 P) / 3 + 2 / 3 * 3.1415927))
    (b3 : Bf P < cosRoot (a2 P) (a1 P) (cth (a2 P) (a1 P) (a0 P) / 3 - 2 / 3 * 3.1415927)) :
    (∀ᶠ x in 𝓝 P, cr (a2 x) (a1 x) (a0 x) ^ 2 < cq (a2 x) (a1 x) ^ 3 ∧ Bf x < leastRoot (a2 x) (a1 x) (a0 x) ∧
      (cardano (a2 x) (a1 x) (a0 x)).map (fun r => pick (L x) (Bf x) r.1 r.2.1 r.2.2)
        = some (leastRoot (a2 x) (a1 x) (a0 x), L x (leastRoot (a2 x) (a1 x) (a0 x)))) ∧
    DifferentiableAt ℝ (fun x => leastRoot (a2 x) (a1 x) (a0 x)) P := by
  have d1 : DifferentiableAt ℝ (fun x => leastRoot (a2 x) (a1 x) (a0 x)) P := by
    have := cth_diff h2 h1 h0 hd 0
    unfold leastRoot
    simpa only [add_zero] using this
  have d2 := cth_diff h2 h1 h0 hd (2 / 3 * 3.1415927)
  have d3 : DifferentiableAt ℝ (fun x => cosRoot (a2 x) (a1 x) (cth (a2 x) (a1 x) (a0 x) / 3 - 2 / 3 * 3.1415927)) P := by
    have := cth_diff h2 h1 h0 hd (-(2 / 3 * 3.1415927))
    simpa only [← sub_eq_add_neg] using this
  have cq' : ContinuousAt (fun x => cq (a2 x) (a1 x) ^ 3) P := by
    have := h2.continuousAt; have := h1.continuousAt
    unfold cq; fun_prop
  have cr' : ContinuousAt (fun x => cr (a2 x) (a1 x) (a0 x) ^ 2) P := by
    have := h2.continuousAt; have := h1.continuousAt; have := h0.continuousAt
    unfold cr; fun_prop
  have l1 := hL _ d1.continuousAt hz
  have l2 := hL _ d2.continuousAt b2
  have l3 := hL _ d3.continuousAt b3
  refine ⟨?_, d1⟩
  filter_upwards [cr'.eventually_lt cq' hd, hB.eventually_lt d1.continuousAt hz, l1.eventually_lt continuousAt_const hk,
    l1.eventually_lt l2 f2, l1.eventually_lt l3 f3] with x e1 e2 e3 e4 e5
  refine ⟨e1, e2, ?_⟩
  rw [cardano_three e1, Option.map_some]
  dsimp only
  rw [show cosRoot (a2 x) (a1 x) (cth (a2 x) (a1 x) (a0 x) / 3) = leastRoot (a2 x) (a1 x) (a0 x) from rfl,
    pick_first e2 e3 (fun _ => e4) (fun _ => e5)]

/-- **C101** (Peng-Robinson, stable liquid): if the cubic has three real roots above B and ln φ is smaller at the least than at the greatest, then near
that pressure the residual Gibbs energy is RT ln φ, and its derivative with respect to pressure is the volume minus that of the ideal gas.
Missing from C101: three real roots of which the greatest is the stable one (there the literal for π moves the root); two equal roots. -/
theorem C101_liquid_pr_partial (c T P Tc Pc : ℝ) (p : AB) (hT : 0 < T) (hP : 0 < P) (ha : 0 ≤ p.a) (hb : 0 < p.b) (y1 y2 y3 : ℝ) :
    let A := p.a * P / (Rgas * T) ^ 2
    let B := p.b * P / (Rgas * T)
    let g := cubic (B - 1) (A - 3 * B ^ 2 - 2 * B) (B ^ 3 + B ^ 2 - A * B)
    B < y1 → y1 < y2 → y2 < y3 → g y1 = 0 → g y2 = 0 → g y3 = 0 → prLnPhi A B y1 < prLnPhi A B y3 → prLnPhi A B y1 < 1000 →
      ∃ f : ℝ → Fug, (∀ᶠ x in 𝓝 P, prPure c T x Tc Pc p = some (f x)) ∧ (∀ᶠ x in 𝓝 P, (f x).g = Rgas * T * Real.log (f x).phi) ∧
        (f P).v = y1 * Rgas * T / P ∧ HasDerivAt (fun x => (f x).g) ((f P).v - Rgas * T / P) P := by
  have hR := Rpos
  intro A B g h1 h12 h23 c1 c2 c3 h13 hk
  have hB : 0 < B := by positivity
  obtain ⟨hd, e1, f2, f3, b2, b3⟩ := liquid_pick hB (u := 1 + Real.sqrt 2) (w := 1 - Real.sqrt 2) (by linarith [sqrt2_pos])
    (by linarith [sqrt2_lt]) (pr_cubic A B) h1 h12 h23 c1 c2 c3 (fun z hz => prLnPhi_deriv hB hz) h13
  have hA : A = Ax p.a T P := by simp only [A]; unfold Ax; rw [mul_pow]
  have hBx : B = Bx p.b T P := rfl
  clear_value A B
  subst hA hBx
  rw [← prLnf_eq] at f2 f3 hk
  have dA : DifferentiableAt ℝ (fun x => Ax p.a T x) P := by unfold Ax; fun_prop
  have dB : DifferentiableAt ℝ (fun x => Bx p.b T x) P := by unfold Bx; fun_prop
  obtain ⟨ev, dz⟩ := liquid_near (P := P) (a2 := fun x => Bx p.b T x - 1) (a1 := fun x => Ax p.a T x - 3 * Bx p.b T x ^ 2 - 2 * Bx p.b T x)
    (a0 := fun x => Bx p.b T x ^ 3 + Bx p.b T x ^ 2 - Ax p.a T x * Bx p.b T x) (Bf := fun x => Bx p.b T x) (L := fun x => prLnf (Ax p.a T x) (Bx p.b T x))
    (by fun_prop) (by fun_prop) (by fun_prop) dB.continuousAt
    (by
      intro zf hzf hzB
      have hBp : 0 < Bx p.b T P := hB
      have := sqrt2_pos; have := sqrt2_lt
      have hU : 0 < zf P + (1 + Real.sqrt 2) * Bx p.b T P := by nlinarith
      have hW : 0 < zf P + (1 - Real.sqrt 2) * Bx p.b T P := by nlinarith
      have cA := dA.continuousAt; have cB := dB.continuousAt
      have s8 : Bx p.b T P * Real.sqrt 8 ≠ 0 := by positivity
      have cq' : ContinuousAt (fun x => (zf x + (1 + Real.sqrt 2) * Bx p.b T x) / (zf x + (1 - Real.sqrt 2) * Bx p.b T x)) P :=
        (hzf.add (continuousAt_const.mul cB)).div (hzf.add (continuousAt_const.mul cB)) hW.ne'
      unfold prLnf
      exact (((continuousAt_const.mul ((hzf.sub cB).log (sub_pos.2 hzB).ne')).sub
        ((cA.div (cB.mul continuousAt_const) s8).mul (cq'.log (div_pos hU hW).ne'))).add hzf).sub continuousAt_const)
    hd (by unfold leastRoot; rw [e1]; exact h1) (by unfold leastRoot; rw [e1]; exact hk) (by unfold leastRoot; rw [e1]; exact f2)
    (by unfold leastRoot; rw [e1]; exact f3) b2 b3
  have evP : ∀ᶠ x in 𝓝 P, 0 < x := lt_mem_nhds hP
  set Z : ℝ → ℝ := fun x => leastRoot (Bx p.b T x - 1) (Ax p.a T x - 3 * Bx p.b T x ^ 2 - 2 * Bx p.b T x)
    (Bx p.b T x ^ 3 + Bx p.b T x ^ 2 - Ax p.a T x * Bx p.b T x) with hZ
  have hZP : Z P = y1 := e1
  refine ⟨fun x => prProps c T x Tc Pc p (Ax p.a T x) (Bx p.b T x) (Z x, prLnf (Ax p.a T x) (Bx p.b T x) (Z x)), ?_,
    Eventually.of_forall fun x => prProps_lnf, by rw [← hZP]; rfl, ?_⟩
  · filter_upwards [ev] with x hx
    have := congrArg (Option.map fun zl => prProps c T x Tc Pc p (Ax p.a T x) (Bx p.b T x) zl) hx.2.2
    rw [Option.map_map, Option.map_some] at this
    exact this
  · have r : RootOf (1 + Real.sqrt 2) (1 - Real.sqrt 2) p.a p.b T P (Z P) := by
      have h := ev.self_of_nhds
      exact rootOf_gt hT hP ha hb (by linarith [sqrt2_pos]) (by linarith [sqrt2_lt]) (pr_cubic _ _) h.1 (leastRoot_root h.1) h.2.1
    have hv : HasDerivAt (fun x => Z x * Rgas * T / x) _ P :=
      (((dz.mul_const Rgas).mul_const T).div differentiableAt_id hP.ne').hasDerivAt
    refine (gres_P hR hT hP hb uw_ne hv r.vb r.vU r.vW r.eos).congr_of_eventuallyEq ?_
    exact evP.mono fun x hx => prProps_g hT hx hb

/-- **C101** (SRK, stable liquid): the same. -/
theorem C101_liquid_srk_partial (T P : ℝ) (p : AB) (hT : 0 < T) (hP : 0 < P) (ha : 0 ≤ p.a) (hb : 0 < p.b) (y1 y2 y3 : ℝ) :
    let A := p.a * P / (Rgas * T) ^ 2
    let B := p.b * P / (Rgas * T)
    let g := cubic (-1) (A - B - B ^ 2) (-A * B)
    B < y1 → y1 < y2 → y2 < y3 → g y1 = 0 → g y2 = 0 → g y3 = 0 → srkLnPhi A B y1 < srkLnPhi A B y3 → srkLnPhi A B y1 < 1000 →
      ∃ f : ℝ → Fug, (∀ᶠ x in 𝓝 P, srkPure T x p = some (f x)) ∧ (∀ᶠ x in 𝓝 P, (f x).g = Rgas * T * Real.log (f x).phi) ∧
        (f P).v = y1 * Rgas * T / P ∧ HasDerivAt (fun x => (f x).g) ((f P).v - Rgas * T / P) P := by
  have hR := Rpos
  intro A B g h1 h12 h23 c1 c2 c3 h13 hk
  have hB : 0 < B := by positivity
  obtain ⟨hd, e1, f2, f3, b2, b3⟩ := liquid_pick hB (u := 1) (w := 0) (by norm_num) (by norm_num) (srk_cubic A B) h1 h12 h23 c1 c2 c3
    (fun z hz => srkLnPhi_deriv hB hz) h13
  have hA : A = Ax p.a T P := by simp only [A]; unfold Ax; rw [mul_pow]
  have hBx : B = Bx p.b T P := rfl
  clear_value A B
  subst hA hBx
  have dA : DifferentiableAt ℝ (fun x => Ax p.a T x) P := by unfold Ax; fun_prop
  have dB : DifferentiableAt ℝ (fun x => Bx p.b T x) P := by unfold Bx; fun_prop
  obtain ⟨ev, dz⟩ := liquid_near (P := P) (a2 := fun _ => -1) (a1 := fun x => Ax p.a T x - Bx p.b T x - Bx p.b T x ^ 2)
    (a0 := fun x => -Ax p.a T x * Bx p.b T x) (Bf := fun x => Bx p.b T x) (L := fun x => srkLnf (Ax p.a T x) (Bx p.b T x))
    (by fun_prop) (by fun_prop) (by fun_prop) dB.continuousAt
    (by
      intro zf hzf hzB
      have hBp : 0 < Bx p.b T P := hB
      have hz0 : 0 < zf P := hBp.trans hzB
      have cA := dA.continuousAt; have cB := dB.continuousAt
      unfold srkLnf
      refine ((hzf.sub continuousAt_const).sub ((hzf.sub cB).log (sub_pos.2 hzB).ne')).sub
        ((cA.div cB hBp.ne').mul (ContinuousAt.log ?_ (by positivity)))
      exact continuousAt_const.add (cB.div hzf hz0.ne'))
    hd (by unfold leastRoot; rw [e1]; exact h1) (by unfold leastRoot; rw [e1]; exact hk) (by unfold leastRoot; rw [e1]; exact f2)
    (by unfold leastRoot; rw [e1]; exact f3) b2 b3
  have evP : ∀ᶠ x in 𝓝 P, 0 < x := lt_mem_nhds hP
  set Z : ℝ → ℝ := fun x => leastRoot (-1) (Ax p.a T x - Bx p.b T x - Bx p.b T x ^ 2) (-Ax p.a T x * Bx p.b T x) with hZ
  have hZP : Z P = y1 := e1
  have hr : ∀ᶠ x in 𝓝 P, RootOf 1 0 p.a p.b T x (Z x) := by
    filter_upwards [ev, evP] with x hx hx0
    exact rootOf_gt hT hx0 ha hb (by norm_num) (by norm_num) (srk_cubic _ _) hx.1 (leastRoot_root hx.1) hx.2.1
  refine ⟨fun x => srkProps T x p (Bx p.b T x) (Z x, srkLnf (Ax p.a T x) (Bx p.b T x) (Z x)), ?_, ?_, by rw [← hZP]; rfl, ?_⟩
  · filter_upwards [ev] with x hx
    have := congrArg (Option.map fun zl => srkProps T x p (Bx p.b T x) zl) hx.2.2
    rw [Option.map_map, Option.map_some] at this
    exact this
  · filter_upwards [hr, evP] with x hx hx0
    exact srkProps_lnf hT hx0 hb hx
  · have r := hr.self_of_nhds
    have hv : HasDerivAt (fun x => Z x * Rgas * T / x) _ P :=
      (((dz.mul_const Rgas).mul_const T).div differentiableAt_id hP.ne').hasDerivAt
    refine (gres_P (u := 1) (w := 0) hR hT hP hb (by norm_num) hv r.vb r.vU r.vW r.eos).congr_of_eventuallyEq ?_
    filter_upwards [hr, evP] with x hx hx0
    exact srkProps_g hT hx0 hb hx

lemma exLiq_pr : prLnPhi (119 / 324) (1 / 18) (1 / 9) < prLnPhi (119 / 324) (1 / 18) (5 / 9) ∧ prLnPhi (119 / 324) (1 / 18) (1 / 9) < 1000 := by
  have s1 := sqrt2_pos
  have s2 := sqrt2
  have s3 : Real.sqrt 2 < 1.4143 := by rw [Real.sqrt_lt' (by norm_num)]; norm_num
  have s4 : 1.4142 < Real.sqrt 2 := by rw [Real.lt_sqrt (by norm_num)]; norm_num
  have l2 := Real.log_two_lt_d9
  have l2' := Real.log_two_gt_d9
  -- the two logarithms of the ratios
  have q1 : 0 < (1 / 9 + (1 + Real.sqrt 2) * (1 / 18)) / (1 / 9 + (1 - Real.sqrt 2) * (1 / 18)) := div_pos (by linarith) (by linarith)
  have q3 : 0 < (5 / 9 + (1 + Real.sqrt 2) * (1 / 18)) / (5 / 9 + (1 - Real.sqrt 2) * (1 / 18)) := div_pos (by linarith) (by linarith)
  have hlog : 0.762 < Real.log ((1 / 9 + (1 + Real.sqrt 2) * (1 / 18)) / (1 / 9 + (1 - Real.sqrt 2) * (1 / 18)))
      - Real.log ((5 / 9 + (1 + Real.sqrt 2) * (1 / 18)) / (5 / 9 + (1 - Real.sqrt 2) * (1 / 18))) := by
    rw [← Real.log_div q1.ne' q3.ne']
    have hr : 2 * 1.0745 ≤ (1 / 9 + (1 + Real.sqrt 2) * (1 / 18)) / (1 / 9 + (1 - Real.sqrt 2) * (1 / 18))
        / ((5 / 9 + (1 + Real.sqrt 2) * (1 / 18)) / (5 / 9 + (1 - Real.sqrt 2) * (1 / 18))) := by
      rw [le_div_iff₀ q3, mul_div_assoc', div_le_div_iff₀ (by linarith) (by linarith)]
      nlinarith
    have h1 := Real.log_le_log (by norm_num) hr
    rw [Real.log_mul (by norm_num) (by norm_num)] at h1
    have h2 := Real.one_sub_inv_le_log_of_pos (show (0 : ℝ) < 1.0745 by norm_num)
    norm_num at h1 h2 ⊢
    linarith
  have hl1 : Real.log (1 / 9 - 1 / 18) = Real.log (5 / 9 - 1 / 18) - Real.log 9 := by
    rw [← Real.log_div (by norm_num) (by norm_num)]; norm_num
  have h9 : Real.log 9 < 2.2045 := by
    have : Real.log 9 = 3 * Real.log 2 + Real.log (9 / 8) := by
      rw [show (9 : ℝ) = 2 ^ 3 * (9 / 8) by norm_num, Real.log_mul (by norm_num) (by norm_num), Real.log_pow]; norm_num
    have h := Real.log_le_sub_one_of_pos (show (0 : ℝ) < 9 / 8 by norm_num)
    rw [this]; norm_num at h ⊢; linarith
  have hc : 2.337 ≤ 119 / 324 / (2 * Real.sqrt 2 * (1 / 18)) := by
    rw [le_div_iff₀ (by positivity)]; norm_num at s3 ⊢; linarith
  have hhalf : Real.log (5 / 9 - 1 / 18) = -Real.log 2 := by rw [← Real.log_inv]; norm_num
  have hp1 : 0 ≤ Real.log ((1 / 9 + (1 + Real.sqrt 2) * (1 / 18)) / (1 / 9 + (1 - Real.sqrt 2) * (1 / 18))) := by
    refine Real.log_nonneg ?_
    rw [le_div_iff₀ (by linarith)]; linarith
  unfold prLnPhi
  rw [hl1, hhalf]
  generalize Real.log ((1 / 9 + (1 + Real.sqrt 2) * (1 / 18)) / (1 / 9 + (1 - Real.sqrt 2) * (1 / 18))) = L1 at *
  generalize Real.log ((5 / 9 + (1 + Real.sqrt 2) * (1 / 18)) / (5 / 9 + (1 - Real.sqrt 2) * (1 / 18))) = L3 at *
  generalize 119 / 324 / (2 * Real.sqrt 2 * (1 / 18)) = k at *
  norm_num at hlog hc h9 ⊢
  constructor
  · nlinarith
  · nlinarith

lemma exLiq_srk : srkLnPhi (45 / 128) (1 / 16) (1 / 8) < srkLnPhi (45 / 128) (1 / 16) (9 / 16) ∧ srkLnPhi (45 / 128) (1 / 16) (1 / 8) < 1000 := by
  have l2 := Real.log_two_lt_d9
  have l2' := Real.log_two_gt_d9
  have h1 : Real.log (1 / 8 - 1 / 16) = -(4 * Real.log 2) := by
    rw [show (1 / 8 - 1 / 16 : ℝ) = (2 ^ 4)⁻¹ by norm_num, Real.log_inv, Real.log_pow]; norm_num
  have h2 : Real.log (9 / 16 - 1 / 16) = -Real.log 2 := by rw [← Real.log_inv]; norm_num
  have h3 : 0.2978 < Real.log (1 + 1 / 16 / (1 / 8)) - Real.log (1 + 1 / 16 / (9 / 16)) := by
    rw [← Real.log_div (by norm_num) (by norm_num), show ((1 + 1 / 16 / (1 / 8)) / (1 + 1 / 16 / (9 / 16)) : ℝ) = 27 / 20 by norm_num]
    have e : 2 * Real.log (27 / 20) = Real.log 2 + Real.log 0.91125 := by
      rw [← Real.log_mul (by norm_num) (by norm_num), show (2 * 0.91125 : ℝ) = (27 / 20) ^ 2 by norm_num, Real.log_pow]; norm_num
    have := Real.one_sub_inv_le_log_of_pos (show (0 : ℝ) < 0.91125 by norm_num)
    norm_num at this e ⊢
    linarith
  have h4 : 0 ≤ Real.log (1 + 1 / 16 / (1 / 8)) := Real.log_nonneg (by norm_num)
  unfold srkLnPhi
  rw [h1, h2]
  generalize Real.log (1 + 1 / 16 / (1 / 8)) = L1 at *
  generalize Real.log (1 + 1 / 16 / (9 / 16)) = L3 at *
  norm_num at h3 ⊢
  constructor <;> linarith

lemma exLiq_RT : Rgas * (1 / Rgas) = 1 := by
  have hR := Rpos
  field_simp

/-- With RT = 1, P = 1, a = 119/324 and b = 1/18 the roots of the Peng-Robinson cubic are 1/9, 5/18 and 5/9, and the least is the stable one:
the volume is 1/9, a fifth of that of the vapour. -/
example : (∃ f, prPure 0 (1 / Rgas) 1 1 1 ⟨119 / 324, 1 / 18, 0, 0⟩ = some f ∧ f.v = 1 / 9) ∧
    ∃ f : ℝ → Fug, (∀ᶠ x in 𝓝 (1 : ℝ), prPure 0 (1 / Rgas) x 1 1 ⟨119 / 324, 1 / 18, 0, 0⟩ = some (f x)) ∧
      HasDerivAt (fun x => (f x).g) (1 / 9 - 1) 1 := by
  have hR := Rpos
  have hRT := exLiq_RT
  have k1 := C100_liquid_pr_partial 0 (1 / Rgas) 1 1 1 ⟨119 / 324, 1 / 18, 0, 0⟩ (by positivity) one_pos (by norm_num) (1 / 9) (5 / 18) (5 / 9)
  have k2 := C101_liquid_pr_partial 0 (1 / Rgas) 1 1 1 ⟨119 / 324, 1 / 18, 0, 0⟩ (by positivity) one_pos (by norm_num) (by norm_num) (1 / 9) (5 / 18) (5 / 9)
  dsimp only at k1 k2
  rw [hRT] at k1 k2
  rw [show (119 / 324 * 1 / 1 ^ 2 : ℝ) = 119 / 324 by norm_num, show (1 / 18 * 1 / 1 : ℝ) = 1 / 18 by norm_num] at k1 k2
  have hv : (1 / 9 * Rgas * (1 / Rgas) / 1 : ℝ) = 1 / 9 := by field_simp
  obtain ⟨f, e1, e2, -⟩ := k1 (by norm_num) (by norm_num) (by norm_num) (by unfold cubic; norm_num) (by unfold cubic; norm_num)
    (by unfold cubic; norm_num) exLiq_pr.1 exLiq_pr.2
  obtain ⟨F, d1, -, d2, d3⟩ := k2 (by norm_num) (by norm_num) (by norm_num) (by unfold cubic; norm_num) (by unfold cubic; norm_num)
    (by unfold cubic; norm_num) exLiq_pr.1 exLiq_pr.2
  refine ⟨⟨f, e1, by rw [e2, hv]⟩, F, d1, ?_⟩
  rw [d2, hv, div_one] at d3
  exact d3

/-- With RT = 1, P = 1, a = 45/128 and b = 1/16 the roots of the SRK cubic are 1/8, 5/16 and 9/16, and the least is the stable one. -/
example : (∃ f, srkPure (1 / Rgas) 1 ⟨45 / 128, 1 / 16, 0, 0⟩ = some f ∧ f.v = 1 / 8) ∧
    ∃ f : ℝ → Fug, (∀ᶠ x in 𝓝 (1 : ℝ), srkPure (1 / Rgas) x ⟨45 / 128, 1 / 16, 0, 0⟩ = some (f x)) ∧
      HasDerivAt (fun x => (f x).g) (1 / 8 - 1) 1 := by
  have hR := Rpos
  have hRT := exLiq_RT
  have k1 := C100_liquid_srk_partial (1 / Rgas) 1 ⟨45 / 128, 1 / 16, 0, 0⟩ (by positivity) one_pos (by norm_num) (1 / 8) (5 / 16) (9 / 16)
  have k2 := C101_liquid_srk_partial (1 / Rgas) 1 ⟨45 / 128, 1 / 16, 0, 0⟩ (by positivity) one_pos (by norm_num) (by norm_num) (1 / 8) (5 / 16) (9 / 16)
  dsimp only at k1 k2
  rw [hRT] at k1 k2
  rw [show (45 / 128 * 1 / 1 ^ 2 : ℝ) = 45 / 128 by norm_num, show (1 / 16 * 1 / 1 : ℝ) = 1 / 16 by norm_num] at k1 k2
  have hv : (1 / 8 * Rgas * (1 / Rgas) / 1 : ℝ) = 1 / 8 := by field_simp
  obtain ⟨f, e1, e2, -⟩ := k1 (by norm_num) (by norm_num) (by norm_num) (by unfold cubic; norm_num) (by unfold cubic; norm_num)
    (by unfold cubic; norm_num) exLiq_srk.1 exLiq_srk.2
  obtain ⟨F, d1, -, d2, d3⟩ := k2 (by norm_num) (by norm_num) (by norm_num) (by unfold cubic; norm_num) (by unfold cubic; norm_num)
    (by unfold cubic; norm_num) exLiq_srk.1 exLiq_srk.2
  refine ⟨⟨f, e1, by rw [e2, hv]⟩, F, d1, ?_⟩
  rw [d2, hv, div_one] at d3
  exact d3

end ThermoFun.Gas
