import Verif.Lemmas.Gas

/-!
The results of the cubic equations of state where the cubic has one real root.
-/

namespace ThermoFun.Gas

open Real Topology

/-- A cubic of the form `(z+uB)(z+wB)(z-B-1) + A(z-B)` with one real root `z` has it between B and B+1. -/
lemma root_range {u w A B a2 a1 a0 z : ℝ} (hA : 0 ≤ A) (hB : 0 < B) (hu : 0 < 1 + u) (hw : 0 < 1 + w)
    (hc : ∀ x, x ^ 3 + a2 * x ^ 2 + a1 * x + a0 = (x + u * B) * (x + w * B) * (x - B - 1) + A * (x - B))
    (hd : cq a2 a1 ^ 3 < cr a2 a1 a0 ^ 2) (hz : z ^ 3 + a2 * z ^ 2 + a1 * z + a0 = 0) : B < z ∧ z ≤ B + 1 := by
  have hcont : ContinuousOn (fun x : ℝ => x ^ 3 + a2 * x ^ 2 + a1 * x + a0) (Set.Icc B (B + 1)) := by fun_prop
  have h1 : B ^ 3 + a2 * B ^ 2 + a1 * B + a0 < 0 := by
    rw [hc]
    have : 0 < (B + u * B) * (B + w * B) := by
      rw [show (B + u * B) * (B + w * B) = B ^ 2 * ((1 + u) * (1 + w)) by ring]; positivity
    nlinarith
  have h2 : 0 ≤ (B + 1) ^ 3 + a2 * (B + 1) ^ 2 + a1 * (B + 1) + a0 := by rw [hc]; ring_nf; exact hA
  obtain ⟨y, hy, hy0⟩ := intermediate_value_Icc (by linarith : B ≤ B + 1) hcont ⟨h1.le, h2⟩
  have : z = y := root_unique hd hz hy0
  subst this
  refine ⟨lt_of_le_of_ne hy.1 ?_, hy.2⟩
  intro h
  rw [← h] at hz; linarith

/-- The equation of state from the cubic. -/
lemma eos_of_cubic {u w R T P a b z : ℝ} (hR : 0 < R) (hT : 0 < T) (hP : 0 < P)
    (hz : b * P / (R * T) < z) (h1 : 0 < z + u * (b * P / (R * T))) (h2 : 0 < z + w * (b * P / (R * T)))
    (hc : (z + u * (b * P / (R * T))) * (z + w * (b * P / (R * T))) * (z - b * P / (R * T) - 1)
      + a * P / (R ^ 2 * T ^ 2) * (z - b * P / (R * T)) = 0) :
    P = R * T / (z * R * T / P - b) - a / ((z * R * T / P + u * b) * (z * R * T / P + w * b)) := by
  have e0 : z * R * T / P - b = (z - b * P / (R * T)) * (R * T / P) := by field_simp
  have e1 : ∀ x : ℝ, z * R * T / P + x * b = (z + x * (b * P / (R * T))) * (R * T / P) := by intro x; field_simp
  rw [e0, e1, e1]
  have hx : 0 < z - b * P / (R * T) := by linarith
  generalize z + u * (b * P / (R * T)) = U at *
  generalize z + w * (b * P / (R * T)) = W at *
  generalize z - b * P / (R * T) = X at *
  have hc' : U * W * R ^ 2 * T ^ 2 * (X - 1) + a * P * X = 0 := by
    field_simp at hc
    linarith
  field_simp
  linear_combination hc'

/-- The cubic at a simple root has a slope; in terms of the equation of state. -/
lemma dPdV_ne {u w R T P a b z a2 a1 a0 : ℝ} (hR : 0 < R) (hT : 0 < T) (hP : 0 < P)
    (hz : b * P / (R * T) < z) (h1 : 0 < z + u * (b * P / (R * T))) (h2 : 0 < z + w * (b * P / (R * T)))
    (hc : ∀ x, x ^ 3 + a2 * x ^ 2 + a1 * x + a0 = (x + u * (b * P / (R * T))) * (x + w * (b * P / (R * T)))
      * (x - b * P / (R * T) - 1) + a * P / (R ^ 2 * T ^ 2) * (x - b * P / (R * T)))
    (hd : cq a2 a1 ^ 3 ≠ cr a2 a1 a0 ^ 2) (h0 : z ^ 3 + a2 * z ^ 2 + a1 * z + a0 = 0) :
    -R * T / (z * R * T / P - b) ^ 2 + a * (2 * (z * R * T / P) + (u + w) * b)
      / ((z * R * T / P + u * b) * (z * R * T / P + w * b)) ^ 2 ≠ 0 := by
  -- slope of the cubic
  have hs : 3 * z ^ 2 + 2 * a2 * z + a1 ≠ 0 := by
    intro h
    have hy : (z + a2 / 3) ^ 2 = cq a2 a1 := by unfold cq; linear_combination h / 3
    have hq : (z + a2 / 3) ^ 3 - 3 * cq a2 a1 * (z + a2 / 3) + 2 * cr a2 a1 a0 = 0 := by rw [← depressed]; exact h0
    have hr : cr a2 a1 a0 = (z + a2 / 3) ^ 3 := by rw [← hy] at hq; linear_combination hq / 2
    rw [hr, ← hy] at hd
    exact hd (by ring)
  have hslope : 3 * z ^ 2 + 2 * a2 * z + a1 = ((z + w * (b * P / (R * T))) + (z + u * (b * P / (R * T)))) * (z - b * P / (R * T) - 1)
      + (z + u * (b * P / (R * T))) * (z + w * (b * P / (R * T))) + a * P / (R ^ 2 * T ^ 2) := by
    have d1 : HasDerivAt (fun x : ℝ => x ^ 3 + a2 * x ^ 2 + a1 * x + a0) (3 * z ^ 2 + 2 * a2 * z + a1) z := by
      have := (((hasDerivAt_pow 3 z).fun_add ((hasDerivAt_pow 2 z).const_mul a2)).fun_add ((hasDerivAt_id' z).const_mul a1)).add_const a0
      refine this.congr_deriv ?_
      push_cast; ring
    have d2 : HasDerivAt (fun x : ℝ => x ^ 3 + a2 * x ^ 2 + a1 * x + a0)
        (((z + w * (b * P / (R * T))) + (z + u * (b * P / (R * T)))) * (z - b * P / (R * T) - 1)
          + (z + u * (b * P / (R * T))) * (z + w * (b * P / (R * T))) + a * P / (R ^ 2 * T ^ 2)) z := by
      have := ((((hasDerivAt_id' z).add_const (u * (b * P / (R * T)))).fun_mul ((hasDerivAt_id' z).add_const (w * (b * P / (R * T))))).fun_mul
        (((hasDerivAt_id' z).sub_const (b * P / (R * T))).sub_const 1)).fun_add
          (((hasDerivAt_id' z).sub_const (b * P / (R * T))).const_mul (a * P / (R ^ 2 * T ^ 2)))
      refine (this.congr_deriv ?_).congr_of_eventuallyEq (Filter.Eventually.of_forall fun x => hc x)
      ring
    exact d1.unique d2
  rw [hslope] at hs
  rw [hc] at h0
  have e0 : z * R * T / P - b = (z - b * P / (R * T)) * (R * T / P) := by field_simp
  have e1 : ∀ x : ℝ, z * R * T / P + x * b = (z + x * (b * P / (R * T))) * (R * T / P) := by intro x; field_simp
  have e2 : 2 * (z * R * T / P) + (u + w) * b = ((z + u * (b * P / (R * T))) + (z + w * (b * P / (R * T)))) * (R * T / P) := by
    field_simp; ring
  rw [e0, e1, e1, e2]
  have hx : 0 < z - b * P / (R * T) := by linarith
  clear hc hd hz hslope e0 e1 e2
  generalize z + u * (b * P / (R * T)) = U at *
  generalize z + w * (b * P / (R * T)) = W at *
  generalize z - b * P / (R * T) = X at *
  intro h
  apply hs
  have hA : a * P / (R ^ 2 * T ^ 2) = U * W * (1 - X) / X := by
    rw [eq_div_iff hx.ne']; linarith
  have ha : a = U * W * (1 - X) / X * (R ^ 2 * T ^ 2) / P := by
    rw [← hA]; field_simp
  rw [ha] at h
  rw [hA]
  have h' : -(U * W) + (U + W) * (1 - X) * X = 0 := by
    field_simp at h
    rw [mul_zero] at h
    rcases mul_eq_zero.mp h with h | h
    · exact absurd h (by positivity)
    · linarith
  field_simp
  linear_combination (-1) * h'

/-! ### Peng-Robinson -/

/-- A and B, and the coefficients of the Peng-Robinson cubic. -/
noncomputable def Ax (a T P : ℝ) : ℝ := a * P / (Rgas ^ 2 * T ^ 2)
/-- A and B, and the coefficients of the Peng-Robinson cubic. -/
noncomputable def Bx (b T P : ℝ) : ℝ := b * P / (Rgas * T)

lemma Rpos : 0 < Rgas := by unfold Rgas; norm_num

lemma sqrt2 : Real.sqrt 2 ^ 2 = 2 := Real.sq_sqrt (by norm_num)
lemma sqrt2_pos : 0 < Real.sqrt 2 := Real.sqrt_pos.mpr (by norm_num)
lemma sqrt2_lt : Real.sqrt 2 < 2 := by
  rw [Real.sqrt_lt' (by norm_num)]; norm_num
lemma sqrt8 : Real.sqrt 8 = 2 * Real.sqrt 2 := by
  rw [show (8 : ℝ) = 2 ^ 2 * 2 by norm_num, Real.sqrt_mul (by norm_num), Real.sqrt_sq (by norm_num)]

lemma pr_cubic (A B x : ℝ) : x ^ 3 + (B - 1) * x ^ 2 + (A - 3 * B ^ 2 - 2 * B) * x + (B ^ 3 + B ^ 2 - A * B)
    = (x + (1 + Real.sqrt 2) * B) * (x + (1 - Real.sqrt 2) * B) * (x - B - 1) + A * (x - B) := by
  linear_combination (B ^ 2 * (x - B - 1)) * sqrt2

lemma srk_cubic (A B x : ℝ) : x ^ 3 + (-1) * x ^ 2 + (A - B - B ^ 2) * x + (-A * B)
    = (x + 1 * B) * (x + 0 * B) * (x - B - 1) + A * (x - B) := by ring

/-- The Peng-Robinson cubic has one real root and Cardano's formula is defined. -/
def PrOne (a b T P : ℝ) : Prop :=
  cq (Bx b T P - 1) (Ax a T P - 3 * Bx b T P ^ 2 - 2 * Bx b T P) ^ 3
    < cr (Bx b T P - 1) (Ax a T P - 3 * Bx b T P ^ 2 - 2 * Bx b T P) (Bx b T P ^ 3 + Bx b T P ^ 2 - Ax a T P * Bx b T P) ^ 2 ∧
  cr (Bx b T P - 1) (Ax a T P - 3 * Bx b T P ^ 2 - 2 * Bx b T P) (Bx b T P ^ 3 + Bx b T P ^ 2 - Ax a T P * Bx b T P) ≠ 0

/-- The root. -/
noncomputable def prZ (a b T P : ℝ) : ℝ :=
  oneRoot (Bx b T P - 1) (Ax a T P - 3 * Bx b T P ^ 2 - 2 * Bx b T P) (Bx b T P ^ 3 + Bx b T P ^ 2 - Ax a T P * Bx b T P)

/-- The SRK cubic has one real root and Cardano's formula is defined. -/
def SrkOne (a b T P : ℝ) : Prop :=
  cq (-1) (Ax a T P - Bx b T P - Bx b T P ^ 2) ^ 3 < cr (-1) (Ax a T P - Bx b T P - Bx b T P ^ 2) (-Ax a T P * Bx b T P) ^ 2 ∧
  cr (-1) (Ax a T P - Bx b T P - Bx b T P ^ 2) (-Ax a T P * Bx b T P) ≠ 0

/-- The root. -/
noncomputable def srkZ (a b T P : ℝ) : ℝ := oneRoot (-1) (Ax a T P - Bx b T P - Bx b T P ^ 2) (-Ax a T P * Bx b T P)

lemma pick_same (lnf : ℝ → ℝ) {B z : ℝ} (h : B < z) : pick lnf B z z z = (z, lnf z) := by
  unfold pick lnfOr
  simp [h]

/-- What a root gives. -/
structure RootOf (u w a b T P z : ℝ) : Prop where
  gt : Bx b T P < z
  le : z ≤ Bx b T P + 1
  U : 0 < z + u * Bx b T P
  W : 0 < z + w * Bx b T P
  vb : b < z * Rgas * T / P
  vU : 0 < z * Rgas * T / P + u * b
  vW : 0 < z * Rgas * T / P + w * b
  eos : P = Rgas * T / (z * Rgas * T / P - b) - a / ((z * Rgas * T / P + u * b) * (z * Rgas * T / P + w * b))
  slope : -Rgas * T / (z * Rgas * T / P - b) ^ 2 + a * (2 * (z * Rgas * T / P) + (u + w) * b)
      / ((z * Rgas * T / P + u * b) * (z * Rgas * T / P + w * b)) ^ 2 ≠ 0

lemma rootOf {u w a b T P a2 a1 a0 z : ℝ} (hT : 0 < T) (hP : 0 < P) (ha : 0 ≤ a) (hb : 0 < b) (hu : 0 < 1 + u) (hw : 0 < 1 + w)
    (hc : ∀ x, x ^ 3 + a2 * x ^ 2 + a1 * x + a0 = (x + u * Bx b T P) * (x + w * Bx b T P) * (x - Bx b T P - 1) + Ax a T P * (x - Bx b T P))
    (hd : cq a2 a1 ^ 3 < cr a2 a1 a0 ^ 2) (hz : z ^ 3 + a2 * z ^ 2 + a1 * z + a0 = 0) : RootOf u w a b T P z := by
  have hR := Rpos
  have hB : 0 < Bx b T P := by unfold Bx; positivity
  have hA : 0 ≤ Ax a T P := by unfold Ax; positivity
  obtain ⟨g1, g2⟩ := root_range hA hB hu hw hc hd hz
  have hU : 0 < z + u * Bx b T P := by nlinarith
  have hW : 0 < z + w * Bx b T P := by nlinarith
  have e1 : ∀ x : ℝ, z * Rgas * T / P + x * b = (z + x * Bx b T P) * (Rgas * T / P) := by intro x; unfold Bx; field_simp
  have e0 : z * Rgas * T / P - b = (z - Bx b T P) * (Rgas * T / P) := by unfold Bx; field_simp
  refine ⟨g1, g2, hU, hW, ?_, ?_, ?_, ?_, ?_⟩
  · have : 0 < z * Rgas * T / P - b := by rw [e0]; exact mul_pos (by linarith) (by positivity)
    linarith
  · rw [e1]; positivity
  · rw [e1]; positivity
  · exact eos_of_cubic hR hT hP g1 hU hW (by have := hc z; rw [hz] at this; exact this.symm)
  · exact dPdV_ne hR hT hP g1 hU hW hc hd.ne hz

lemma pr_rootOf {a b T P : ℝ} (hT : 0 < T) (hP : 0 < P) (ha : 0 ≤ a) (hb : 0 < b) (h : PrOne a b T P) :
    RootOf (1 + Real.sqrt 2) (1 - Real.sqrt 2) a b T P (prZ a b T P) :=
  rootOf hT hP ha hb (by linarith [sqrt2_pos]) (by linarith [sqrt2_lt]) (pr_cubic _ _) h.1 (oneRoot_root h.1.le h.2)

lemma srk_rootOf {a b T P : ℝ} (hT : 0 < T) (hP : 0 < P) (ha : 0 ≤ a) (hb : 0 < b) (h : SrkOne a b T P) :
    RootOf 1 0 a b T P (srkZ a b T P) :=
  rootOf hT hP ha hb (by norm_num) (by norm_num) (srk_cubic _ _) h.1 (oneRoot_root h.1.le h.2)

lemma prPure_one {c T P Tc Pc : ℝ} {p : AB} (hT : 0 < T) (hP : 0 < P) (ha : 0 ≤ p.a) (hb : 0 < p.b) (h : PrOne p.a p.b T P) :
    prPure c T P Tc Pc p = some (prProps c T P Tc Pc p (Ax p.a T P) (Bx p.b T P)
      (prZ p.a p.b T P, prLnf (Ax p.a T P) (Bx p.b T P) (prZ p.a p.b T P))) := by
  unfold prPure
  have := cardano_one h.1.le h.2
  unfold Ax Bx at this
  dsimp only
  rw [this]
  simp only [Option.map_some]
  change some (prProps c T P Tc Pc p (Ax p.a T P) (Bx p.b T P) (pick (prLnf (Ax p.a T P) (Bx p.b T P)) (Bx p.b T P)
    (prZ p.a p.b T P) (prZ p.a p.b T P) (prZ p.a p.b T P))) = _
  rw [pick_same _ (pr_rootOf hT hP ha hb h).gt]

lemma srkPure_one {T P : ℝ} {p : AB} (hT : 0 < T) (hP : 0 < P) (ha : 0 ≤ p.a) (hb : 0 < p.b) (h : SrkOne p.a p.b T P) :
    srkPure T P p = some (srkProps T P p (Bx p.b T P)
      (srkZ p.a p.b T P, srkLnf (Ax p.a T P) (Bx p.b T P) (srkZ p.a p.b T P))) := by
  unfold srkPure
  have := cardano_one h.1.le h.2
  unfold Ax Bx at this
  dsimp only
  rw [this]
  simp only [Option.map_some]
  change some (srkProps T P p (Bx p.b T P) (pick (srkLnf (Ax p.a T P) (Bx p.b T P)) (Bx p.b T P)
    (srkZ p.a p.b T P) (srkZ p.a p.b T P) (srkZ p.a p.b T P))) = _
  rw [pick_same _ (srk_rootOf hT hP ha hb h).gt]

end ThermoFun.Gas
