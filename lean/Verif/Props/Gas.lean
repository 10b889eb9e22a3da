import Verif.Lemmas.GasDeriv

/-!
The cubic solver of the gas models, the volumes and the fugacity coefficients.
-/

namespace ThermoFun.Gas

open Topology Filter

/-! ### Specification -/

/-- A monic cubic. -/
def cubic (a2 a1 a0 z : ℝ) : ℝ := z ^ 3 + a2 * z ^ 2 + a1 * z + a0

/-- The discriminant of a monic cubic: positive for three different real roots, negative for a single real root. -/
def discr (a2 a1 a0 : ℝ) : ℝ := 18 * a2 * a1 * a0 - 4 * a2 ^ 3 * a0 + a2 ^ 2 * a1 ^ 2 - 4 * a1 ^ 3 - 27 * a0 ^ 2

lemma discr_eq (a2 a1 a0 : ℝ) : discr a2 a1 a0 = 108 * (cq a2 a1 ^ 3 - cr a2 a1 a0 ^ 2) := by unfold discr cq cr; ring

/-- 54 times the quantity r of Cardano's method is 27 times the value at the inflexion point. -/
lemma inflexion_eq (a2 a1 a0 : ℝ) : cubic a2 a1 a0 (-a2 / 3) = 2 * cr a2 a1 a0 := by unfold cubic cr; ring

/-- The Peng-Robinson equation of state. -/
noncomputable def prPressure (a b T v : ℝ) : ℝ := Rgas * T / (v - b) - a / (v ^ 2 + 2 * b * v - b ^ 2)

/-- The Soave-Redlich-Kwong equation of state. -/
noncomputable def srkPressure (a b T v : ℝ) : ℝ := Rgas * T / (v - b) - a / (v * (v + b))

/-- The Peng-Robinson equation has a single real solution, which is not the inflexion point of the cubic. -/
def PrSingle (a b T P : ℝ) : Prop :=
  let A := a * P / (Rgas * T) ^ 2
  let B := b * P / (Rgas * T)
  discr (B - 1) (A - 3 * B ^ 2 - 2 * B) (B ^ 3 + B ^ 2 - A * B) < 0 ∧
  cubic (B - 1) (A - 3 * B ^ 2 - 2 * B) (B ^ 3 + B ^ 2 - A * B) (-(B - 1) / 3) ≠ 0

/-- The same for the SRK equation. -/
def SrkSingle (a b T P : ℝ) : Prop :=
  let A := a * P / (Rgas * T) ^ 2
  let B := b * P / (Rgas * T)
  discr (-1) (A - B - B ^ 2) (-A * B) < 0 ∧ cubic (-1) (A - B - B ^ 2) (-A * B) (1 / 3) ≠ 0

lemma PrSingle.one {a b T P : ℝ} (h : PrSingle a b T P) : PrOne a b T P := by
  unfold PrSingle at h
  dsimp only at h
  rw [discr_eq, inflexion_eq, mul_pow] at h
  refine ⟨?_, fun h0 => h.2 (by rw [← mul_zero (2 : ℝ)]; congr 1)⟩
  have := h.1
  change 108 * (cq (Bx b T P - 1) (Ax a T P - 3 * Bx b T P ^ 2 - 2 * Bx b T P) ^ 3
    - cr (Bx b T P - 1) (Ax a T P - 3 * Bx b T P ^ 2 - 2 * Bx b T P) (Bx b T P ^ 3 + Bx b T P ^ 2 - Ax a T P * Bx b T P) ^ 2) < 0 at this
  linarith

lemma SrkSingle.one {a b T P : ℝ} (h : SrkSingle a b T P) : SrkOne a b T P := by
  unfold SrkSingle at h
  dsimp only at h
  rw [discr_eq, show (1 / 3 : ℝ) = -(-1) / 3 by norm_num, inflexion_eq, mul_pow] at h
  refine ⟨?_, fun h0 => h.2 (by rw [← mul_zero (2 : ℝ)]; congr 1)⟩
  have := h.1
  change 108 * (cq (-1) (Ax a T P - Bx b T P - Bx b T P ^ 2) ^ 3
    - cr (-1) (Ax a T P - Bx b T P - Bx b T P ^ 2) (-Ax a T P * Bx b T P) ^ 2) < 0 at this
  linarith

/-! ### C99: the cubic solver -/

/-- **C99** (one real root): if the discriminant is not positive and the inflexion point is no root, the solver returns one number three
times; it is a root, and the only one if the discriminant is negative.
Missing from C99: roots at the inflexion point, double roots and exact roots where there are three, see the theorems below. -/
theorem C99_one_partial (a2 a1 a0 : ℝ) (hd : discr a2 a1 a0 ≤ 0) (h0 : cubic a2 a1 a0 (-a2 / 3) ≠ 0) :
    ∃ z, cardano a2 a1 a0 = some (z, z, z) ∧ cubic a2 a1 a0 z = 0 ∧
      (discr a2 a1 a0 < 0 → ∀ z', cubic a2 a1 a0 z' = 0 → z' = z) := by
  rw [discr_eq] at hd ⊢
  rw [inflexion_eq] at h0
  have h0' : cr a2 a1 a0 ≠ 0 := fun h => h0 (by rw [h, mul_zero])
  have hd' : cq a2 a1 ^ 3 ≤ cr a2 a1 a0 ^ 2 := by linarith
  refine ⟨_, cardano_one hd' h0', oneRoot_root hd' h0', fun h z' hz' => ?_⟩
  exact root_unique (by linarith) hz' (oneRoot_root hd' h0')

/-- z³ + z - 2 = 0 has the root 1 only. -/
example : ∃ z, cardano 0 1 (-2) = some (z, z, z) ∧ z = 1 := by
  obtain ⟨z, h1, -, h3⟩ := C99_one_partial 0 1 (-2) (by unfold discr; norm_num) (by unfold cubic; norm_num)
  exact ⟨z, h1, (h3 (by unfold discr; norm_num) 1 (by unfold cubic; norm_num)).symm⟩

/-- **C99** (three real roots): the first number is a root; at the two others the cubic differs from 0 by at most 2·10⁻⁷ q^(3/2), and every
root is within 7·10⁻⁸ √q of a returned number, q = (a2² - 3 a1)/9. -/
theorem C99_three_partial (a2 a1 a0 : ℝ) (hd : 0 < discr a2 a1 a0) :
    ∃ z1 z2 z3, cardano a2 a1 a0 = some (z1, z2, z3) ∧ cubic a2 a1 a0 z1 = 0 ∧
      |cubic a2 a1 a0 z2| ≤ 2e-7 * (Real.sqrt ((a2 ^ 2 - 3 * a1) / 9)) ^ 3 ∧
      |cubic a2 a1 a0 z3| ≤ 2e-7 * (Real.sqrt ((a2 ^ 2 - 3 * a1) / 9)) ^ 3 ∧
      ∀ z, cubic a2 a1 a0 z = 0 → |z - z1| ≤ 7e-8 * Real.sqrt ((a2 ^ 2 - 3 * a1) / 9) ∨
        |z - z2| ≤ 7e-8 * Real.sqrt ((a2 ^ 2 - 3 * a1) / 9) ∨ |z - z3| ≤ 7e-8 * Real.sqrt ((a2 ^ 2 - 3 * a1) / 9) := by
  rw [discr_eq] at hd
  have h : cr a2 a1 a0 ^ 2 < cq a2 a1 ^ 3 := by linarith
  obtain ⟨hq, -⟩ := three_facts h
  have hs := Real.sqrt_nonneg (cq a2 a1)
  have hsq := Real.sq_sqrt hq.le
  have hpi := pi_lit
  have hcos : ∀ φ e : ℝ, Real.cos (φ + e) = Real.cos (cth a2 a1 a0) → ∀ δ, |δ - e| ≤ 1e-7 →
      |2 * (cq a2 a1 * Real.sqrt (cq a2 a1)) * (Real.cos (cth a2 a1 a0) - Real.cos (φ + δ))| ≤ 2e-7 * Real.sqrt (cq a2 a1) ^ 3 := by
    intro φ e he δ hδ
    rw [← he, abs_mul]
    have h1 : |Real.cos (φ + e) - Real.cos (φ + δ)| ≤ 1e-7 := by
      refine (Real.abs_cos_sub_cos_le _ _).trans ?_
      rw [abs_sub_comm, show φ + δ - (φ + e) = δ - e by ring]; exact hδ
    have h2 : |2 * (cq a2 a1 * Real.sqrt (cq a2 a1))| = 2 * Real.sqrt (cq a2 a1) ^ 3 := by
      rw [abs_of_nonneg (by positivity)]
      rw [pow_succ, hsq]
    rw [h2]
    have h3 : 0 ≤ 2 * Real.sqrt (cq a2 a1) ^ 3 := by positivity
    calc 2 * Real.sqrt (cq a2 a1) ^ 3 * |Real.cos (φ + e) - Real.cos (φ + δ)| ≤ 2 * Real.sqrt (cq a2 a1) ^ 3 * 1e-7 :=
          mul_le_mul_of_nonneg_left h1 h3
      _ = 2e-7 * Real.sqrt (cq a2 a1) ^ 3 := by ring
  have hnear : ∀ φ δ e : ℝ, |e - δ| ≤ 3.5e-8 → |cosRoot a2 a1 (φ + e) - cosRoot a2 a1 (φ + δ)| ≤ 7e-8 * Real.sqrt (cq a2 a1) := by
    intro φ δ e hδ
    unfold cosRoot
    have h1 : |Real.cos (φ + e) - Real.cos (φ + δ)| ≤ 3.5e-8 := by
      refine (Real.abs_cos_sub_cos_le _ _).trans ?_
      rw [show φ + e - (φ + δ) = e - δ by ring]; exact hδ
    rw [show -2 * Real.sqrt (cq a2 a1) * Real.cos (φ + e) - a2 / 3 - (-2 * Real.sqrt (cq a2 a1) * Real.cos (φ + δ) - a2 / 3)
      = (2 * Real.sqrt (cq a2 a1)) * -(Real.cos (φ + e) - Real.cos (φ + δ)) by ring, abs_mul, abs_neg,
      abs_of_nonneg (by positivity : (0 : ℝ) ≤ 2 * Real.sqrt (cq a2 a1))]
    calc 2 * Real.sqrt (cq a2 a1) * |Real.cos (φ + e) - Real.cos (φ + δ)| ≤ 2 * Real.sqrt (cq a2 a1) * 3.5e-8 :=
          mul_le_mul_of_nonneg_left h1 (by positivity)
      _ = 7e-8 * Real.sqrt (cq a2 a1) := by ring
  rw [abs_le] at hpi
  refine ⟨_, _, _, cardano_three h, ?_, ?_, ?_, ?_⟩
  · unfold cubic
    rw [cosRoot_eval h, show 3 * (cth a2 a1 a0 / 3) = cth a2 a1 a0 by ring]; ring
  · unfold cubic
    rw [cosRoot_eval h, show 3 * (cth a2 a1 a0 / 3 + 2 / 3 * 3.1415927) = cth a2 a1 a0 + 2 * 3.1415927 by ring]
    refine hcos _ (2 * Real.pi) (Real.cos_add_two_pi _) _ ?_
    rw [abs_le]; constructor <;> linarith
  · unfold cubic
    rw [cosRoot_eval h, show 3 * (cth a2 a1 a0 / 3 - 2 / 3 * 3.1415927) = cth a2 a1 a0 + (-(2 * 3.1415927)) by ring]
    refine hcos _ (-(2 * Real.pi)) (by rw [← sub_eq_add_neg, Real.cos_sub_two_pi]) _ ?_
    rw [abs_le]; constructor <;> linarith
  · intro z hz
    rcases three_all h hz with hz | hz | hz
    · left; rw [hz, sub_self, abs_zero]; positivity
    · right; left
      rw [hz]
      refine hnear _ _ _ ?_
      rw [abs_le]; constructor <;> linarith
    · right; right
      rw [hz, sub_eq_add_neg (cth a2 a1 a0 / 3) (2 / 3 * Real.pi), sub_eq_add_neg (cth a2 a1 a0 / 3) (2 / 3 * 3.1415927)]
      refine hnear _ _ _ ?_
      rw [abs_le]; constructor <;> linarith

/-- (z-1)(z-2)(z-4) has three real roots. -/
example : ∃ z1 z2 z3, cardano (-7) 14 (-8) = some (z1, z2, z3) ∧ cubic (-7) 14 (-8) z1 = 0 := by
  obtain ⟨z1, z2, z3, h, h1, -⟩ := C99_three_partial (-7) 14 (-8) (by unfold discr; norm_num)
  exact ⟨z1, z2, z3, h, h1⟩

/-- **C99** is violated: a root at the inflexion point is lost.  For z³ + z = 0 the solver divides 0 by 0 and returns NaN instead of the root
0. -/
theorem C99_inflexion_refuted : cardano 0 1 0 = none ∧ cubic 0 1 0 0 = 0 := by
  constructor
  · unfold cardano
    dsimp only
    rw [if_neg (by norm_num), if_pos (by norm_num)]
  · unfold cubic; norm_num

/-- **C99** is violated: if the discriminant is 0 only the simple root is returned.  For (z-1)²(z+2) = z³ - 3z + 2 the solver returns no
number but -2, although 1 is a root. -/
theorem C99_double_refuted : ∃ z, cardano 0 (-3) 2 = some (z, z, z) ∧ cubic 0 (-3) 2 1 = 0 ∧ z ≠ 1 := by
  obtain ⟨z, h1, h2, -⟩ := C99_one_partial 0 (-3) 2 (by unfold discr; norm_num) (by unfold cubic; norm_num)
  refine ⟨z, h1, by unfold cubic; norm_num, ?_⟩
  have hz : z = oneRoot 0 (-3) 2 := by
    have := cardano_one (a2 := 0) (a1 := -3) (a0 := 2) (by unfold cq cr; norm_num) (by unfold cr; norm_num)
    rw [h1] at this
    exact (Prod.mk.inj (Option.some.inj this)).1
  have e : oneRoot 0 (-3) 2 = -2 := by
    unfold oneRoot cr cq
    norm_num
  rw [hz, e]; norm_num

/-- **C99** is violated: because of the literal 3.1415927 for π the second and third of three real roots are not roots.  For z³ - 3z = 0
neither number is one of the roots 0, √3, -√3. -/
theorem C99_three_refuted : ∃ z1 z2 z3, cardano 0 (-3) 0 = some (z1, z2, z3) ∧ cubic 0 (-3) 0 z2 ≠ 0 ∧ cubic 0 (-3) 0 z3 ≠ 0 := by
  have h : cr 0 (-3) 0 ^ 2 < cq 0 (-3) ^ 3 := by unfold cr cq; norm_num
  have hq : cq 0 (-3) = 1 := by unfold cq; norm_num
  have hth : cth 0 (-3) 0 = Real.pi / 2 := by
    unfold cth
    rw [show cr 0 (-3) 0 = 0 by unfold cr; norm_num, zero_div, Real.arccos_zero]
  have h1 := Real.pi_gt_d20
  have h2 := Real.pi_lt_d20
  have hsin : 0 < Real.sin (2 * 3.1415927 : ℝ) := by
    rw [show (2 * 3.1415927 : ℝ) = (2 * 3.1415927 - 2 * Real.pi) + 2 * Real.pi by ring, Real.sin_add_two_pi]
    apply Real.sin_pos_of_pos_of_lt_pi <;> norm_num at * <;> linarith
  refine ⟨_, _, _, cardano_three h, ?_, ?_⟩
  · unfold cubic
    rw [cosRoot_eval h, hq, hth, Real.sqrt_one, Real.cos_pi_div_two,
      show 3 * (Real.pi / 2 / 3 + 2 / 3 * 3.1415927) = 2 * 3.1415927 + Real.pi / 2 by ring, Real.cos_add_pi_div_two]
    intro h0
    linarith
  · unfold cubic
    rw [cosRoot_eval h, hq, hth, Real.sqrt_one, Real.cos_pi_div_two,
      show 3 * (Real.pi / 2 / 3 - 2 / 3 * 3.1415927) = Real.pi / 2 - 2 * 3.1415927 by ring, Real.cos_pi_div_two_sub]
    intro h0
    linarith

/-! ### C100: the volume solves the equation of state -/

lemma pr_pressure (a b T v : ℝ) : prPressure a b T v = Rgas * T / (v - b) - a / ((v + (1 + Real.sqrt 2) * b) * (v + (1 - Real.sqrt 2) * b)) := by
  unfold prPressure
  rw [pr_den, show v ^ 2 + 2 * b * v - b ^ 2 = v * (v + b) + b * (v - b) by ring]

lemma srk_pressure (a b T v : ℝ) : srkPressure a b T v = Rgas * T / (v - b) - a / ((v + 1 * b) * (v + 0 * b)) := by
  unfold srkPressure
  rw [show (v + 1 * b) * (v + 0 * b) = v * (v + b) by ring]

/-- The cubic from the equation of state. -/
lemma cubic_of_eos {u w R T P a b v : ℝ} (hR : 0 < R) (hT : 0 < T) (hP : 0 < P) (h0 : b < v) (h1 : v + u * b ≠ 0) (h2 : v + w * b ≠ 0)
    (h : P = R * T / (v - b) - a / ((v + u * b) * (v + w * b))) :
    (P * v / (R * T) + u * (b * P / (R * T))) * (P * v / (R * T) + w * (b * P / (R * T))) * (P * v / (R * T) - b * P / (R * T) - 1)
      + a * P / (R ^ 2 * T ^ 2) * (P * v / (R * T) - b * P / (R * T)) = 0 := by
  have hx : v - b ≠ 0 := by linarith
  have e : ∀ x : ℝ, P * v / (R * T) + x * (b * P / (R * T)) = (v + x * b) * (P / (R * T)) := by intro x; field_simp
  have e0 : P * v / (R * T) - b * P / (R * T) = (v - b) * (P / (R * T)) := by field_simp
  rw [e, e, e0]
  generalize v + u * b = U at *
  generalize v + w * b = W at *
  generalize v - b = X at *
  have h' : P * (X * (U * W)) = R * T * (U * W) - a * X := by
    rw [h]; field_simp
  have : U * (P / (R * T)) * (W * (P / (R * T))) * (X * (P / (R * T)) - 1) + a * P / (R ^ 2 * T ^ 2) * (X * (P / (R * T)))
      = (P * (X * (U * W)) - R * T * (U * W) + a * X) * (P ^ 2 / (R * T) ^ 3) := by
    field_simp
  rw [this, h']
  ring

/-- **C100** (Peng-Robinson): where the cubic has one real root, the volume returned exceeds b and solves the equation of state; it is the
only such volume.  This covers PRSV and PR78.
Missing from C100: the region of three real roots, where the volumes are approximate (`C100_pr_three_partial`). -/
theorem C100_pr_partial (c T P Tc Pc : ℝ) (p : AB) (hT : 0 < T) (hP : 0 < P) (ha : 0 ≤ p.a) (hb : 0 < p.b) (h : PrSingle p.a p.b T P) :
    ∃ f, prPure c T P Tc Pc p = some f ∧ p.b < f.v ∧ P = prPressure p.a p.b T f.v ∧
      ∀ v, p.b < v → P = prPressure p.a p.b T v → v = f.v := by
  have hR := Rpos
  have r := pr_rootOf hT hP ha hb h.one
  refine ⟨_, prPure_one hT hP ha hb h.one, r.vb, ?_, ?_⟩
  · rw [pr_pressure]; exact r.eos
  · intro v hv hP'
    rw [pr_pressure] at hP'
    have hc := cubic_of_eos hR hT hP hv (by nlinarith [sqrt2_pos]) (by nlinarith [sqrt2_lt, sqrt2_pos]) hP'
    have hc' := pr_cubic (Ax p.a T P) (Bx p.b T P) (P * v / (Rgas * T))
    unfold Ax Bx at hc'
    rw [hc] at hc'
    have : P * v / (Rgas * T) = prZ p.a p.b T P := root_unique h.one.1 hc' (oneRoot_root h.one.1.le h.one.2)
    change v = prZ p.a p.b T P * Rgas * T / P
    rw [← this]; field_simp

/-- **C100** (SRK): the same. -/
theorem C100_srk_partial (T P : ℝ) (p : AB) (hT : 0 < T) (hP : 0 < P) (ha : 0 ≤ p.a) (hb : 0 < p.b) (h : SrkSingle p.a p.b T P) :
    ∃ f, srkPure T P p = some f ∧ p.b < f.v ∧ P = srkPressure p.a p.b T f.v ∧
      ∀ v, p.b < v → P = srkPressure p.a p.b T v → v = f.v := by
  have hR := Rpos
  have r := srk_rootOf hT hP ha hb h.one
  refine ⟨_, srkPure_one hT hP ha hb h.one, r.vb, ?_, ?_⟩
  · rw [srk_pressure]; exact r.eos
  · intro v hv hP'
    rw [srk_pressure] at hP'
    have hc := cubic_of_eos hR hT hP hv (by linarith) (by linarith) hP'
    have hc' := srk_cubic (Ax p.a T P) (Bx p.b T P) (P * v / (Rgas * T))
    unfold Ax Bx at hc'
    rw [hc] at hc'
    have : P * v / (Rgas * T) = srkZ p.a p.b T P := root_unique h.one.1 hc' (oneRoot_root h.one.1.le h.one.2)
    change v = srkZ p.a p.b T P * Rgas * T / P
    rw [← this]; field_simp

/-- Parameters with A = 1/2 and B = 1/4 at RT = 8.31451·100 and P = 100, where the cubic has one real root. -/
noncomputable def exAB : AB := { a := 0.005 * (Rgas * 100) ^ 2, b := 0.0025 * (Rgas * 100), da := -1000, d2a := 5 }

lemma exAB_vals : 0 ≤ exAB.a ∧ 0 < exAB.b ∧ exAB.a * 100 / (Rgas * 100) ^ 2 = 1 / 2 ∧ exAB.b * 100 / (Rgas * 100) = 1 / 4 := by
  have := Rpos
  unfold exAB
  refine ⟨by positivity, by positivity, ?_, ?_⟩
  · field_simp; norm_num
  · field_simp; norm_num

lemma exAB_pr : PrSingle exAB.a exAB.b 100 100 := by
  obtain ⟨-, -, h1, h2⟩ := exAB_vals
  unfold PrSingle
  dsimp only
  rw [h1, h2]
  unfold discr cubic
  norm_num

lemma exAB_srk : SrkSingle exAB.a exAB.b 100 100 := by
  obtain ⟨-, -, h1, h2⟩ := exAB_vals
  unfold SrkSingle
  dsimp only
  rw [h1, h2]
  unfold discr cubic
  norm_num

example : ∃ f, prPure 0.457235529 100 100 300 50 exAB = some f ∧ 100 = prPressure exAB.a exAB.b 100 f.v := by
  obtain ⟨f, h1, -, h2, -⟩ := C100_pr_partial 0.457235529 100 100 300 50 exAB (by norm_num) (by norm_num) exAB_vals.1 exAB_vals.2.1 exAB_pr
  exact ⟨f, h1, h2⟩

example : ∃ f, srkPure 100 100 exAB = some f ∧ 100 = srkPressure exAB.a exAB.b 100 f.v := by
  obtain ⟨f, h1, -, h2, -⟩ := C100_srk_partial 100 100 exAB (by norm_num) (by norm_num) exAB_vals.1 exAB_vals.2.1 exAB_srk
  exact ⟨f, h1, h2⟩

/-- The equation of state from any real root of the cubic. -/
lemma eos_of_root {u w R T P a b z : ℝ} (hR : 0 < R) (hT : 0 < T) (hP : 0 < P) (ha : 0 < a) (hb : 0 < b) (hu : 0 < 1 + u) (hw : 0 < 1 + w)
    (hc : (z + u * (b * P / (R * T))) * (z + w * (b * P / (R * T))) * (z - b * P / (R * T) - 1)
      + a * P / (R ^ 2 * T ^ 2) * (z - b * P / (R * T)) = 0) :
    P = R * T / (z * R * T / P - b) - a / ((z * R * T / P + u * b) * (z * R * T / P + w * b)) := by
  have hA : 0 < a * P / (R ^ 2 * T ^ 2) := by positivity
  have hB : 0 < b * P / (R * T) := by positivity
  have e0 : z * R * T / P - b = (z - b * P / (R * T)) * (R * T / P) := by field_simp
  have e1 : ∀ x : ℝ, z * R * T / P + x * b = (z + x * (b * P / (R * T))) * (R * T / P) := by intro x; field_simp
  rw [e0, e1, e1]
  have hA' : a * P / (R ^ 2 * T ^ 2) * (R ^ 2 * T ^ 2) = a * P := by field_simp
  generalize a * P / (R ^ 2 * T ^ 2) = A at *
  generalize b * P / (R * T) = B at *
  have n0 : z - B ≠ 0 := by
    intro h
    have hz : z = B := by linarith
    rw [hz] at hc
    have h3 : 0 < (B + u * B) * (B + w * B) := by
      rw [show (B + u * B) * (B + w * B) = B ^ 2 * ((1 + u) * (1 + w)) by ring]; positivity
    nlinarith
  have n1 : z + u * B ≠ 0 := by
    intro h
    rw [h] at hc
    have : A * (z - B) = 0 := by linarith
    rcases mul_eq_zero.mp this with h' | h'
    · linarith
    · exact n0 h'
  have n2 : z + w * B ≠ 0 := by
    intro h
    rw [h] at hc
    have : A * (z - B) = 0 := by linarith
    rcases mul_eq_zero.mp this with h' | h'
    · linarith
    · exact n0 h'
  generalize z + u * B = U at *
  generalize z + w * B = W at *
  generalize z - B = X at *
  have hc' : U * W * R ^ 2 * T ^ 2 * (X - 1) + a * P * X = 0 := by
    linear_combination (R ^ 2 * T ^ 2) * hc - X * hA'
  field_simp
  linear_combination hc'

lemma pick_mem (lnf : ℝ → ℝ) (B z1 z2 z3 : ℝ) :
    ((pick lnf B z1 z2 z3).1 = z1 ∨ (pick lnf B z1 z2 z3).1 = z2 ∨ (pick lnf B z1 z2 z3).1 = z3) ∧
    (pick lnf B z1 z2 z3).2 = lnfOr lnf B (pick lnf B z1 z2 z3).1 ∧
    (pick lnf B z1 z2 z3).2 ≤ lnfOr lnf B z1 ∧ (pick lnf B z1 z2 z3).2 ≤ lnfOr lnf B z2 ∧ (pick lnf B z1 z2 z3).2 ≤ lnfOr lnf B z3 := by
  unfold pick
  dsimp only
  split_ifs with h1 h2 h2 <;> dsimp only at * <;> simp <;> (try constructor) <;> (try constructor) <;> linarith

/-- Every number the solver returns is close to a root. -/
lemma near_root {a2 a1 a0 z1 z2 z3 : ℝ} (hd : 0 < discr a2 a1 a0) (hc : cardano a2 a1 a0 = some (z1, z2, z3)) {z : ℝ}
    (hz : z = z1 ∨ z = z2 ∨ z = z3) : ∃ y, cubic a2 a1 a0 y = 0 ∧ |z - y| ≤ 7e-8 * Real.sqrt ((a2 ^ 2 - 3 * a1) / 9) := by
  rw [discr_eq] at hd
  have h : cr a2 a1 a0 ^ 2 < cq a2 a1 ^ 3 := by linarith
  rw [cardano_three h] at hc
  have e := Option.some.inj hc
  rw [Prod.mk.injEq, Prod.mk.injEq] at e
  obtain ⟨rfl, rfl, rfl⟩ := e
  have hpi := pi_lit
  rw [abs_le] at hpi
  have hnear : ∀ φ ψ : ℝ, |φ - ψ| ≤ 3.5e-8 → |cosRoot a2 a1 φ - cosRoot a2 a1 ψ| ≤ 7e-8 * Real.sqrt ((a2 ^ 2 - 3 * a1) / 9) := by
    intro φ ψ hδ
    change |cosRoot a2 a1 φ - cosRoot a2 a1 ψ| ≤ 7e-8 * Real.sqrt (cq a2 a1)
    unfold cosRoot
    have h1 : |Real.cos φ - Real.cos ψ| ≤ 3.5e-8 := (Real.abs_cos_sub_cos_le _ _).trans hδ
    rw [show -2 * Real.sqrt (cq a2 a1) * Real.cos φ - a2 / 3 - (-2 * Real.sqrt (cq a2 a1) * Real.cos ψ - a2 / 3)
      = (2 * Real.sqrt (cq a2 a1)) * -(Real.cos φ - Real.cos ψ) by ring, abs_mul, abs_neg,
      abs_of_nonneg (by positivity : (0 : ℝ) ≤ 2 * Real.sqrt (cq a2 a1))]
    calc 2 * Real.sqrt (cq a2 a1) * |Real.cos φ - Real.cos ψ| ≤ 2 * Real.sqrt (cq a2 a1) * 3.5e-8 :=
          mul_le_mul_of_nonneg_left h1 (by positivity)
      _ = 7e-8 * Real.sqrt (cq a2 a1) := by ring
  rcases hz with rfl | rfl | rfl
  · refine ⟨cosRoot a2 a1 (cth a2 a1 a0 / 3), ?_, by rw [sub_self, abs_zero]; positivity⟩
    unfold cubic
    rw [cosRoot_eval h, show 3 * (cth a2 a1 a0 / 3) = cth a2 a1 a0 by ring]; ring
  · refine ⟨cosRoot a2 a1 (cth a2 a1 a0 / 3 + 2 / 3 * Real.pi), ?_, hnear _ _ ?_⟩
    · unfold cubic
      rw [cosRoot_eval h, show 3 * (cth a2 a1 a0 / 3 + 2 / 3 * Real.pi) = cth a2 a1 a0 + 2 * Real.pi by ring, Real.cos_add_two_pi]; ring
    · rw [abs_le]; constructor <;> linarith
  · refine ⟨cosRoot a2 a1 (cth a2 a1 a0 / 3 - 2 / 3 * Real.pi), ?_, hnear _ _ ?_⟩
    · unfold cubic
      rw [cosRoot_eval h, show 3 * (cth a2 a1 a0 / 3 - 2 / 3 * Real.pi) = cth a2 a1 a0 - 2 * Real.pi by ring, Real.cos_sub_two_pi]; ring
    · rw [abs_le]; constructor <;> linarith

lemma v_near {z y T P e : ℝ} (hT : 0 < T) (hP : 0 < P) (h : |z - y| ≤ e) : |z * Rgas * T / P - y * Rgas * T / P| ≤ e * (Rgas * T / P) := by
  have hR := Rpos
  rw [show z * Rgas * T / P - y * Rgas * T / P = (z - y) * (Rgas * T / P) by ring, abs_mul, abs_of_pos (by positivity : 0 < Rgas * T / P)]
  exact mul_le_mul_of_nonneg_right h (by positivity)

/-- **C100** (Peng-Robinson, three real roots): the volume differs from a solution of the equation of state by at most 7·10⁻⁸ √q RT/P.  (Which of
the roots it belongs to is the subject of `C100_stable_partial`.) -/
theorem C100_pr_three_partial (c T P Tc Pc : ℝ) (p : AB) (hT : 0 < T) (hP : 0 < P) (ha : 0 < p.a) (hb : 0 < p.b)
    (hd : let A := p.a * P / (Rgas * T) ^ 2
      let B := p.b * P / (Rgas * T)
      0 < discr (B - 1) (A - 3 * B ^ 2 - 2 * B) (B ^ 3 + B ^ 2 - A * B)) :
    let A := p.a * P / (Rgas * T) ^ 2
    let B := p.b * P / (Rgas * T)
    ∃ f v, prPure c T P Tc Pc p = some f ∧ P = prPressure p.a p.b T v ∧
      |f.v - v| ≤ 7e-8 * Real.sqrt (((B - 1) ^ 2 - 3 * (A - 3 * B ^ 2 - 2 * B)) / 9) * (Rgas * T / P) := by
  have hR := Rpos
  dsimp only at hd ⊢
  rw [mul_pow] at hd ⊢
  obtain ⟨z1, z2, z3, hc, -⟩ := C99_three_partial _ _ _ hd
  unfold prPure
  dsimp only
  rw [hc, Option.map_some]
  have hm := pick_mem (prLnf (p.a * P / (Rgas ^ 2 * T ^ 2)) (p.b * P / (Rgas * T))) (p.b * P / (Rgas * T)) z1 z2 z3
  obtain ⟨y, hy, hy2⟩ := near_root hd hc hm.1
  refine ⟨_, y * Rgas * T / P, rfl, ?_, v_near hT hP hy2⟩
  rw [pr_pressure]
  unfold cubic at hy
  rw [pr_cubic] at hy
  exact eos_of_root hR hT hP ha hb (by linarith [sqrt2_pos]) (by linarith [sqrt2_lt]) hy

/-- **C100** (SRK, three real roots): the same. -/
theorem C100_srk_three_partial (T P : ℝ) (p : AB) (hT : 0 < T) (hP : 0 < P) (ha : 0 < p.a) (hb : 0 < p.b)
    (hd : let A := p.a * P / (Rgas * T) ^ 2
      let B := p.b * P / (Rgas * T)
      0 < discr (-1) (A - B - B ^ 2) (-A * B)) :
    let A := p.a * P / (Rgas * T) ^ 2
    let B := p.b * P / (Rgas * T)
    ∃ f v, srkPure T P p = some f ∧ P = srkPressure p.a p.b T v ∧
      |f.v - v| ≤ 7e-8 * Real.sqrt (((-1) ^ 2 - 3 * (A - B - B ^ 2)) / 9) * (Rgas * T / P) := by
  have hR := Rpos
  dsimp only at hd ⊢
  rw [mul_pow] at hd ⊢
  obtain ⟨z1, z2, z3, hc, -⟩ := C99_three_partial _ _ _ hd
  unfold srkPure
  dsimp only
  rw [hc, Option.map_some]
  have hm := pick_mem (srkLnf (p.a * P / (Rgas ^ 2 * T ^ 2)) (p.b * P / (Rgas * T))) (p.b * P / (Rgas * T)) z1 z2 z3
  obtain ⟨y, hy, hy2⟩ := near_root hd hc hm.1
  refine ⟨_, y * Rgas * T / P, rfl, ?_, v_near hT hP hy2⟩
  rw [srk_pressure]
  unfold cubic at hy
  rw [srk_cubic] at hy
  exact eos_of_root hR hT hP ha hb (by norm_num) (by norm_num) hy

/-- Parameters with A = 1/500 and B = 1/50 at RT = 8.31451·100 and P = 100, where both cubics have three real roots, one of them near 1. -/
noncomputable def exAB3 : AB := { a := 0.00002 * (Rgas * 100) ^ 2, b := 0.0002 * (Rgas * 100), da := -1000, d2a := 5 }

lemma exAB3_vals : 0 < exAB3.a ∧ 0 < exAB3.b ∧ exAB3.a * 100 / (Rgas * 100) ^ 2 = 1 / 500 ∧ exAB3.b * 100 / (Rgas * 100) = 1 / 50 := by
  have := Rpos
  unfold exAB3
  refine ⟨by positivity, by positivity, ?_, ?_⟩
  · field_simp; norm_num
  · field_simp; norm_num

example : ∃ f v, prPure 0.457235529 100 100 300 50 exAB3 = some f ∧ 100 = prPressure exAB3.a exAB3.b 100 v := by
  obtain ⟨h1, h2, h3, h4⟩ := exAB3_vals
  obtain ⟨f, v, e1, e2, -⟩ := C100_pr_three_partial 0.457235529 100 100 300 50 exAB3 (by norm_num) (by norm_num) h1 h2
    (by dsimp only; rw [h3, h4]; unfold discr; norm_num)
  exact ⟨f, v, e1, e2⟩

example : ∃ f v, srkPure 100 100 exAB3 = some f ∧ 100 = srkPressure exAB3.a exAB3.b 100 v := by
  obtain ⟨h1, h2, h3, h4⟩ := exAB3_vals
  obtain ⟨f, v, e1, e2, -⟩ := C100_srk_three_partial 100 100 exAB3 (by norm_num) (by norm_num) h1 h2
    (by dsimp only; rw [h3, h4]; unfold discr; norm_num)
  exact ⟨f, v, e1, e2⟩

/-- ln φ of the Peng-Robinson equation at a compressibility factor z. -/
noncomputable def prLnPhi (A B z : ℝ) : ℝ :=
  z - 1 - Real.log (z - B) - A / (2 * Real.sqrt 2 * B) * Real.log ((z + (1 + Real.sqrt 2) * B) / (z + (1 - Real.sqrt 2) * B))

/-- ln φ of the SRK equation. -/
noncomputable def srkLnPhi (A B z : ℝ) : ℝ := z - 1 - Real.log (z - B) - A / B * Real.log (1 + B / z)

/-- **C100** (choice of the root): of the numbers returned by the solver that exceed B, the one with the smallest fugacity coefficient is taken,
if any of these coefficients is less than exp 1000. -/
theorem C100_stable_partial (c T P Tc Pc : ℝ) (p : AB) (z1 z2 z3 : ℝ) :
    let A := p.a * P / (Rgas * T) ^ 2
    let B := p.b * P / (Rgas * T)
    (cardano (B - 1) (A - 3 * B ^ 2 - 2 * B) (B ^ 3 + B ^ 2 - A * B) = some (z1, z2, z3) →
      (∃ z, (z = z1 ∨ z = z2 ∨ z = z3) ∧ B < z ∧ prLnPhi A B z < 1000) →
      ∃ f z, prPure c T P Tc Pc p = some f ∧ (z = z1 ∨ z = z2 ∨ z = z3) ∧ B < z ∧ f.v = z * Rgas * T / P ∧ f.phi = Real.exp (prLnPhi A B z) ∧
        ∀ y, (y = z1 ∨ y = z2 ∨ y = z3) → B < y → f.phi ≤ Real.exp (prLnPhi A B y)) ∧
    (cardano (-1) (A - B - B ^ 2) (-A * B) = some (z1, z2, z3) →
      (∃ z, (z = z1 ∨ z = z2 ∨ z = z3) ∧ B < z ∧ srkLnPhi A B z < 1000) →
      ∃ f z, srkPure T P p = some f ∧ (z = z1 ∨ z = z2 ∨ z = z3) ∧ B < z ∧ f.v = z * Rgas * T / P ∧ f.phi = Real.exp (srkLnPhi A B z) ∧
        ∀ y, (y = z1 ∨ y = z2 ∨ y = z3) → B < y → f.phi ≤ Real.exp (srkLnPhi A B y)) := by
  have key : ∀ lnf : ℝ → ℝ, ∀ B : ℝ, (∃ z, (z = z1 ∨ z = z2 ∨ z = z3) ∧ B < z ∧ lnf z < 1000) →
      ((pick lnf B z1 z2 z3).1 = z1 ∨ (pick lnf B z1 z2 z3).1 = z2 ∨ (pick lnf B z1 z2 z3).1 = z3) ∧ B < (pick lnf B z1 z2 z3).1 ∧
      (pick lnf B z1 z2 z3).2 = lnf (pick lnf B z1 z2 z3).1 ∧
      ∀ y, (y = z1 ∨ y = z2 ∨ y = z3) → B < y → (pick lnf B z1 z2 z3).2 ≤ lnf y := by
    intro lnf B ⟨z, hz, hzB, hzl⟩
    obtain ⟨m1, m2, m3, m4, m5⟩ := pick_mem lnf B z1 z2 z3
    have hmin : ∀ y, (y = z1 ∨ y = z2 ∨ y = z3) → B < y → (pick lnf B z1 z2 z3).2 ≤ lnf y := by
      intro y hy hyB
      have e : lnfOr lnf B y = lnf y := by unfold lnfOr; rw [if_pos hyB]
      rw [← e]
      rcases hy with rfl | rfl | rfl
      exacts [m3, m4, m5]
    have hlt := lt_of_le_of_lt (hmin z hz hzB) hzl
    have hB : B < (pick lnf B z1 z2 z3).1 := by
      by_contra hn
      rw [m2] at hlt
      unfold lnfOr at hlt
      rw [if_neg hn] at hlt
      exact lt_irrefl _ hlt
    refine ⟨m1, hB, ?_, hmin⟩
    rw [m2]
    unfold lnfOr
    rw [if_pos hB]
  have e1 : ∀ A B z, prLnf A B z = prLnPhi A B z := by
    intro A B z
    unfold prLnf prLnPhi
    rw [sqrt8, mul_comm B (2 * Real.sqrt 2)]; ring
  have e2 : ∀ A B z, srkLnf A B z = srkLnPhi A B z := fun _ _ _ => rfl
  dsimp only
  rw [mul_pow]
  constructor
  · intro hc hz
    obtain ⟨k1, k2, k3, k4⟩ := key (prLnf (p.a * P / (Rgas ^ 2 * T ^ 2)) (p.b * P / (Rgas * T))) (p.b * P / (Rgas * T))
      (by obtain ⟨z, h1, h2, h3⟩ := hz; exact ⟨z, h1, h2, by rw [e1]; exact h3⟩)
    unfold prPure
    dsimp only
    rw [hc, Option.map_some]
    refine ⟨_, _, rfl, k1, k2, rfl, ?_, ?_⟩
    · rw [← e1, ← k3]; rfl
    · intro y hy hyB
      rw [← e1]
      exact Real.exp_le_exp.mpr (k4 y hy hyB)
  · intro hc hz
    obtain ⟨k1, k2, k3, k4⟩ := key (srkLnf (p.a * P / (Rgas ^ 2 * T ^ 2)) (p.b * P / (Rgas * T))) (p.b * P / (Rgas * T))
      (by obtain ⟨z, h1, h2, h3⟩ := hz; exact ⟨z, h1, h2, h3⟩)
    unfold srkPure
    dsimp only
    rw [hc, Option.map_some]
    refine ⟨_, _, rfl, k1, k2, rfl, ?_, ?_⟩
    · rw [← e2, ← k3]; rfl
    · intro y hy hyB
      rw [← e2]
      exact Real.exp_le_exp.mpr (k4 y hy hyB)

/-- With RT = 1, P = 1, a = 7/4 and b = 1/2 the Peng-Robinson cubic is (z - 1)(z² + z/2 + 1/2), with a = 3/2 the SRK cubic is
(z - 1)(z² + 3/4): the conditions hold, and the volume is 1. -/
example : (∃ f, prPure 0 (1 / Rgas) 1 1 1 ⟨7 / 4, 1 / 2, 0, 0⟩ = some f ∧ f.v = 1) ∧
    ∃ f, srkPure (1 / Rgas) 1 ⟨3 / 2, 1 / 2, 0, 0⟩ = some f ∧ f.v = 1 := by
  have hR := Rpos
  have hRT : Rgas * (1 / Rgas) = 1 := by field_simp
  have hl : Real.log (1 / 2) = -Real.log 2 := by rw [one_div, Real.log_inv]
  have hl2 : Real.log 2 < 1 := (Real.log_lt_sub_one_of_pos (by norm_num) (by norm_num)).trans_le (by norm_num)
  constructor
  · obtain ⟨z, hz, -, hu⟩ := C99_one_partial (-1 / 2) 0 (-1 / 2) (by unfold discr; norm_num) (by unfold cubic; norm_num)
    have h1 := (hu (by unfold discr; norm_num) 1 (by unfold cubic; norm_num)).symm
    rw [h1] at hz
    have key := (C100_stable_partial 0 (1 / Rgas) 1 1 1 ⟨7 / 4, 1 / 2, 0, 0⟩ 1 1 1).1
    dsimp only at key
    rw [hRT] at key
    obtain ⟨f, y, e1, e2, -, e4, -⟩ := key (by norm_num; norm_num at hz; exact hz) ⟨1, .inl rfl, by norm_num, by
      unfold prLnPhi
      have h2 : 0 ≤ Real.log ((1 + (1 + Real.sqrt 2) * (1 / 2)) / (1 + (1 - Real.sqrt 2) * (1 / 2))) := by
        have := sqrt2_pos
        have := sqrt2_lt
        refine Real.log_nonneg ?_
        rw [le_div_iff₀ (by linarith)]
        linarith
      have h3 := sqrt2_pos
      have h4 : 0 ≤ 7 / 4 / (2 * Real.sqrt 2 * (1 / 2)) * Real.log ((1 + (1 + Real.sqrt 2) * (1 / 2)) / (1 + (1 - Real.sqrt 2) * (1 / 2))) := by
        positivity
      have h5 : Real.log (1 - 1 / 2) = -Real.log 2 := by rw [← hl]; norm_num
      rw [show (7 / 4 * 1 / 1 ^ 2 : ℝ) = 7 / 4 by norm_num, show (1 / 2 * 1 / 1 : ℝ) = 1 / 2 by norm_num, h5]
      linarith⟩
    refine ⟨f, e1, ?_⟩
    have : y = 1 := by tauto
    rw [e4, this]; field_simp
  · obtain ⟨z, hz, -, hu⟩ := C99_one_partial (-1) (3 / 4) (-3 / 4) (by unfold discr; norm_num) (by unfold cubic; norm_num)
    have h1 := (hu (by unfold discr; norm_num) 1 (by unfold cubic; norm_num)).symm
    rw [h1] at hz
    have key := (C100_stable_partial 0 (1 / Rgas) 1 1 1 ⟨3 / 2, 1 / 2, 0, 0⟩ 1 1 1).2
    dsimp only at key
    rw [hRT] at key
    obtain ⟨f, y, e1, e2, -, e4, -⟩ := key (by norm_num; norm_num at hz; exact hz) ⟨1, .inl rfl, by norm_num, by
      unfold srkLnPhi
      have h2 : 0 ≤ Real.log (1 + 1 / 2 / 1) := Real.log_nonneg (by norm_num)
      have h5 : Real.log (1 - 1 / 2) = -Real.log 2 := by rw [← hl]; norm_num
      norm_num at h2 h5 ⊢
      linarith⟩
    refine ⟨f, e1, ?_⟩
    have : y = 1 := by tauto
    rw [e4, this]; field_simp

/-! ### C101: the fugacity coefficient belongs to the equation of state -/

/-- **C101** (Peng-Robinson): where the cubic has one real root, the residual Gibbs energy is RT ln φ, and its derivative with respect to
pressure is the volume minus that of the ideal gas.
Missing from C101: three real roots (C101_liquid_pr_partial has the stable liquid); φ → 1 for P → 0 is C165. -/
theorem C101_pr_partial (c T P Tc Pc : ℝ) (p : AB) (hT : 0 < T) (hP : 0 < P) (ha : 0 ≤ p.a) (hb : 0 < p.b) (h : PrSingle p.a p.b T P) :
    ∃ f : ℝ → Fug, (∀ᶠ x in 𝓝 P, prPure c T x Tc Pc p = some (f x)) ∧ (∀ᶠ x in 𝓝 P, (f x).g = Rgas * T * Real.log (f x).phi) ∧
      HasDerivAt (fun x => (f x).g) ((f P).v - Rgas * T / P) P := by
  have hR := Rpos
  have ev : ∀ᶠ x in 𝓝 P, 0 < x ∧ PrOne p.a p.b T x :=
    (lt_mem_nhds hP).and (PrOne.eventually (a := fun _ => p.a) (b := fun _ => p.b) (t := fun _ => T) (p := fun x => x)
      continuousAt_const continuousAt_const continuousAt_const continuousAt_id hT.ne' h.one)
  refine ⟨fun x => prProps c T x Tc Pc p (Ax p.a T x) (Bx p.b T x) (prZ p.a p.b T x, prLnf (Ax p.a T x) (Bx p.b T x) (prZ p.a p.b T x)),
    ev.mono fun x hx => prPure_one hT hx.1 ha hb hx.2, Eventually.of_forall fun x => prProps_lnf, ?_⟩
  have r := pr_rootOf hT hP ha hb h.one
  have hv := (prV_diff (a := fun _ => p.a) (b := fun _ => p.b) (t := fun _ => T) (p := fun x => x) (x := P)
    (by fun_prop) (by fun_prop) (by fun_prop) (by fun_prop) hT.ne' hP.ne' h.one).hasDerivAt
  refine (gres_P hR hT hP hb uw_ne hv r.vb r.vU r.vW r.eos).congr_of_eventuallyEq ?_
  exact ev.mono fun x hx => prProps_g hT hx.1 hb

/-- **C101** (SRK): the same. -/
theorem C101_srk_partial (T P : ℝ) (p : AB) (hT : 0 < T) (hP : 0 < P) (ha : 0 ≤ p.a) (hb : 0 < p.b) (h : SrkSingle p.a p.b T P) :
    ∃ f : ℝ → Fug, (∀ᶠ x in 𝓝 P, srkPure T x p = some (f x)) ∧ (∀ᶠ x in 𝓝 P, (f x).g = Rgas * T * Real.log (f x).phi) ∧
      HasDerivAt (fun x => (f x).g) ((f P).v - Rgas * T / P) P := by
  have hR := Rpos
  have ev : ∀ᶠ x in 𝓝 P, 0 < x ∧ SrkOne p.a p.b T x :=
    (lt_mem_nhds hP).and (SrkOne.eventually (a := fun _ => p.a) (b := fun _ => p.b) (t := fun _ => T) (p := fun x => x)
      continuousAt_const continuousAt_const continuousAt_const continuousAt_id hT.ne' h.one)
  refine ⟨fun x => srkProps T x p (Bx p.b T x) (srkZ p.a p.b T x, srkLnf (Ax p.a T x) (Bx p.b T x) (srkZ p.a p.b T x)),
    ev.mono fun x hx => srkPure_one hT hx.1 ha hb hx.2, ev.mono fun x hx => srkProps_lnf hT hx.1 hb (srk_rootOf hT hx.1 ha hb hx.2), ?_⟩
  have r := srk_rootOf hT hP ha hb h.one
  have hv := (srkV_diff (a := fun _ => p.a) (b := fun _ => p.b) (t := fun _ => T) (p := fun x => x) (x := P)
    (by fun_prop) (by fun_prop) (by fun_prop) (by fun_prop) hT.ne' hP.ne' h.one).hasDerivAt
  refine (gres_P (u := 1) (w := 0) hR hT hP hb (by norm_num) hv r.vb r.vU r.vW r.eos).congr_of_eventuallyEq ?_
  exact ev.mono fun x hx => srkProps_g hT hx.1 hb (srk_rootOf hT hx.1 ha hb hx.2)

example : ∃ f : ℝ → Fug, (∀ᶠ x in 𝓝 (100 : ℝ), prPure 0.457235529 100 x 300 50 exAB = some (f x)) ∧
    HasDerivAt (fun x => (f x).g) ((f 100).v - Rgas * 100 / 100) 100 := by
  obtain ⟨f, h1, -, h2⟩ := C101_pr_partial 0.457235529 100 100 300 50 exAB (by norm_num) (by norm_num) exAB_vals.1 exAB_vals.2.1 exAB_pr
  exact ⟨f, h1, h2⟩

example : ∃ f : ℝ → Fug, (∀ᶠ x in 𝓝 (100 : ℝ), srkPure 100 x exAB = some (f x)) ∧
    HasDerivAt (fun x => (f x).g) ((f 100).v - Rgas * 100 / 100) 100 := by
  obtain ⟨f, h1, -, h2⟩ := C101_srk_partial 100 100 exAB (by norm_num) (by norm_num) exAB_vals.1 exAB_vals.2.1 exAB_srk
  exact ⟨f, h1, h2⟩

end ThermoFun.Gas
