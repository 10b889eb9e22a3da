import Verif.Model.Stp
import Verif.Lemmas.Jet
import Verif.Lemmas.Solve

/-!
The Helmholtz energy of Sterner and Pitzer with its derivatives.
-/

namespace ThermoFun.Stp

open Topology Filter

/-! ### Coefficients -/

/-- The third derivative of a coefficient. -/
noncomputable def Row.d3c (r : Row) (T : ℝ) : ℝ := -120 * r.k0 / T ^ 7 - 24 * r.k1 / T ^ 5 - 6 * r.k2 / T ^ 4

lemma inv_pow_d (n : ℕ) {T : ℝ} (hT : T ≠ 0) (k : ℝ) : HasDerivAt (fun t : ℝ => k / t ^ (n + 1)) (-((n + 1 : ℕ) : ℝ) * k / T ^ (n + 2)) T := by
  refine (((hasDerivAt_id' T).fun_pow (n + 1)).fun_inv (pow_ne_zero _ hT) |>.const_mul k |>.congr_deriv ?_)
  simp only [Nat.add_sub_cancel, mul_one]
  field_simp
  ring

lemma Row.c_d (r : Row) {T : ℝ} (hT : T ≠ 0) : HasDerivAt r.c (r.dc T) T := by
  have h := (((((inv_pow_d 3 hT r.k0).fun_add (inv_pow_d 1 hT r.k1)).fun_add (inv_pow_d 0 hT r.k2)).add_const r.k3).fun_add
    ((hasDerivAt_id' T).const_mul r.k4)).fun_add (((hasDerivAt_id' T).fun_pow 2).const_mul r.k5)
  refine (h.congr_of_eventuallyEq (Eventually.of_forall fun t => ?_)).congr_deriv ?_
  · simp only [Row.c, zero_add, pow_one]
  · simp only [Row.dc]
    push_cast
    ring

lemma Row.dc_d (r : Row) {T : ℝ} (hT : T ≠ 0) : HasDerivAt r.dc (r.d2c T) T := by
  have h := (((((inv_pow_d 4 hT (-4 * r.k0)).fun_sub (inv_pow_d 2 hT (2 * r.k1))).fun_sub (inv_pow_d 1 hT r.k2)).add_const r.k4)).fun_add
    ((hasDerivAt_id' T).const_mul (2 * r.k5))
  refine (h.congr_of_eventuallyEq (Eventually.of_forall fun t => ?_)).congr_deriv ?_
  · simp only [Row.dc]
  · simp only [Row.d2c]
    push_cast
    ring

lemma Row.d2c_d (r : Row) {T : ℝ} (hT : T ≠ 0) : HasDerivAt r.d2c (r.d3c T) T := by
  have h := (((inv_pow_d 5 hT (20 * r.k0)).fun_add (inv_pow_d 3 hT (6 * r.k1))).fun_add (inv_pow_d 2 hT (2 * r.k2))).add_const (2 * r.k5)
  refine (h.congr_of_eventuallyEq (Eventually.of_forall fun t => ?_)).congr_deriv ?_
  · simp only [Row.d2c]
  · simp only [Row.d3c]
    push_cast
    ring

/-! ### The jet -/

section

variable {c dc d2c d3c : Nat → ℝ → ℝ} {x y : ℝ}

/-- The polynomial in the denominator with its derivatives. -/
noncomputable def polyJ (c dc d2c d3c : Nat → ℝ) (y : ℝ) : Helm :=
  ⟨poly c y, poly dc y, polyD c y, poly d2c y, polyD dc y, polyDD c y, poly d3c y, polyD d2c y, polyDD dc y, 6 * c 4 + 24 * c 5 * y⟩

lemma jet_c (k : Nat) (h1 : HasDerivAt (c k) (dc k x) x) (h2 : HasDerivAt (dc k) (d2c k x) x) (h3 : HasDerivAt (d2c k) (d3c k x) x) :
    Jet (fun x _ => .ofT (c k x) (dc k x) (d2c k x) (d3c k x)) x y := Jet.ofT h1 h2 h3

lemma jet_y : Jet (fun _ y => .ofD y 1 0 0) x y := Jet.ofD (hasDerivAt_id' y) (hasDerivAt_const _ _) (hasDerivAt_const _ _)

lemma jet_poly (h1 : ∀ k, HasDerivAt (c k) (dc k x) x) (h2 : ∀ k, HasDerivAt (dc k) (d2c k x) x) (h3 : ∀ k, HasDerivAt (d2c k) (d3c k x) x) :
    Jet (fun x y => polyJ (c · x) (dc · x) (d2c · x) (d3c · x) y) x y := by
  have J := fun k => jet_c (y := y) k (h1 k) (h2 k) (h3 k)
  have Y : Jet (fun _ y => .ofD y 1 0 0) x y := jet_y
  refine ((J 1).plus (((J 2).plus (((J 3).plus (((J 4).plus ((J 5).times Y)).times Y)).times Y)).times Y)).congr_fun fun x y => ?_
  ext <;> simp only [polyJ, Helm.plus, Helm.times, Helm.ofT, Helm.ofD, poly, polyD, polyDD] <;> ring

lemma jet_inv {F : ℝ → ℝ → Helm} (h : Jet F x y) (h0 : (F x y).f ≠ 0) :
    Jet (fun x y => (F x y).lift ((F x y).f)⁻¹ (-((F x y).f ^ 2)⁻¹) (2 * ((F x y).f ^ 3)⁻¹) (-6 * ((F x y).f ^ 4)⁻¹)) x y := by
  refine h.lift (a := fun u => u⁻¹) (b := fun u => -(u ^ 2)⁻¹) (c := fun u => 2 * (u ^ 3)⁻¹) (d := fun u => -6 * (u ^ 4)⁻¹) ?_ ?_ ?_
  · exact hasDerivAt_inv h0
  · refine ((hasDerivAt_pow 2 (F x y).f).fun_inv (pow_ne_zero 2 h0)).fun_neg.congr_deriv ?_
    push_cast; field_simp
  · refine (((hasDerivAt_pow 3 (F x y).f).fun_inv (pow_ne_zero 3 h0)).const_mul 2).congr_deriv ?_
    push_cast; field_simp; ring

lemma jet_exp {F : ℝ → ℝ → Helm} (h : Jet F x y) :
    Jet (fun x y => (F x y).lift (Real.exp (F x y).f) (Real.exp (F x y).f) (Real.exp (F x y).f) (Real.exp (F x y).f)) x y :=
  h.lift (a := Real.exp) (b := Real.exp) (c := Real.exp) (d := Real.exp) (Real.hasDerivAt_exp _) (Real.hasDerivAt_exp _) (Real.hasDerivAt_exp _)

/-- `-(c6/c7) (exp(-c7 y) - 1)` with its derivatives. -/
noncomputable def expJ (a b : ℝ × ℝ × ℝ × ℝ) (y : ℝ) : Helm :=
  (((Helm.ofT a.1 a.2.1 a.2.2.1 a.2.2.2).times ((Helm.ofT b.1 b.2.1 b.2.2.1 b.2.2.2).lift b.1⁻¹ (-(b.1 ^ 2)⁻¹) (2 * (b.1 ^ 3)⁻¹) (-6 * (b.1 ^ 4)⁻¹))).times
    ((Helm.lift (Real.exp (-1 * (b.1 * y))) (Real.exp (-1 * (b.1 * y))) (Real.exp (-1 * (b.1 * y))) (Real.exp (-1 * (b.1 * y)))
      (((Helm.ofT b.1 b.2.1 b.2.2.1 b.2.2.2).times (.ofD y 1 0 0)).scale (-1))).plus (.const (-1)))).scale (-1)

lemma jet_expJ {a b : ℝ → ℝ × ℝ × ℝ × ℝ} (ha : Jet (fun x _ => .ofT (a x).1 (a x).2.1 (a x).2.2.1 (a x).2.2.2) x y)
    (hb : Jet (fun x _ => .ofT (b x).1 (b x).2.1 (b x).2.2.1 (b x).2.2.2) x y) (h0 : (b x).1 ≠ 0) : Jet (fun x y => expJ (a x) (b x) y) x y :=
  ((ha.times (jet_inv hb h0)).times ((jet_exp ((hb.times jet_y).scale (-1))).plus (Jet.const (-1)))).scale (-1)

/-- The Helmholtz energy with all its derivatives, by composition. -/
noncomputable def phiJ (c dc d2c d3c : Nat → ℝ) (y : ℝ) : Helm :=
  let P := polyJ c dc d2c d3c y
  let C := fun k => Helm.ofT (c k) (dc k) (d2c k) (d3c k)
  ((((C 0).times (.ofD y 1 0 0)).plus ((P.lift P.f⁻¹ (-(P.f ^ 2)⁻¹) (2 * (P.f ^ 3)⁻¹) (-6 * (P.f ^ 4)⁻¹)).plus
    (((C 1).lift (c 1)⁻¹ (-(c 1 ^ 2)⁻¹) (2 * (c 1 ^ 3)⁻¹) (-6 * (c 1 ^ 4)⁻¹)).scale (-1)))).plus
    (expJ (c 6, dc 6, d2c 6, d3c 6) (c 7, dc 7, d2c 7, d3c 7) y)).plus (expJ (c 8, dc 8, d2c 8, d3c 8) (c 9, dc 9, d2c 9, d3c 9) y)

lemma jet_phiJ (h1 : ∀ k, HasDerivAt (c k) (dc k x) x) (h2 : ∀ k, HasDerivAt (dc k) (d2c k x) x) (h3 : ∀ k, HasDerivAt (d2c k) (d3c k x) x)
    (hp : poly (c · x) y ≠ 0) (h11 : c 1 x ≠ 0) (h7 : c 7 x ≠ 0) (h9 : c 9 x ≠ 0) :
    Jet (fun x y => phiJ (c · x) (dc · x) (d2c · x) (d3c · x) y) x y := by
  have J := fun k => jet_c (y := y) k (h1 k) (h2 k) (h3 k)
  refine ((((J 0).times jet_y).plus ((jet_inv (jet_poly h1 h2 h3) hp).plus ((jet_inv (J 1) h11).scale (-1)))).plus
    (jet_expJ (a := fun x => (c 6 x, dc 6 x, d2c 6 x, d3c 6 x)) (b := fun x => (c 7 x, dc 7 x, d2c 7 x, d3c 7 x)) (J 6) (J 7) h7)).plus
    (jet_expJ (a := fun x => (c 8 x, dc 8 x, d2c 8 x, d3c 8 x)) (b := fun x => (c 9 x, dc 9 x, d2c 9 x, d3c 9 x)) (J 8) (J 9) h9)

/-- The code's derivatives are those of the jet. -/
lemma helm_eq (c dc d2c d3c : Nat → ℝ) (y : ℝ) (h7 : c 7 ≠ 0) (h9 : c 9 ≠ 0) :
    { helm c dc d2c y with fTTT := (phiJ c dc d2c d3c y).fTTT } = phiJ c dc d2c d3c y := by
  have e7 : -1 * (c 7 * y) = -c 7 * y := by ring
  have e9 : -1 * (c 9 * y) = -c 9 * y := by ring
  have i7 : c 7 * (c 7)⁻¹ = 1 := mul_inv_cancel₀ h7
  have i9 : c 9 * (c 9)⁻¹ = 1 := mul_inv_cancel₀ h9
  ext <;> simp only [helm, phiJ, expJ, polyJ, Helm.plus, Helm.times, Helm.ofT, Helm.ofD, Helm.lift, Helm.scale, Helm.const, e7, e9,
      div_eq_mul_inv, ← inv_pow] <;>
    generalize poly c y = q <;> generalize Real.exp (-c 7 * y) = u <;> generalize Real.exp (-c 9 * y) = v
  all_goals generalize q⁻¹ = p
  all_goals generalize (c 1)⁻¹ = p1
  all_goals first | ring1 | (field_simp; ring1) | (field_simp)

end

lemma jet_helmholtz (cf : Nat → Row) {T y : ℝ} (hT : T ≠ 0) (hp : poly (fun k => (cf k).c T) y ≠ 0) (h1 : (cf 1).c T ≠ 0) (h7 : (cf 7).c T ≠ 0)
    (h9 : (cf 9).c T ≠ 0) :
    ∃ g : ℝ → ℝ → ℝ, Jet (fun x y => { helmholtz cf x y with fTTT := g x y }) T y := by
  have J := jet_phiJ (c := fun k => (cf k).c) (dc := fun k => (cf k).dc) (d2c := fun k => (cf k).d2c) (d3c := fun k => (cf k).d3c)
    (fun k => (cf k).c_d hT) (fun k => (cf k).dc_d hT) (fun k => (cf k).d2c_d hT) hp h1 h7 h9
  refine ⟨fun x y => (phiJ (fun k => (cf k).c x) (fun k => (cf k).dc x) (fun k => (cf k).d2c x) (fun k => (cf k).d3c x) y).fTTT, J.congr_ev ?_⟩
  have n7 : ∀ᶠ q : ℝ × ℝ in 𝓝 (T, y), (cf 7).c q.1 ≠ 0 :=
    ((((cf 7).c_d hT).continuousAt.comp (f := Prod.fst) (x := (T, y)) continuousAt_fst).eventually_ne h7)
  have n9 : ∀ᶠ q : ℝ × ℝ in 𝓝 (T, y), (cf 9).c q.1 ≠ 0 :=
    ((((cf 9).c_d hT).continuousAt.comp (f := Prod.fst) (x := (T, y)) continuousAt_fst).eventually_ne h9)
  filter_upwards [n7, n9] with q q7 q9
  exact helm_eq _ _ _ _ _ q7 q9

/-- The pressure is that of the Helmholtz energy, and so is the slope. -/
lemma pressure_eq (cf : Nat → Row) (T y : ℝ) : pressure cf T y = Rgas * T * (y + y ^ 2 * (helmholtz cf T y).fD) ∧
    slope cf T y = Rgas * T * (1 + 2 * y * (helmholtz cf T y).fD + y ^ 2 * (helmholtz cf T y).fDD) := by
  unfold pressure slope pred dpred helmholtz helm
  dsimp only
  constructor <;> ring

end ThermoFun.Stp
