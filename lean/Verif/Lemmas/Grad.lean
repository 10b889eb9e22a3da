import Mathlib.Analysis.Calculus.FDeriv.Mul
import Mathlib.Analysis.Calculus.FDeriv.Add
import Mathlib.Analysis.Calculus.FDeriv.Prod
import Mathlib.Analysis.Calculus.FDeriv.OfCompLeft
import Mathlib.Analysis.Calculus.Deriv.Comp
import Mathlib.Analysis.Calculus.Deriv.Inv
import Mathlib.Analysis.SpecialFunctions.ExpDeriv
import Mathlib.Analysis.SpecialFunctions.Pow.Deriv

/-!
A small calculus of gradients of functions of two real variables.
-/

namespace ThermoFun

open ContinuousLinearMap

/-- `g`, a function of two variables, is Fréchet differentiable at (x, y) with partial derivatives `a` and `b`. -/
def Grad (g : ℝ → ℝ → ℝ) (a b x y : ℝ) : Prop :=
  HasFDerivAt (fun q : ℝ × ℝ => g q.1 q.2) (a • fst ℝ ℝ ℝ + b • snd ℝ ℝ ℝ) (x, y)

namespace Grad

variable {g k : ℝ → ℝ → ℝ} {a b c d a' b' x y : ℝ}

lemma congr (h : Grad g a b x y) (ha : a' = a) (hb : b' = b) : Grad g a' b' x y := by subst ha hb; exact h

lemma congr_fun (h : Grad g a b x y) (hk : ∀ x y, k x y = g x y) : Grad k a b x y := by
  have : k = g := funext fun x => funext fun y => hk x y
  rw [this]; exact h

lemma congr_ev (h : Grad g a b x y) (hk : ∀ᶠ q : ℝ × ℝ in nhds (x, y), k q.1 q.2 = g q.1 q.2) : Grad k a b x y :=
  HasFDerivAt.congr_of_eventuallyEq h hk

lemma const (c : ℝ) : Grad (fun _ _ => c) 0 0 x y := by
  have h := hasFDerivAt_const (𝕜 := ℝ) c ((x, y) : ℝ × ℝ)
  simpa [Grad] using h

lemma fstG : Grad (fun x _ => x) 1 0 x y := by
  have h := hasFDerivAt_fst (𝕜 := ℝ) (p := ((x, y) : ℝ × ℝ))
  simpa [Grad] using h

lemma sndG : Grad (fun _ y => y) 0 1 x y := by
  have h := hasFDerivAt_snd (𝕜 := ℝ) (p := ((x, y) : ℝ × ℝ))
  simpa [Grad] using h

lemma add (h : Grad g a b x y) (h' : Grad k c d x y) : Grad (fun x y => g x y + k x y) (a + c) (b + d) x y := by
  refine (HasFDerivAt.fun_add h h').congr_fderiv ?_
  simp only [add_smul]; abel

lemma neg (h : Grad g a b x y) : Grad (fun x y => -g x y) (-a) (-b) x y := by
  refine (HasFDerivAt.fun_neg h).congr_fderiv ?_
  ext <;> simp

lemma sub (h : Grad g a b x y) (h' : Grad k c d x y) : Grad (fun x y => g x y - k x y) (a - c) (b - d) x y := by
  refine (HasFDerivAt.fun_sub h h').congr_fderiv ?_
  ext <;> simp

lemma mul (h : Grad g a b x y) (h' : Grad k c d x y) :
    Grad (fun x y => g x y * k x y) (a * k x y + g x y * c) (b * k x y + g x y * d) x y := by
  refine (HasFDerivAt.fun_mul h h').congr_fderiv ?_
  ext <;> simp <;> ring

lemma const_mul (c : ℝ) (h : Grad g a b x y) : Grad (fun x y => c * g x y) (c * a) (c * b) x y :=
  ((const c).mul h).congr (by ring) (by ring)

lemma mul_const (c : ℝ) (h : Grad g a b x y) : Grad (fun x y => g x y * c) (a * c) (b * c) x y :=
  (h.mul (const c)).congr (by ring) (by ring)

/-- A function of one variable of `g`. -/
lemma comp {f : ℝ → ℝ} {f' : ℝ} (hf : HasDerivAt f f' (g x y)) (h : Grad g a b x y) :
    Grad (fun x y => f (g x y)) (f' * a) (f' * b) x y := by
  have := HasDerivAt.comp_hasFDerivAt ((x, y) : ℝ × ℝ) (h₂ := f) (f := fun q : ℝ × ℝ => g q.1 q.2) hf h
  refine (this.congr_fderiv ?_)
  simp only [smul_add, smul_smul]

lemma left {f : ℝ → ℝ} {f' : ℝ} (hf : HasDerivAt f f' x) : Grad (fun x _ => f x) f' 0 x y :=
  (comp (g := fun x _ => x) hf fstG).congr (by ring) (by ring)

lemma right {f : ℝ → ℝ} {f' : ℝ} (hf : HasDerivAt f f' y) : Grad (fun _ y => f y) 0 f' x y :=
  (comp (g := fun _ y => y) hf sndG).congr (by ring) (by ring)

lemma inv (h : Grad g a b x y) (h0 : g x y ≠ 0) :
    Grad (fun x y => (g x y)⁻¹) (-a / g x y ^ 2) (-b / g x y ^ 2) x y :=
  (comp (hasDerivAt_inv h0) h).congr (by field_simp) (by field_simp)

lemma div (h : Grad g a b x y) (h' : Grad k c d x y) (h0 : k x y ≠ 0) :
    Grad (fun x y => g x y / k x y) ((a * k x y - g x y * c) / k x y ^ 2) ((b * k x y - g x y * d) / k x y ^ 2) x y :=
  ((h.mul (h'.inv h0)).congr (by field_simp; ring) (by field_simp; ring)).congr_fun fun x y => by rw [div_eq_mul_inv]

/-- Along a curve. -/
lemma curve {u v : ℝ → ℝ} {u' v' s : ℝ} (h : Grad g a b (u s) (v s)) (hu : HasDerivAt u u' s) (hv : HasDerivAt v v' s) :
    HasDerivAt (fun s => g (u s) (v s)) (a * u' + b * v') s := by
  have := HasFDerivAt.comp_hasDerivAt s (l := fun q : ℝ × ℝ => g q.1 q.2) (f := fun s => (u s, v s)) h (hu.prodMk hv)
  exact this.congr_deriv (by simp)

lemma dx (h : Grad g a b x y) : HasDerivAt (fun x => g x y) a x := by
  simpa using curve (u := fun s => s) (v := fun _ => y) h (hasDerivAt_id' x) (hasDerivAt_const x y)

lemma dy (h : Grad g a b x y) : HasDerivAt (fun y => g x y) b y := by
  simpa using curve (u := fun _ => x) (v := fun s => s) h (hasDerivAt_const y x) (hasDerivAt_id' y)

/-- Substitution of two functions of two variables. -/
lemma subst {u v : ℝ → ℝ → ℝ} {ux uy vx vy : ℝ} (h : Grad g a b (u x y) (v x y)) (hu : Grad u ux uy x y) (hv : Grad v vx vy x y) :
    Grad (fun x y => g (u x y) (v x y)) (a * ux + b * vx) (a * uy + b * vy) x y := by
  have := HasFDerivAt.comp ((x, y) : ℝ × ℝ) (g := fun q : ℝ × ℝ => g q.1 q.2) (f := fun q : ℝ × ℝ => (u q.1 q.2, v q.1 q.2)) h
    (HasFDerivAt.prodMk hu hv)
  refine this.congr_fderiv ?_
  ext <;> simp

lemma continuousAt (h : Grad g a b x y) : ContinuousAt (fun q : ℝ × ℝ => g q.1 q.2) (x, y) := HasFDerivAt.continuousAt h

lemma sum {ι : Type*} (s : Finset ι) {g : ι → ℝ → ℝ → ℝ} {a b : ι → ℝ} (h : ∀ i ∈ s, Grad (g i) (a i) (b i) x y) :
    Grad (fun x y => ∑ i ∈ s, g i x y) (∑ i ∈ s, a i) (∑ i ∈ s, b i) x y := by
  refine (HasFDerivAt.fun_sum h).congr_fderiv ?_
  rw [Finset.sum_add_distrib, Finset.sum_smul, Finset.sum_smul]

/-- The implicit function: if `v` is continuous at (x, y) and solves `g x v = y` nearby, it has the gradient (-a/b, 1/b). -/
lemma implicit {v : ℝ → ℝ → ℝ} (hv : ContinuousAt (fun q : ℝ × ℝ => v q.1 q.2) (x, y)) (h : Grad g a b x (v x y)) (hb : b ≠ 0)
    (heq : ∀ᶠ q : ℝ × ℝ in nhds (x, y), g q.1 (v q.1 q.2) = q.2) : Grad v (-a / b) (1 / b) x y := by
  let e : (ℝ × ℝ) ≃L[ℝ] (ℝ × ℝ) :=
    ContinuousLinearEquiv.equivOfInverse ((fst ℝ ℝ ℝ).prod (a • fst ℝ ℝ ℝ + b • snd ℝ ℝ ℝ))
      ((fst ℝ ℝ ℝ).prod ((-a / b) • fst ℝ ℝ ℝ + (1 / b) • snd ℝ ℝ ℝ))
      (fun z => by ext <;> simp; field_simp; ring) (fun z => by ext <;> simp; field_simp; ring)
  have hf : HasFDerivAt (fun q : ℝ × ℝ => (q.1, g q.1 q.2)) (e : (ℝ × ℝ) →L[ℝ] (ℝ × ℝ)) (x, v x y) := by
    have := HasFDerivAt.prodMk (hasFDerivAt_fst (𝕜 := ℝ) (p := ((x, v x y) : ℝ × ℝ))) h
    exact this
  have hg : ContinuousAt (fun q : ℝ × ℝ => (q.1, v q.1 q.2)) (x, y) := continuousAt_fst.prodMk hv
  have := HasFDerivAt.of_local_left_inverse (f := fun q : ℝ × ℝ => (q.1, g q.1 q.2)) (g := fun q : ℝ × ℝ => (q.1, v q.1 q.2))
    (a := (x, y)) (f' := e) hg hf (heq.mono fun q hq => Prod.ext rfl hq)
  have h2 := this.snd
  refine h2.congr_fderiv ?_
  ext <;> simp [e]

end Grad

end ThermoFun
