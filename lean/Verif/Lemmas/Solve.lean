import Verif.Lemmas.Grad
import Mathlib.Analysis.Calculus.ContDiff.RCLike
import Mathlib.Analysis.Calculus.InverseFunctionTheorem.FDeriv

/-! Solving g(x, y) = p for y. -/

namespace ThermoFun

open ContinuousLinearMap

/-- Where `∂g/∂y ≠ 0`, the equation g(x, y) = p has a continuous solution y = v(x, p), and no other near the given one. -/
lemma Grad.solve {g : ℝ → ℝ → ℝ} {a b : ℝ → ℝ → ℝ} {x y : ℝ} (h : ∀ᶠ q : ℝ × ℝ in nhds (x, y), Grad g (a q.1 q.2) (b q.1 q.2) q.1 q.2)
    (ha : ContinuousAt (fun q : ℝ × ℝ => a q.1 q.2) (x, y)) (hb : ContinuousAt (fun q : ℝ × ℝ => b q.1 q.2) (x, y)) (h0 : b x y ≠ 0) :
    ∃ v : ℝ → ℝ → ℝ, ContinuousAt (fun q : ℝ × ℝ => v q.1 q.2) (x, g x y) ∧ v x (g x y) = y ∧
      (∀ᶠ q : ℝ × ℝ in nhds (x, g x y), g q.1 (v q.1 q.2) = q.2) ∧
      ∀ᶠ q : ℝ × ℝ in nhds (x, y), v q.1 (g q.1 q.2) = q.2 := by
  let e : (ℝ × ℝ) ≃L[ℝ] (ℝ × ℝ) :=
    ContinuousLinearEquiv.equivOfInverse ((fst ℝ ℝ ℝ).prod (a x y • fst ℝ ℝ ℝ + b x y • snd ℝ ℝ ℝ))
      ((fst ℝ ℝ ℝ).prod ((-a x y / b x y) • fst ℝ ℝ ℝ + (1 / b x y) • snd ℝ ℝ ℝ))
      (fun z => by ext <;> simp; field_simp; ring) (fun z => by ext <;> simp; field_simp; ring)
  have hs : HasStrictFDerivAt (fun q : ℝ × ℝ => g q.1 q.2) (a x y • fst ℝ ℝ ℝ + b x y • snd ℝ ℝ ℝ) (x, y) := by
    refine hasStrictFDerivAt_of_hasFDerivAt_of_continuousAt (f' := fun q : ℝ × ℝ => a q.1 q.2 • fst ℝ ℝ ℝ + b q.1 q.2 • snd ℝ ℝ ℝ) h ?_
    exact (ha.smul continuousAt_const).add (hb.smul continuousAt_const)
  have hf : HasStrictFDerivAt (fun q : ℝ × ℝ => (q.1, g q.1 q.2)) (e : (ℝ × ℝ) →L[ℝ] (ℝ × ℝ)) (x, y) :=
    HasStrictFDerivAt.prodMk (hasStrictFDerivAt_fst (𝕜 := ℝ) (p := ((x, y) : ℝ × ℝ))) hs
  have hr := hf.eventually_right_inverse
  have hl := hf.eventually_left_inverse
  have hi := hf.localInverse_apply_image
  have hc := hf.localInverse_continuousAt
  set L := hf.localInverse (fun q : ℝ × ℝ => (q.1, g q.1 q.2)) e (x, y)
  refine ⟨fun t p => (L (t, p)).2, hc.snd, ?_, ?_, ?_⟩
  · exact congrArg Prod.snd hi
  · refine hr.mono fun q hq => ?_
    obtain ⟨h1, h2⟩ := Prod.ext_iff.mp hq
    dsimp only at h1 h2
    rw [h1] at h2
    exact h2
  · exact hl.mono fun q hq => congrArg Prod.snd hq

end ThermoFun
