import Verif.Props.WaterState

/-! Property C40: the ideal gas of water. -/

namespace ThermoFun

/-- Sum over a list with a running index. -/
noncomputable def idxSum (φ : ℕ → ℝ) : List ℝ → ℕ → ℝ
  | [], _ => 0
  | c :: cs, i => c * φ i + idxSum φ cs (i + 1)

lemma wolleyLoop_eq (tt : ℝ) (cs : List ℝ) (i : ℕ) (a : ℝ × ℝ × ℝ) :
    wolleyLoop tt cs i a = (a.1 - idxSum (fun i => tt ^ ((i : ℝ) - 5)) cs i,
      a.2.1 + idxSum (fun i => ((i : ℝ) - 5) * tt ^ ((i : ℝ) - 5)) cs i,
      a.2.2 + idxSum (fun i => ((i : ℝ) - 5) * ((i : ℝ) - 4) * tt ^ ((i : ℝ) - 5)) cs i) := by
  induction cs generalizing i a with
  | nil => simp [wolleyLoop, idxSum]
  | cons c cs ih =>
    obtain ⟨g, h, cp⟩ := a
    simp only [wolleyLoop, ih, idxSum, Prod.mk.injEq]
    refine ⟨by ring, by ring, by ring⟩

lemma idxSum_deriv {φ : ℕ → ℝ → ℝ} {φ' : ℕ → ℝ} {x : ℝ} (h : ∀ i, HasDerivAt (φ i) (φ' i) x) (cs : List ℝ) (i : ℕ) :
    HasDerivAt (fun x => idxSum (fun i => φ i x) cs i) (idxSum φ' cs i) x := by
  induction cs generalizing i with
  | nil => exact hasDerivAt_const _ _
  | cons c cs ih => exact ((h i).const_mul c).fun_add (ih (i + 1))

lemma idxSum_add (φ ψ : ℕ → ℝ) (cs : List ℝ) (i : ℕ) : idxSum φ cs i + idxSum ψ cs i = idxSum (fun i => φ i + ψ i) cs i := by
  induction cs generalizing i with
  | nil => simp [idxSum]
  | cons c cs ih => simp only [idxSum, ← ih]; ring

lemma idxSum_mul (k : ℝ) (φ : ℕ → ℝ) (cs : List ℝ) (i : ℕ) : k * idxSum φ cs i = idxSum (fun i => k * φ i) cs i := by
  induction cs generalizing i with
  | nil => simp [idxSum]
  | cons c cs ih => simp only [idxSum, ← ih]; ring

/-- **C40.**  At every T > 0 the ideal gas properties satisfy dH/dT = Cp, dG/dT = -S, dS/dT = Cp/T, G = H - T S, Cp - Cv = R,
U = H - R T and A = U - T S. -/
theorem C40_idealGas (T : ℝ) (hT : 0 < T) :
    HasDerivAt (fun t => (waterIdealGas t).H) (waterIdealGas T).Cp T ∧
    HasDerivAt (fun t => (waterIdealGas t).G) (-(waterIdealGas T).S) T ∧
    HasDerivAt (fun t => (waterIdealGas t).S) ((waterIdealGas T).Cp / T) T ∧
    (waterIdealGas T).G = (waterIdealGas T).H - T * (waterIdealGas T).S ∧
    (waterIdealGas T).Cp - (waterIdealGas T).Cv = 8.31451 ∧
    (waterIdealGas T).U = (waterIdealGas T).H - 8.31451 * T ∧
    (waterIdealGas T).A = (waterIdealGas T).U - T * (waterIdealGas T).S := by
  have hx : 0 < T / 1.0e2 := by positivity
  set L := wolleyC.drop 2 with hL
  generalize hc0 : wolleyC.getD 0 0 = c0
  generalize hc1 : wolleyC.getD 1 0 = c1
  let g : ℝ → ℝ := fun x => -(c0 / x + c1) * Real.log x - idxSum (fun i => x ^ ((i : ℝ) - 5)) L 2
  let h : ℝ → ℝ := fun x => c1 + c0 * (1 - Real.log x) / x + idxSum (fun i => ((i : ℝ) - 5) * x ^ ((i : ℝ) - 5)) L 2
  let cp : ℝ → ℝ := fun x => c1 - c0 / x + idxSum (fun i => ((i : ℝ) - 5) * ((i : ℝ) - 4) * x ^ ((i : ℝ) - 5)) L 2
  have hval : ∀ t, waterIdealGas t = { H := h (t / 1.0e2) * 8.31451 * t + (0 + -182161.88), S := (h (t / 1.0e2) - 1 - (g (t / 1.0e2) - 1)) * 8.31451, G := g (t / 1.0e2) * 8.31451 * t + (0 + -182161.88), Cp := cp (t / 1.0e2) * 8.31451, Cv := (cp (t / 1.0e2) - 1) * 8.31451, A := (g (t / 1.0e2) - 1) * 8.31451 * t + (0 + -182161.88), U := (h (t / 1.0e2) - 1) * 8.31451 * t + (0 + -182161.88), V := 0 } := by
    intro t
    simp only [waterIdealGas, wolleyLoop_eq, hc0, hc1, g, h, cp, ← hL]
  have hpow : ∀ (i : ℕ), HasDerivAt (fun x : ℝ => x ^ ((i : ℝ) - 5)) (((i : ℝ) - 5) * (T / 1.0e2) ^ ((i : ℝ) - 5) / (T / 1.0e2)) (T / 1.0e2) := by
    intro i
    refine (Real.hasDerivAt_rpow_const (Or.inl hx.ne')).congr_deriv ?_
    rw [Real.rpow_sub_one hx.ne']; ring
  generalize hX : T / 1.0e2 = x at hx hpow
  have hxne := hx.ne'
  have hdiv : ∀ φ : ℕ → ℝ, idxSum (fun i => φ i / x) L 2 = idxSum φ L 2 / x := by
    intro φ
    rw [div_eq_inv_mul, idxSum_mul]
    congr 1
    funext i
    ring
  have dg : HasDerivAt g (-(h x) / x) x := by
    have h1 := (((hasDerivAt_inv hxne).const_mul c0).add_const c1).fun_neg.fun_mul (Real.hasDerivAt_log hxne)
    have h2 := h1.fun_sub (idxSum_deriv hpow L 2)
    refine (h2.congr_deriv ?_).congr_of_eventuallyEq (Filter.Eventually.of_forall fun y => ?_)
    · simp only [h, hdiv]
      field_simp
      ring
    · simp only [g, div_eq_mul_inv]
  have dh : HasDerivAt h ((cp x - h x) / x) x := by
    have h1 := (((Real.hasDerivAt_log hxne).const_sub 1).const_mul c0).fun_mul (hasDerivAt_inv hxne)
    have h2 := (h1.const_add c1).fun_add (idxSum_deriv (fun i => (hpow i).const_mul ((i : ℝ) - 5)) L 2)
    refine (h2.congr_deriv ?_).congr_of_eventuallyEq (Filter.Eventually.of_forall fun y => ?_)
    · have e : idxSum (fun i => ((i : ℝ) - 5) * (((i : ℝ) - 5) * x ^ ((i : ℝ) - 5) / x)) L 2 =
          (idxSum (fun i => ((i : ℝ) - 5) * ((i : ℝ) - 4) * x ^ ((i : ℝ) - 5)) L 2 -
            idxSum (fun i => ((i : ℝ) - 5) * x ^ ((i : ℝ) - 5)) L 2) / x := by
        rw [sub_div, eq_sub_iff_add_eq, ← hdiv, ← hdiv, idxSum_add]
        congr 1
        funext i
        ring
      rw [e]
      simp only [h, cp]
      field_simp
      ring
    · simp only [h, div_eq_mul_inv]
  have dx : HasDerivAt (fun t : ℝ => t / 1.0e2) (1 / 1.0e2) T := (hasDerivAt_id' T).div_const _
  have dg' : HasDerivAt (fun t : ℝ => g (t / 1.0e2)) (-(h x) / x * (1 / 1.0e2)) T :=
    HasDerivAt.comp (h₂ := g) (h := fun t : ℝ => t / 1.0e2) T (by rw [hX]; exact dg) dx
  have dh' : HasDerivAt (fun t : ℝ => h (t / 1.0e2)) ((cp x - h x) / x * (1 / 1.0e2)) T :=
    HasDerivAt.comp (h₂ := h) (h := fun t : ℝ => t / 1.0e2) T (by rw [hX]; exact dh) dx
  have hTx : T = x * 1.0e2 := by rw [← hX]; field_simp
  simp only [hval, hX]
  generalize hg : g x = gx at *
  generalize hh : h x = hx' at *
  generalize hcp : cp x = cpx at *
  refine ⟨?_, ?_, ?_, by rw [hTx]; ring, by ring, by ring, by rw [hTx]; ring⟩
  · refine (((dh'.mul_const 8.31451).fun_mul (hasDerivAt_id' T)).add_const _).congr_deriv ?_
    rw [hX, hh, hTx]; field_simp; ring
  · refine (((dg'.mul_const 8.31451).fun_mul (hasDerivAt_id' T)).add_const _).congr_deriv ?_
    rw [hX, hg, hTx]; field_simp; ring
  · refine (((dh'.sub_const 1).fun_sub (dg'.sub_const 1)).mul_const 8.31451).congr_deriv ?_
    rw [hTx]; field_simp; ring

/-- T = 298.15 K is an instance; the heat capacity there is not trivially zero: its leading coefficients are not. -/
example : (0 : ℝ) < 298.15 ∧ wolleyC.getD 0 0 ≠ 0 ∧ wolleyC.length = 18 := by
  refine ⟨by norm_num, ?_, rfl⟩
  norm_num [wolleyC]

end ThermoFun
