import Verif.Lemmas.GasEos

/-!
Derivatives of the results of the cubic equations of state where the cubic has one real root.
-/

namespace ThermoFun.Gas

open Topology Filter

local notation "uPR" => (1 + Real.sqrt 2)
local notation "wPR" => (1 - Real.sqrt 2)

lemma uw_pr : uPR - wPR = Real.sqrt 8 := by rw [sqrt8]; ring
lemma uw_ne : uPR ≠ wPR := by
  intro h
  have := sqrt2_pos
  linarith

/-- The ratio in the logarithm in terms of z and of the volume. -/
lemma ratio {b T P z u w : ℝ} (hT : 0 < T) (hP : 0 < P) :
    (z + u * Bx b T P) / (z + w * Bx b T P) = (z * Rgas * T / P + u * b) / (z * Rgas * T / P + w * b) := by
  have hR := Rpos
  have e1 : ∀ x : ℝ, z * Rgas * T / P + x * b = (z + x * Bx b T P) * (Rgas * T / P) := by intro x; unfold Bx; field_simp
  rw [e1, e1, mul_div_mul_right _ _ (by positivity)]

lemma zB {b T P z : ℝ} (hT : 0 < T) (hP : 0 < P) : z - Bx b T P = P * (z * Rgas * T / P - b) / (Rgas * T) := by
  have hR := Rpos
  unfold Bx; field_simp

lemma AB_ratio {a b T P : ℝ} (hT : 0 < T) (hP : 0 < P) (hb : 0 < b) (c : ℝ) (hc : c ≠ 0) :
    Rgas * T * (Ax a T P / (Bx b T P * c)) = a / (b * c) := by
  have hR := Rpos
  unfold Ax Bx; field_simp

lemma prProps_g {c T P Tc Pc z l : ℝ} {p : AB} (hT : 0 < T) (hP : 0 < P) (hb : 0 < p.b) :
    (prProps c T P Tc Pc p (Ax p.a T P) (Bx p.b T P) (z, l)).g = gres Rgas uPR wPR P T p.a p.b (z * Rgas * T / P) := by
  have h8 : Real.sqrt 8 ≠ 0 := (Real.sqrt_pos.mpr (by norm_num)).ne'
  have hpv : P * (z * Rgas * T / P) = z * Rgas * T := by field_simp
  unfold prProps gres
  dsimp only
  rw [ratio hT hP, zB hT hP, uw_pr, hpv]
  linear_combination (-Real.log ((z * Rgas * T / P + uPR * p.b) / (z * Rgas * T / P + wPR * p.b)))
    * AB_ratio (a := p.a) hT hP hb (Real.sqrt 8) h8

lemma prProps_lnf {c T P Tc Pc z : ℝ} {p : AB} :
    (prProps c T P Tc Pc p (Ax p.a T P) (Bx p.b T P) (z, prLnf (Ax p.a T P) (Bx p.b T P) z)).g
      = Rgas * T * Real.log (prProps c T P Tc Pc p (Ax p.a T P) (Bx p.b T P) (z, prLnf (Ax p.a T P) (Bx p.b T P) z)).phi := by
  unfold prProps prLnf
  dsimp only
  rw [Real.log_exp]; ring

/-- The number computed for H by the Peng-Robinson models. -/
noncomputable def prH (c T Tc Pc P : ℝ) (p : AB) (z : ℝ) : ℝ :=
  Rgas * T * (z - 1 - Real.log ((z + uPR * Bx p.b T P) / (z + wPR * Bx p.b T P)) * Ax p.a T P / (Bx p.b T P * Real.sqrt 8)
    * (1 + (Real.sqrt (p.a / (c * Rgas ^ 2 * Tc ^ 2 / Pc)) - 1) / (1 - Real.sqrt (T / Tc)) * Real.sqrt (T / Tc)
      / Real.sqrt (p.a / (c * Rgas ^ 2 * Tc ^ 2 / Pc))))

lemma prProps_h {c T P Tc Pc z l : ℝ} {p : AB} (h1 : Real.sqrt (T / Tc) ≠ 1) :
    (prProps c T P Tc Pc p (Ax p.a T P) (Bx p.b T P) (z, l)).h = some (prH c T Tc Pc P p z) ∧
    (prProps c T P Tc Pc p (Ax p.a T P) (Bx p.b T P) (z, l)).s
      = some ((prH c T Tc Pc P p z - (prProps c T P Tc Pc p (Ax p.a T P) (Bx p.b T P) (z, l)).g) / T) := by
  unfold prProps prH
  dsimp only
  rw [if_neg h1, if_neg h1]
  exact ⟨rfl, rfl⟩

/-- It is the residual enthalpy if the factor is right. -/
lemma prH_hres {c T P Tc Pc z : ℝ} {p : AB} (hT : 0 < T) (hP : 0 < P) (hb : 0 < p.b)
    (hk : p.a * (1 + (Real.sqrt (p.a / (c * Rgas ^ 2 * Tc ^ 2 / Pc)) - 1) / (1 - Real.sqrt (T / Tc)) * Real.sqrt (T / Tc)
      / Real.sqrt (p.a / (c * Rgas ^ 2 * Tc ^ 2 / Pc))) = p.a - T * p.da) :
    prH c T Tc Pc P p z = hres Rgas uPR wPR P T p.a p.da p.b (z * Rgas * T / P) := by
  have h8 : Real.sqrt 8 ≠ 0 := (Real.sqrt_pos.mpr (by norm_num)).ne'
  have hpv : P * (z * Rgas * T / P) = z * Rgas * T := by field_simp
  unfold prH hres
  rw [ratio hT hP, uw_pr, hpv, ← hk]
  generalize Real.log ((z * Rgas * T / P + uPR * p.b) / (z * Rgas * T / P + wPR * p.b)) = L
  generalize (1 + (Real.sqrt (p.a / (c * Rgas ^ 2 * Tc ^ 2 / Pc)) - 1) / (1 - Real.sqrt (T / Tc)) * Real.sqrt (T / Tc)
      / Real.sqrt (p.a / (c * Rgas ^ 2 * Tc ^ 2 / Pc))) = F
  linear_combination (-L * F) * AB_ratio (a := p.a) hT hP hb (Real.sqrt 8) h8

/-- The residual heat capacity of an equation of state. -/
noncomputable def cres (R u w T a a' a'' b v : ℝ) : ℝ :=
  T * a'' / (b * (u - w)) * Real.log ((v + u * b) / (v + w * b)) - R
    - T * (R / (v - b) - a' / ((v + u * b) * (v + w * b))) ^ 2
      / (-R * T / (v - b) ^ 2 + a * (2 * v + (u + w) * b) / ((v + u * b) * (v + w * b)) ^ 2)

lemma pr_den (v b : ℝ) : (v + uPR * b) * (v + wPR * b) = v * (v + b) + b * (v - b) := by
  linear_combination (-b ^ 2) * sqrt2

lemma prProps_cp {c T P Tc Pc z l : ℝ} {p : AB} (hT : 0 < T) (hP : 0 < P) :
    (prProps c T P Tc Pc p (Ax p.a T P) (Bx p.b T P) (z, l)).cp = cres Rgas uPR wPR T p.a p.da p.d2a p.b (z * Rgas * T / P) := by
  unfold prProps cres
  dsimp only
  rw [← ratio hT hP, uw_pr, pr_den, mul_comm (Bx p.b T P) uPR, mul_comm (Bx p.b T P) wPR,
    show (uPR + wPR : ℝ) = 2 by ring,
    show (p.a * (2 * (z * Rgas * T / P) + 2 * p.b) : ℝ) = 2 * p.a * (z * Rgas * T / P + p.b) by ring]
  ring

lemma srkProps_h {T P z l : ℝ} {p : AB} (hT : 0 < T) (hP : 0 < P) (hb : 0 < p.b) (h : RootOf 1 0 p.a p.b T P z) :
    (srkProps T P p (Bx p.b T P) (z, l)).h = some (hres Rgas 1 0 P T p.a p.da p.b (z * Rgas * T / P)) := by
  have hR := Rpos
  have hv : 0 < z * Rgas * T / P := by have := h.vW; linarith
  have hpv : P * (z * Rgas * T / P) = z * Rgas * T := by field_simp
  unfold srkProps hres
  dsimp only
  congr 1
  rw [hpv, show (1 + p.b / (z * Rgas * T / P)) = (z * Rgas * T / P + 1 * p.b) / (z * Rgas * T / P + 0 * p.b) by
    rw [add_div' _ _ _ hv.ne']; congr 1 <;> ring]
  generalize Real.log ((z * Rgas * T / P + 1 * p.b) / (z * Rgas * T / P + 0 * p.b)) = L
  field_simp
  ring

lemma srkProps_s {T P z l : ℝ} {p : AB} (hT : 0 < T) (hP : 0 < P) (h : RootOf 1 0 p.a p.b T P z) :
    (srkProps T P p (Bx p.b T P) (z, l)).s = some (Rgas * Real.log (P * (z * Rgas * T / P - p.b) / (Rgas * T))
      + p.da / (p.b * (1 - 0)) * Real.log ((z * Rgas * T / P + 1 * p.b) / (z * Rgas * T / P + 0 * p.b))) := by
  have hR := Rpos
  have hv : 0 < z * Rgas * T / P := by have := h.vW; linarith
  unfold srkProps
  dsimp only
  congr 1
  rw [show (1 + p.b / (z * Rgas * T / P)) = (z * Rgas * T / P + 1 * p.b) / (z * Rgas * T / P + 0 * p.b) by
    rw [add_div' _ _ _ hv.ne']; congr 1 <;> ring,
    show z * (1 - p.b / (z * Rgas * T / P)) = P * (z * Rgas * T / P - p.b) / (Rgas * T) by
      have hz : z ≠ 0 := by rintro rfl; simp at hv
      field_simp]
  generalize Real.log ((z * Rgas * T / P + 1 * p.b) / (z * Rgas * T / P + 0 * p.b)) = L
  field_simp
  ring

lemma srkProps_g {T P z l : ℝ} {p : AB} (hT : 0 < T) (hP : 0 < P) (hb : 0 < p.b) (h : RootOf 1 0 p.a p.b T P z) :
    (srkProps T P p (Bx p.b T P) (z, l)).g = gres Rgas 1 0 P T p.a p.b (z * Rgas * T / P) := by
  have h1 := Option.some.inj (srkProps_h (l := l) hT hP hb h)
  have h2 := Option.some.inj (srkProps_s (l := l) hT hP h)
  have : (srkProps T P p (Bx p.b T P) (z, l)).g = hres Rgas 1 0 P T p.a p.da p.b (z * Rgas * T / P)
      - T * (Rgas * Real.log (P * (z * Rgas * T / P - p.b) / (Rgas * T))
        + p.da / (p.b * (1 - 0)) * Real.log ((z * Rgas * T / P + 1 * p.b) / (z * Rgas * T / P + 0 * p.b))) := by
    rw [← h1, ← h2]; rfl
  rw [this]
  unfold hres gres
  ring

lemma srkProps_lnf {T P z : ℝ} {p : AB} (hT : 0 < T) (hP : 0 < P) (hb : 0 < p.b) (h : RootOf 1 0 p.a p.b T P z) :
    (srkProps T P p (Bx p.b T P) (z, srkLnf (Ax p.a T P) (Bx p.b T P) z)).g
      = Rgas * T * Real.log (srkProps T P p (Bx p.b T P) (z, srkLnf (Ax p.a T P) (Bx p.b T P) z)).phi := by
  rw [srkProps_g hT hP hb h]
  have hpv : P * (z * Rgas * T / P) = z * Rgas * T := by field_simp
  have hW := h.W
  have hphi : (srkProps T P p (Bx p.b T P) (z, srkLnf (Ax p.a T P) (Bx p.b T P) z)).phi
      = Real.exp (srkLnf (Ax p.a T P) (Bx p.b T P) z) := rfl
  rw [hphi, Real.log_exp]
  unfold gres srkLnf
  have hz : 0 < z := by linarith
  rw [hpv, ← zB hT hP, ← ratio hT hP, show (z + 1 * Bx p.b T P) / (z + 0 * Bx p.b T P) = 1 + Bx p.b T P / z by
    rw [zero_mul, add_zero, one_mul, add_div, div_self hz.ne']]
  have := AB_ratio (a := p.a) hT hP hb 1 one_ne_zero
  rw [mul_one, mul_one] at this
  rw [show (p.b * (1 - 0) : ℝ) = p.b by ring]
  linear_combination Real.log (1 + Bx p.b T P / z) * this

lemma srkProps_cp {T P z l : ℝ} {p : AB} (hT : 0 < T) (hP : 0 < P) (h : RootOf 1 0 p.a p.b T P z) :
    (srkProps T P p (Bx p.b T P) (z, l)).cp = cres Rgas 1 0 T p.a p.da p.d2a p.b (z * Rgas * T / P) := by
  have hW := h.W
  have hz : 0 < z := by linarith
  unfold srkProps cres
  dsimp only
  rw [← ratio hT hP, show (z + 1 * Bx p.b T P) / (z + 0 * Bx p.b T P) = 1 + Bx p.b T P / z by
    rw [zero_mul, add_zero, one_mul, add_div, div_self hz.ne'], show (p.b * (1 - 0) : ℝ) = p.b by ring,
    show (z * Rgas * T / P + 1 * p.b) * (z * Rgas * T / P + 0 * p.b) = z * Rgas * T / P * (z * Rgas * T / P + p.b) by ring,
    show (p.a * (2 * (z * Rgas * T / P) + (1 + 0) * p.b) : ℝ) = p.a * (2 * (z * Rgas * T / P) + p.b) by ring]
  ring

/-! ### Neighbourhoods -/

lemma PrOne.eventually {a b t p : ℝ → ℝ} {x : ℝ} (ha : ContinuousAt a x) (hb : ContinuousAt b x) (ht : ContinuousAt t x) (hp : ContinuousAt p x)
    (ht0 : t x ≠ 0) (h : PrOne (a x) (b x) (t x) (p x)) : ∀ᶠ y in 𝓝 x, PrOne (a y) (b y) (t y) (p y) := by
  have hR := Rpos
  have cA : ContinuousAt (fun y => Ax (a y) (t y) (p y)) x := by
    unfold Ax
    exact (ha.mul hp).div (by fun_prop) (by positivity)
  have cB : ContinuousAt (fun y => Bx (b y) (t y) (p y)) x := by
    unfold Bx
    exact (hb.mul hp).div (by fun_prop) (mul_ne_zero hR.ne' ht0)
  unfold PrOne cq cr at *
  exact (ContinuousAt.eventually_lt (by fun_prop) (by fun_prop) h.1).and (ContinuousAt.eventually_ne (by fun_prop) h.2)

lemma SrkOne.eventually {a b t p : ℝ → ℝ} {x : ℝ} (ha : ContinuousAt a x) (hb : ContinuousAt b x) (ht : ContinuousAt t x) (hp : ContinuousAt p x)
    (ht0 : t x ≠ 0) (h : SrkOne (a x) (b x) (t x) (p x)) : ∀ᶠ y in 𝓝 x, SrkOne (a y) (b y) (t y) (p y) := by
  have hR := Rpos
  have cA : ContinuousAt (fun y => Ax (a y) (t y) (p y)) x := by
    unfold Ax
    exact (ha.mul hp).div (by fun_prop) (by positivity)
  have cB : ContinuousAt (fun y => Bx (b y) (t y) (p y)) x := by
    unfold Bx
    exact (hb.mul hp).div (by fun_prop) (mul_ne_zero hR.ne' ht0)
  unfold SrkOne cq cr at *
  exact (ContinuousAt.eventually_lt (by fun_prop) (by fun_prop) h.1).and (ContinuousAt.eventually_ne (by fun_prop) h.2)

lemma prV_diff {a b t p : ℝ → ℝ} {x : ℝ} (ha : DifferentiableAt ℝ a x) (hb : DifferentiableAt ℝ b x) (ht : DifferentiableAt ℝ t x)
    (hp : DifferentiableAt ℝ p x) (ht0 : t x ≠ 0) (hp0 : p x ≠ 0) (h : PrOne (a x) (b x) (t x) (p x)) :
    DifferentiableAt ℝ (fun y => prZ (a y) (b y) (t y) (p y) * Rgas * t y / p y) x := by
  have hR := Rpos
  have cA : DifferentiableAt ℝ (fun y => Ax (a y) (t y) (p y)) x := by
    unfold Ax
    exact (ha.mul hp).div (by fun_prop) (by positivity)
  have cB : DifferentiableAt ℝ (fun y => Bx (b y) (t y) (p y)) x := by
    unfold Bx
    exact (hb.mul hp).div (by fun_prop) (mul_ne_zero hR.ne' ht0)
  have := oneRoot_diff (x := x) (f2 := fun y => Bx (b y) (t y) (p y) - 1)
    (f1 := fun y => Ax (a y) (t y) (p y) - 3 * Bx (b y) (t y) (p y) ^ 2 - 2 * Bx (b y) (t y) (p y))
    (f0 := fun y => Bx (b y) (t y) (p y) ^ 3 + Bx (b y) (t y) (p y) ^ 2 - Ax (a y) (t y) (p y) * Bx (b y) (t y) (p y))
    (by fun_prop) (by fun_prop) (by fun_prop) h.1 h.2
  unfold prZ
  exact ((this.mul_const Rgas).mul ht).div hp hp0

lemma srkV_diff {a b t p : ℝ → ℝ} {x : ℝ} (ha : DifferentiableAt ℝ a x) (hb : DifferentiableAt ℝ b x) (ht : DifferentiableAt ℝ t x)
    (hp : DifferentiableAt ℝ p x) (ht0 : t x ≠ 0) (hp0 : p x ≠ 0) (h : SrkOne (a x) (b x) (t x) (p x)) :
    DifferentiableAt ℝ (fun y => srkZ (a y) (b y) (t y) (p y) * Rgas * t y / p y) x := by
  have hR := Rpos
  have cA : DifferentiableAt ℝ (fun y => Ax (a y) (t y) (p y)) x := by
    unfold Ax
    exact (ha.mul hp).div (by fun_prop) (by positivity)
  have cB : DifferentiableAt ℝ (fun y => Bx (b y) (t y) (p y)) x := by
    unfold Bx
    exact (hb.mul hp).div (by fun_prop) (mul_ne_zero hR.ne' ht0)
  have := oneRoot_diff (x := x) (f2 := fun _ => -1)
    (f1 := fun y => Ax (a y) (t y) (p y) - Bx (b y) (t y) (p y) - Bx (b y) (t y) (p y) ^ 2)
    (f0 := fun y => -Ax (a y) (t y) (p y) * Bx (b y) (t y) (p y))
    (by fun_prop) (by fun_prop) (by fun_prop) h.1 h.2
  unfold srkZ
  exact ((this.mul_const Rgas).mul ht).div hp hp0

/-- The derivative of the residual enthalpy is the residual heat capacity. -/
lemma hres_cres {R T P b u w : ℝ} {v A A' : ℝ → ℝ} {v' a'' : ℝ} (hb : 0 < b) (huw : u ≠ w) (hv : HasDerivAt v v' T)
    (hA : HasDerivAt A (A' T) T) (hA' : HasDerivAt A' a'' T) (h0 : b < v T) (h1 : 0 < v T + u * b) (h2 : 0 < v T + w * b)
    (eos : ∀ᶠ t in 𝓝 T, P = R * t / (v t - b) - A t / ((v t + u * b) * (v t + w * b)))
    (slope : -R * T / (v T - b) ^ 2 + A T * (2 * v T + (u + w) * b) / ((v T + u * b) * (v T + w * b)) ^ 2 ≠ 0) :
    HasDerivAt (fun t => hres R u w P t (A t) (A' t) b (v t)) (cres R u w T (A T) (A' T) a'' b (v T)) T := by
  have key := vol_T hv hA h0 h1 h2 eos
  have e := eos.self_of_nhds
  refine (hres_T (R := R) (P := P) hb huw hv hA hA' h1 h2 rfl).congr_deriv ?_
  unfold cres
  have hv' : v' = -(R / (v T - b) - A' T / ((v T + u * b) * (v T + w * b)))
      / (-R * T / (v T - b) ^ 2 + A T * (2 * v T + (u + w) * b) / ((v T + u * b) * (v T + w * b)) ^ 2) := by
    rw [eq_div_iff slope]; linear_combination key
  have hT : P + (A T - T * A' T) / ((v T + u * b) * (v T + w * b)) = T * (R / (v T - b) - A' T / ((v T + u * b) * (v T + w * b))) := by
    linear_combination e
  rw [hT, hv']
  ring

end ThermoFun.Gas
