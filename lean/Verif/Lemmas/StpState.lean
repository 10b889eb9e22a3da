import Verif.Lemmas.Stp
import Verif.Lemmas.GasDeriv

/-!
Density and residual properties of the equation of state of Sterner and Pitzer as functions of temperature and pressure.
-/

namespace ThermoFun.Stp

open Topology Filter

/-- None of the expressions that the code divides by is zero. -/
structure Regular (cf : Nat → Row) (T y : ℝ) : Prop where
  pos : 0 < T
  p : poly (fun k => (cf k).c T) y ≠ 0
  c1 : (cf 1).c T ≠ 0
  c7 : (cf 7).c T ≠ 0
  c9 : (cf 9).c T ≠ 0

lemma Regular.jet {cf : Nat → Row} {T y : ℝ} (h : Regular cf T y) : ∃ g : ℝ → ℝ → ℝ, Jet (fun x y => { helmholtz cf x y with fTTT := g x y }) T y :=
  jet_helmholtz cf h.pos.ne' h.p h.c1 h.c7 h.c9

lemma Regular.ev {cf : Nat → Row} {T y : ℝ} (h : Regular cf T y) : ∀ᶠ q : ℝ × ℝ in 𝓝 (T, y), Regular cf q.1 q.2 := by
  have hT := h.pos.ne'
  have n : ∀ k, (cf k).c T ≠ 0 → ∀ᶠ q : ℝ × ℝ in 𝓝 (T, y), (cf k).c q.1 ≠ 0 := fun k hk =>
    (((cf k).c_d hT).continuousAt.comp (f := Prod.fst) (x := (T, y)) continuousAt_fst).eventually_ne hk
  have J := (jet_poly (c := fun k => (cf k).c) (dc := fun k => (cf k).dc) (d2c := fun k => (cf k).d2c) (d3c := fun k => (cf k).d3c) (x := T) (y := y)
    (fun k => (cf k).c_d hT) (fun k => (cf k).dc_d hT) (fun k => (cf k).d2c_d hT)).f.continuousAt
  filter_upwards [n 1 h.c1, n 7 h.c7, n 9 h.c9, J.eventually_ne h.p, (continuousAt_fst (p := (T, y))).eventually (lt_mem_nhds h.pos)] with q a b c d e
  exact ⟨e, d, a, b, c⟩

lemma pressure_grad {cf : Nat → Row} {T y : ℝ} (h : Regular cf T y) :
    Grad (fun T y => pressure cf T y) (Rgas * y * (1 + y * ((helmholtz cf T y).fTD * T + (helmholtz cf T y).fD))) (slope cf T y) T y := by
  obtain ⟨g, J⟩ := h.jet
  have F := J.fD
  dsimp only at F
  have G := (Grad.fstG.const_mul Rgas).mul (Grad.sndG.add ((Grad.sndG.mul Grad.sndG).mul F))
  refine (G.congr ?_ ?_).congr_fun fun x z => ?_
  · ring
  · rw [(pressure_eq cf T y).2]; ring
  · rw [(pressure_eq cf x z).1]; ring

/-- The density as a function of temperature and pressure. -/
lemma density_exists {cf : Nat → Row} {T y : ℝ} (h : Regular cf T y) (hs : slope cf T y ≠ 0) :
    ∃ v : ℝ → ℝ → ℝ, ContinuousAt (fun q : ℝ × ℝ => v q.1 q.2) (T, pressure cf T y) ∧ v T (pressure cf T y) = y ∧
      ∀ᶠ q : ℝ × ℝ in 𝓝 (T, pressure cf T y), pressure cf q.1 (v q.1 q.2) = q.2 := by
  obtain ⟨g, J⟩ := h.jet
  have c1 := J.fD.continuousAt
  have c2 := J.fTD.continuousAt
  have c3 := J.fDD.continuousAt
  dsimp only at c1 c2 c3
  have f1 : ContinuousAt (fun q : ℝ × ℝ => q.1) (T, y) := continuousAt_fst
  have f2 : ContinuousAt (fun q : ℝ × ℝ => q.2) (T, y) := continuousAt_snd
  have ca : ContinuousAt (fun q : ℝ × ℝ => Rgas * q.2 * (1 + q.2 * ((helmholtz cf q.1 q.2).fTD * q.1 + (helmholtz cf q.1 q.2).fD))) (T, y) :=
    (continuousAt_const.mul f2).mul (continuousAt_const.add (f2.mul ((c2.mul f1).add c1)))
  have cb : ContinuousAt (fun q : ℝ × ℝ => slope cf q.1 q.2) (T, y) := by
    have : (fun q : ℝ × ℝ => slope cf q.1 q.2) = fun q : ℝ × ℝ => Rgas * q.1 * (1 + 2 * q.2 * (helmholtz cf q.1 q.2).fD + q.2 ^ 2 * (helmholtz cf q.1 q.2).fDD) :=
      funext fun q => (pressure_eq cf q.1 q.2).2
    rw [this]
    exact (continuousAt_const.mul f1).mul ((continuousAt_const.add ((continuousAt_const.mul f2).mul c1)).add ((f2.pow 2).mul c3))
  obtain ⟨v, h1, h2, h3, -⟩ := Grad.solve (g := fun T y => pressure cf T y)
    (a := fun T y => Rgas * y * (1 + y * ((helmholtz cf T y).fTD * T + (helmholtz cf T y).fD))) (b := fun T y => slope cf T y)
    (h.ev.mono fun q hq => pressure_grad hq) ca cb hs
  exact ⟨v, h1, h2, h3⟩

section

variable {cf : Nat → Row} {T P : ℝ} {v : ℝ → ℝ → ℝ}

lemma density_grad (hv : ContinuousAt (fun q : ℝ × ℝ => v q.1 q.2) (T, P)) (he : ∀ᶠ q : ℝ × ℝ in 𝓝 (T, P), pressure cf q.1 (v q.1 q.2) = q.2)
    (h : Regular cf T (v T P)) (hs : slope cf T (v T P) ≠ 0) :
    Grad v (-(Rgas * v T P * (1 + v T P * ((helmholtz cf T (v T P)).fTD * T + (helmholtz cf T (v T P)).fD))) / slope cf T (v T P))
      (1 / slope cf T (v T P)) T P :=
  Grad.implicit hv (pressure_grad h) hs he

/-- The residual Gibbs energy of the code, written out. -/
lemma props_g (T P y : ℝ) (hP : 0 < P) : (props cf T P y).g =
    Rgas * T * (Real.log y + (helmholtz cf T y).f + Real.log (Rgas * T) - 1 - Real.log P) + Rgas * T * (P / (y * Rgas * T)) := by
  unfold props
  dsimp only
  rw [Real.log_div (Real.exp_pos _).ne' hP.ne', Real.log_exp]
  ring

/-- Derivative of the residual Gibbs energy along any curve through a state that solves the pressure equation: the change of density does not count. -/
lemma g_curve {t p y : ℝ → ℝ} {t' p' y' s : ℝ} (h : Regular cf (t s) (y s)) (hy : 0 < y s) (hP : 0 < p s) (e : pressure cf (t s) (y s) = p s)
    (ht : HasDerivAt t t' s) (hp : HasDerivAt p p' s) (hy' : HasDerivAt y y' s) :
    HasDerivAt (fun s => (props cf (t s) (p s) (y s)).g)
      ((Rgas * (helmholtz cf (t s) (y s)).f + Rgas * (t s) * (helmholtz cf (t s) (y s)).fT - Rgas * Real.log (p s / (y s * Rgas * t s))) * t' +
        (1 / y s - Rgas * t s / p s) * p') s := by
  have hR := Gas.Rpos
  have hT := h.pos
  obtain ⟨g, J⟩ := h.jet
  have F := J.f.curve ht hy'
  dsimp only at F
  have l1 := (hy'.log hy.ne')
  have l2 := ((ht.const_mul Rgas).log (mul_pos hR hT).ne')
  have l3 := hp.log hP.ne'
  have A := (ht.const_mul Rgas).mul ((((l1.fun_add F).fun_add l2).sub_const 1).fun_sub l3)
  have B := (ht.const_mul Rgas).mul (hp.fun_div ((hy'.mul_const Rgas).mul ht) (mul_pos (mul_pos hy hR) hT).ne')
  have C := A.fun_add B
  have ev : ∀ᶠ z in 𝓝 s, 0 < p z := hp.continuousAt.eventually (lt_mem_nhds hP)
  refine (C.congr_of_eventuallyEq ?_).congr_deriv ?_
  · filter_upwards [ev] with z hz
    rw [props_g _ _ _ hz]
    rfl
  · have e' := (pressure_eq cf (t s) (y s)).1
    rw [e] at e'
    have l : Real.log (p s / (y s * Rgas * t s)) = Real.log (p s) - Real.log (y s) - Real.log (Rgas * t s) := by
      rw [mul_assoc, Real.log_div hP.ne' (by positivity), Real.log_mul hy.ne' (by positivity)]
      ring
    have hfD : (helmholtz cf (t s) (y s)).fD = (p s / (Rgas * t s) - y s) / y s ^ 2 := by
      rw [e']; field_simp; ring
    rw [l]
    simp only [hfD, Pi.mul_apply]
    generalize (helmholtz cf (t s) (y s)).f = f
    generalize (helmholtz cf (t s) (y s)).fT = fT
    generalize Real.log (p s) = x1
    generalize Real.log (y s) = x2
    generalize Real.log (Rgas * t s) = x3
    field_simp
    ring

lemma props_s (T P y : ℝ) : (props cf T P y).s =
    some (-(Rgas * ((helmholtz cf T y).fT * T + (helmholtz cf T y).f)) + Rgas * Real.log (P / (y * Rgas * T))) := rfl

/-- The residual entropy of the code. -/
noncomputable def sres (cf : Nat → Row) (T P y : ℝ) : ℝ :=
  -(Rgas * ((helmholtz cf T y).fT * T + (helmholtz cf T y).f)) + Rgas * Real.log (P / (y * Rgas * T))

/-- Derivative of the residual entropy at constant pressure. -/
lemma s_curve {y : ℝ → ℝ} {y' T P : ℝ} (h : Regular cf T (y T)) (hy : 0 < y T) (hP : 0 < P) (hy' : HasDerivAt y y' T) :
    HasDerivAt (fun T => sres cf T P (y T))
      (-(Rgas * ((helmholtz cf T (y T)).fTT * T + 2 * (helmholtz cf T (y T)).fT)) - Rgas / T
        - Rgas / y T * (1 + y T * ((helmholtz cf T (y T)).fTD * T + (helmholtz cf T (y T)).fD)) * y') T := by
  have hR := Gas.Rpos
  have hT := h.pos
  obtain ⟨g, J⟩ := h.jet
  have F := J.f.curve (u := fun T => T) (hasDerivAt_id' T) hy'
  have FT := J.fT.curve (u := fun T => T) (hasDerivAt_id' T) hy'
  dsimp only at F FT
  have D := ((hasDerivAt_const T P).fun_div ((hy'.mul_const Rgas).fun_mul (hasDerivAt_id' T)) (mul_pos (mul_pos hy hR) hT).ne').log
    (div_pos hP (mul_pos (mul_pos hy hR) hT)).ne'
  have C := ((((FT.fun_mul (hasDerivAt_id' T)).fun_add F).const_mul Rgas).fun_neg).fun_add (D.const_mul Rgas)
  refine C.congr_deriv ?_
  generalize (helmholtz cf T (y T)).f = f
  generalize (helmholtz cf T (y T)).fT = fT
  generalize (helmholtz cf T (y T)).fTT = fTT
  generalize (helmholtz cf T (y T)).fTD = fTD
  generalize (helmholtz cf T (y T)).fD = fD
  field_simp
  ring

end

/-- The pressure at one temperature. -/
lemma pressure_d (cf : Nat → Row) {T y : ℝ} (hp : poly (fun k => (cf k).c T) y ≠ 0) : HasDerivAt (fun y => pressure cf T y) (slope cf T y) y := by
  unfold pressure slope pred dpred poly polyD polyDD at *
  generalize (fun k => (cf k).c T) = c at *
  have Y := hasDerivAt_id' y
  have p2 := Y.fun_pow 2
  have p3 := Y.fun_pow 3
  have p4 := Y.fun_pow 4
  have E : ∀ k : ℝ, HasDerivAt (fun y => Real.exp (-k * y)) (Real.exp (-k * y) * (-k * 1)) y := fun k => (Y.const_mul (-k)).exp
  have Q := (((Y.const_mul (c 2)).const_add (c 1)).fun_add (p2.const_mul (c 3))).fun_add (p3.const_mul (c 4)) |>.fun_add (p4.const_mul (c 5))
  have D := ((Y.const_mul (2 * c 3)).const_add (c 2)).fun_add (p2.const_mul (3 * c 4)) |>.fun_add (p3.const_mul (4 * c 5))
  have A := ((((Y.fun_add (p2.const_mul (c 0))).fun_sub (p2.fun_mul (D.fun_div (Q.fun_pow 2) (pow_ne_zero 2 hp)))).fun_add
    ((p2.const_mul (c 6)).fun_mul (E (c 7)))).fun_add ((p2.const_mul (c 8)).fun_mul (E (c 9)))).mul_const (Rgas * T)
  refine A.congr_deriv ?_
  push_cast
  generalize Real.exp (-c 7 * y) = u
  generalize Real.exp (-c 9 * y) = w
  generalize hq : c 1 + c 2 * y + c 3 * y ^ 2 + c 4 * y ^ 3 + c 5 * y ^ 4 = q at *
  field_simp
  ring

end ThermoFun.Stp
