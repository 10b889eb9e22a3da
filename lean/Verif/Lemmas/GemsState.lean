import Verif.Lemmas.GemsTotal
import Verif.Lemmas.Solve

/-! The functions of WaterHGK-JNgems.cpp along a density that solves the equation of state. -/

namespace ThermoFun

namespace Gems

open WP (el)
open HGK (eli)

/-- A density function v(T, P): continuous at (T, P), solves the equation of state near (T, P), and stays away from the spinodal and
from the boundaries at which the code cuts off terms. -/
structure Den (v : ℝ → ℝ → ℝ) (T P : ℝ) : Prop where
  cont : ContinuousAt (fun q : ℝ × ℝ => v q.1 q.2) (T, P)
  eqn : ∀ᶠ q : ℝ × ℝ in nhds (T, P), presOf (evalAt q.1 (v q.1 q.2)) q.1 (v q.1 q.2) = q.2
  ok : Ok T (v T P)
  hk : (thmHGK (evalAt T (v T P)) T (v T P)).dpdd ≠ 0

variable {t d T P : ℝ} {v : ℝ → ℝ → ℝ}

lemma pres_grad (h : Ok t d) : Grad (fun t d => presOf (evalAt t d) t d) (d ^ 2 * (total t d).fTD) (2 * d * (total t d).fD + d ^ 2 * (total t d).fDD) t d := by
  have j := (total_jet h).fD
  refine (((Grad.sndG.mul Grad.sndG).mul j).congr (by ring) (by ring)).congr_ev (h.eventually.mono fun q hq => ?_)
  rw [pres_eq hq]; ring

lemma den_exists (h : Ok t d) (hk : (thmHGK (evalAt t d) t d).dpdd ≠ 0) :
    ∃ v : ℝ → ℝ → ℝ, Den v t (presOf (evalAt t d) t d) ∧ v t (presOf (evalAt t d) t d) = d := by
  have j := total_jet h
  have cs : ContinuousAt (fun q : ℝ × ℝ => q.2) (t, d) := continuousAt_snd
  obtain ⟨v, h1, h2, h3, _⟩ := Grad.solve (g := fun t d => presOf (evalAt t d) t d) (a := fun t d => d ^ 2 * (total t d).fTD)
    (b := fun t d => 2 * d * (total t d).fD + d ^ 2 * (total t d).fDD) (x := t) (y := d) (h.eventually.mono fun q hq => pres_grad hq)
    ((cs.pow 2).mul j.fTD.continuousAt) (((cs.const_mul 2).mul j.fD.continuousAt).add ((cs.pow 2).mul j.fDD.continuousAt)) (by rw [← dpdd_eq h]; exact hk)
  exact ⟨v, ⟨h1, h3, by rw [h2]; exact h, by rw [h2]; exact hk⟩, h2⟩

/-- The entropy: the code replaces (g1 + g2 + 1)/2 by 28.16666667. -/
lemma sd_eq (h : Ok t d) : gascon * (thmHGK (evalAt t d) t d).sd = -(total t d).fT - gascon * ((28.16666667 - cHS) / (1 - 0.25 * ((bb t).b1 * d)) ^ 2) := by
  have h1 := ud_eq h
  have h2 := ad_eq h
  have ht := h.ht.ne'
  have e : (thmHGK (evalAt t d) t d).sd = (thmHGK (evalAt t d) t d).ud - (thmHGK (evalAt t d) t d).ad := by
    simp only [thmHGK, evalAt, base, resid, ideal]; ring
  have e2 : gascon * t * (thmHGK (evalAt t d) t d).sd = t * (-(total t d).fT - gascon * ((28.16666667 - cHS) / (1 - 0.25 * ((bb t).b1 * d)) ^ 2)) := by
    rw [e, mul_sub, h1, h2]; ring
  exact mul_left_cancel₀ ht (by linarith)

lemma alpha_ok (h : Ok t d) : d * (thmHGK (evalAt t d) t d).dvdt = (total t d).fTD / (2 * (total t d).fD + d * (total t d).fDD) := by
  have hd := h.hd.ne'
  have e : (thmHGK (evalAt t d) t d).dvdt = (thmHGK (evalAt t d) t d).dpdt / (thmHGK (evalAt t d) t d).dpdd / d / d := rfl
  have e2 : 2 * d * (total t d).fD + d ^ 2 * (total t d).fDD = d * (2 * (total t d).fD + d * (total t d).fDD) := by ring
  rw [e, dpdt_eq h, dpdd_eq h, e2]
  generalize 2 * (total t d).fD + d * (total t d).fDD = n
  rcases eq_or_ne n 0 with h0 | h0
  · simp [h0]
  · field_simp

namespace Den

variable (h : Den v T P)
include h

lemma ev : ∀ᶠ q : ℝ × ℝ in nhds (T, P), Ok q.1 (v q.1 q.2) :=
  (continuousAt_fst.prodMk h.cont).tendsto.eventually h.ok.eventually

lemma here : presOf (evalAt T (v T P)) T (v T P) = P := h.eqn.self_of_nhds

lemma N_ne : 2 * v T P * (total T (v T P)).fD + v T P ^ 2 * (total T (v T P)).fDD ≠ 0 := by rw [← dpdd_eq h.ok]; exact h.hk

lemma grad : Grad v (-(v T P ^ 2 * (total T (v T P)).fTD) / (2 * v T P * (total T (v T P)).fD + v T P ^ 2 * (total T (v T P)).fDD))
    (1 / (2 * v T P * (total T (v T P)).fD + v T P ^ 2 * (total T (v T P)).fDD)) T P :=
  Grad.implicit (g := fun t d => presOf (evalAt t d) t d) h.cont (pres_grad h.ok) h.N_ne h.eqn

/-- The expansivity of the code. -/
lemma alpha_eq : v T P * (thmHGK (evalAt T (v T P)) T (v T P)).dvdt =
    v T P * (total T (v T P)).fTD / (2 * v T P * (total T (v T P)).fD + v T P ^ 2 * (total T (v T P)).fDD) := by
  have hd := h.ok.hd.ne'
  have hN := h.N_ne
  have e : (thmHGK (evalAt T (v T P)) T (v T P)).dvdt = (thmHGK (evalAt T (v T P)) T (v T P)).dpdt / (thmHGK (evalAt T (v T P)) T (v T P)).dpdd / v T P / v T P := rfl
  rw [e, dpdt_eq h.ok, dpdd_eq h.ok]
  generalize (2 * v T P * (total T (v T P)).fD + v T P ^ 2 * (total T (v T P)).fDD) = N at *
  field_simp

lemma gradT : Grad v (-(v T P * (thmHGK (evalAt T (v T P)) T (v T P)).dvdt) * v T P) (1 / (thmHGK (evalAt T (v T P)) T (v T P)).dpdd) T P := by
  refine h.grad.congr ?_ (by rw [dpdd_eq h.ok])
  rw [h.alpha_eq]; ring

/-- A function of temperature and density along v. -/
lemma along {F : ℝ → ℝ → ℝ} {a b : ℝ} (hF : Grad F a b T (v T P)) :
    Grad (fun T P => F T (v T P)) (a + b * (-(v T P * (thmHGK (evalAt T (v T P)) T (v T P)).dvdt) * v T P)) (b / (thmHGK (evalAt T (v T P)) T (v T P)).dpdd) T P :=
  (Grad.subst (u := fun x _ => x) (v := v) hF Grad.fstG h.gradT).congr (by ring) (by ring)

/-- The internal energy. -/
lemma u_grad : Grad (fun T P => gascon * T * (thmHGK (evalAt T (v T P)) T (v T P)).ud)
    (-T * (total T (v T P)).fTT + ((total T (v T P)).fD - T * (total T (v T P)).fTD) * (-(v T P * (thmHGK (evalAt T (v T P)) T (v T P)).dvdt) * v T P))
    (((total T (v T P)).fD - T * (total T (v T P)).fTD) / (thmHGK (evalAt T (v T P)) T (v T P)).dpdd) T P := by
  have j := total_jet h.ok
  have g : Grad (fun t d => (total t d).f - t * (total t d).fT) (-T * (total T (v T P)).fTT) ((total T (v T P)).fD - T * (total T (v T P)).fTD) T (v T P) :=
    (j.f.sub (Grad.fstG.mul j.fT)).congr (by ring) (by ring)
  exact (h.along g).congr_ev (h.ev.mono fun q hq => ud_eq hq)

/-- The enthalpy. -/
lemma hd_eq : ∀ᶠ q : ℝ × ℝ in nhds (T, P), gascon * q.1 * (thmHGK (evalAt q.1 (v q.1 q.2)) q.1 (v q.1 q.2)).hd =
    gascon * q.1 * (thmHGK (evalAt q.1 (v q.1 q.2)) q.1 (v q.1 q.2)).ud + q.2 / v q.1 q.2 := by
  filter_upwards [h.ev, h.eqn] with q hq he
  have hg := gascon_pos.ne'
  have h1 := hq.ht.ne'
  have h2 := hq.hd.ne'
  have e : (thmHGK (evalAt q.1 (v q.1 q.2)) q.1 (v q.1 q.2)).hd = (thmHGK (evalAt q.1 (v q.1 q.2)) q.1 (v q.1 q.2)).ud +
    ((evalAt q.1 (v q.1 q.2)).b.zb + (evalAt q.1 (v q.1 q.2)).r.q0 / (gascon * q.1) / v q.1 q.2) := rfl
  have e2 : q.2 / v q.1 q.2 = presOf (evalAt q.1 (v q.1 q.2)) q.1 (v q.1 q.2) / v q.1 q.2 := by rw [he]
  rw [e, e2, presOf]
  generalize v q.1 q.2 = d at *
  field_simp

lemma P_eq : P = v T P ^ 2 * (total T (v T P)).fD := by rw [← pres_eq h.ok]; exact h.here.symm

lemma dpdd_ne : (thmHGK (evalAt T (v T P)) T (v T P)).dpdd ≠ 0 := h.hk

lemma fTD_eq : (total T (v T P)).fTD = (thmHGK (evalAt T (v T P)) T (v T P)).dvdt * (thmHGK (evalAt T (v T P)) T (v T P)).dpdd := by
  have hd := h.ok.hd.ne'
  have hN := h.N_ne
  have a := h.alpha_eq
  rw [dpdd_eq h.ok]
  generalize (2 * v T P * (total T (v T P)).fD + v T P ^ 2 * (total T (v T P)).fDD) = N at *
  field_simp at a ⊢
  linarith

lemma h_grad : Grad (fun T P => gascon * T * (thmHGK (evalAt T (v T P)) T (v T P)).hd)
    (gascon * (thmHGK (evalAt T (v T P)) T (v T P)).cpd)
    ((1 - v T P * (thmHGK (evalAt T (v T P)) T (v T P)).dvdt * T) / v T P) T P := by
  have hd := h.ok.hd.ne'
  have hk := h.hk
  have hg := gascon_pos.ne'
  have hP := h.P_eq
  have hf := h.fTD_eq
  have hc := cvd_eq h.ok
  have hp := dpdt_eq h.ok
  have e : (thmHGK (evalAt T (v T P)) T (v T P)).cpd = (thmHGK (evalAt T (v T P)) T (v T P)).cvd + T * (thmHGK (evalAt T (v T P)) T (v T P)).dpdt *
    (thmHGK (evalAt T (v T P)) T (v T P)).dpdt / (v T P * v T P * (thmHGK (evalAt T (v T P)) T (v T P)).dpdd * gascon) := rfl
  refine ((h.u_grad.add (Grad.sndG.div h.gradT hd)).congr ?_ ?_).congr_ev h.hd_eq
  · rw [e, mul_add, hc, hp, hf]
    generalize (thmHGK (evalAt T (v T P)) T (v T P)).dpdd = k at *
    generalize (thmHGK (evalAt T (v T P)) T (v T P)).dvdt = a at *
    generalize (total T (v T P)).fD = f1 at *
    generalize (total T (v T P)).fTT = f2 at *
    generalize v T P = d at *
    rw [hP]; field_simp; ring
  · rw [hf]
    generalize (thmHGK (evalAt T (v T P)) T (v T P)).dpdd = k at *
    generalize (thmHGK (evalAt T (v T P)) T (v T P)).dvdt = a at *
    generalize (total T (v T P)).fD = f1 at *
    generalize v T P = d at *
    rw [hP]; field_simp; ring

/-- The entropy without the error of the constant. -/
lemma s_grad : Grad (fun T P => gascon * (thmHGK (evalAt T (v T P)) T (v T P)).sd + gascon * ((28.16666667 - cHS) / (1 - 0.25 * ((bb T).b1 * v T P)) ^ 2))
    (gascon * (thmHGK (evalAt T (v T P)) T (v T P)).cpd / T) (-(v T P * (thmHGK (evalAt T (v T P)) T (v T P)).dvdt) / v T P) T P := by
  have hd := h.ok.hd.ne'
  have ht := h.ok.ht.ne'
  have hk := h.hk
  have hg := gascon_pos.ne'
  have hf := h.fTD_eq
  have hc := cvd_eq h.ok
  have hp := dpdt_eq h.ok
  have e : (thmHGK (evalAt T (v T P)) T (v T P)).cpd = (thmHGK (evalAt T (v T P)) T (v T P)).cvd + T * (thmHGK (evalAt T (v T P)) T (v T P)).dpdt *
    (thmHGK (evalAt T (v T P)) T (v T P)).dpdt / (v T P * v T P * (thmHGK (evalAt T (v T P)) T (v T P)).dpdd * gascon) := rfl
  have j := total_jet h.ok
  refine ((h.along j.fT.neg).congr ?_ ?_).congr_ev (h.ev.mono fun q hq => ?_)
  · rw [e, mul_add, hc, hp, hf]
    generalize (thmHGK (evalAt T (v T P)) T (v T P)).dpdd = k at *
    generalize (thmHGK (evalAt T (v T P)) T (v T P)).dvdt = a at *
    generalize (total T (v T P)).fTT = f2 at *
    generalize v T P = d at *
    field_simp
  · rw [hf]; field_simp
  · show gascon * (thmHGK (evalAt q.1 (v q.1 q.2)) q.1 (v q.1 q.2)).sd + _ = -(total q.1 (v q.1 q.2)).fT
    rw [sd_eq hq]; ring

/-- The error of the constant along v. -/
lemma err_grad : Grad (fun T P => (28.16666667 - cHS) / (1 - 0.25 * ((bb T).b1 * v T P)) ^ 2)
    ((28.16666667 - cHS) * 0.5 * ((bb T).b1t - (bb T).b1 * (v T P * (thmHGK (evalAt T (v T P)) T (v T P)).dvdt)) * v T P / (1 - 0.25 * ((bb T).b1 * v T P)) ^ 3)
    ((28.16666667 - cHS) * 0.5 * (bb T).b1 / (1 - 0.25 * ((bb T).b1 * v T P)) ^ 3 / (thmHGK (evalAt T (v T P)) T (v T P)).dpdd) T P := by
  have hx : (1 - 0.25 * ((bb T).b1 * v T P)) ≠ 0 := by have := h.ok.hy; intro h0; linarith
  have b := (b1_jet (d := v T P) h.ok.ht).f
  simp only [Helm.ofT] at b
  have x := ((Grad.const (x := T) (y := v T P) 1).sub ((b.mul Grad.sndG).const_mul 0.25))
  have f := (Grad.const (x := T) (y := v T P) (28.16666667 - cHS)).div (x.mul x) (mul_ne_zero hx hx)
  have hk := h.hk
  refine ((h.along f).congr ?_ ?_).congr_fun fun T P => by ring
  · generalize (bb T).b1 = b1 at *
    generalize (bb T).b1t = b1t at *
    generalize v T P = d at *
    generalize hw : (1 - 0.25 * (b1 * d)) = w at *
    field_simp; ring
  · generalize (bb T).b1 = b1 at *
    generalize v T P = d at *
    generalize hw : (1 - 0.25 * (b1 * d)) = w at *
    field_simp; ring

/-- The expansivity along the isobar, and what `dalHGK` returns. -/
lemma al_grad : ∃ c n c' n' : ℝ, n ≠ 0 ∧
    (let al := v T P * (thmHGK (evalAt T (v T P)) T (v T P)).dvdt
     let b := dalBase (bb T) T (v T P) al
     let r := dalResid T (v T P) al
     c = b.d2dt + r.d2dt ∧ n = (thmHGK (evalAt T (v T P)) T (v T P)).dpdd / v T P ∧ c' = b.d3tt + r.d3tt ∧
       n' = 2 * (b.d2tp + r.d2tp) + v T P * (b.d3dt + r.d3dt) - al * (n - 2 * (b.dd + r.dd))) ∧
    HasDerivAt (fun T => v T P * (thmHGK (evalAt T (v T P)) T (v T P)).dvdt) ((c' * n - c * n') / n ^ 2) T ∧
    dalHGK T (v T P) (v T P * (thmHGK (evalAt T (v T P)) T (v T P)).dvdt) =
      (c' * (n + v T P * dalErr T (v T P)) - c * (n' - v T P * (v T P * (thmHGK (evalAt T (v T P)) T (v T P)).dvdt) * dalErr T (v T P))) /
        (n + v T P * dalErr T (v T P)) / (n + v T P * dalErr T (v T P)) := by
  have hd := h.ok.hd.ne'
  have hN := h.N_ne
  have j := total_jet h.ok
  have hn : 2 * (total T (v T P)).fD + v T P * (total T (v T P)).fDD ≠ 0 := by
    intro h0; exact hN (by rw [show 2 * v T P * (total T (v T P)).fD + v T P ^ 2 * (total T (v T P)).fDD =
      v T P * (2 * (total T (v T P)).fD + v T P * (total T (v T P)).fDD) by ring, h0, mul_zero])
  have hal := alpha_ok h.ok
  obtain ⟨al, ha⟩ : ∃ al, al = v T P * (thmHGK (evalAt T (v T P)) T (v T P)).dvdt := ⟨_, rfl⟩
  have r := relD_resid h.ok.ht h.ok.hd al h.ok.del
  have b1 := dalBase_dd (al := al) h.ok.hd h.ok.ht h.ok.hb h.ok.hy
  have b2 := dalBase_d2d (al := al) h.ok.hd h.ok.ht h.ok.hb h.ok.hy
  have b3 := dalBase_d2dt (al := al) h.ok.hd h.ok.ht h.ok.hb h.ok.hy
  have b4 := dalBase_d2tp (al := al) h.ok.hd h.ok.ht h.ok.hb h.ok.hy
  have b5 := dalBase_d3dt (al := al) h.ok.hd h.ok.ht h.ok.hb h.ok.hy
  have b6 := dalBase_d3tt (al := al) h.ok.hd h.ok.ht h.ok.hb h.ok.hy
  obtain ⟨i1, i2, i3, i4, i5, i6⟩ := idJ_fD (t := T)
  refine ⟨(total T (v T P)).fTD, 2 * (total T (v T P)).fD + v T P * (total T (v T P)).fDD, (total T (v T P)).fTTD - al * v T P * (total T (v T P)).fTDD,
    2 * ((total T (v T P)).fTD - al * v T P * (total T (v T P)).fDD) + v T P * ((total T (v T P)).fTDD - al * v T P * (total T (v T P)).fDDD) -
      v T P * al * (total T (v T P)).fDD, hn, ?_, ?_, ?_⟩
  · rw [← ha, dpdd_eq h.ok]
    simp only [b1, b2, b3, b4, b5, b6, r.dd, r.d2d, r.d2dt, r.d2tp, r.d3dt, r.d3tt, total, Helm.plus, i1, i2, i3, i4, i5, i6]
    refine ⟨by ring, by field_simp, by ring, by ring⟩
  · have g := h.along (j.fTD.div ((j.fD.const_mul 2).add (Grad.sndG.mul j.fDD)) hn)
    have g2 := (g.congr_ev (k := fun T P => v T P * (thmHGK (evalAt T (v T P)) T (v T P)).dvdt) (h.ev.mono fun q hq => alpha_ok hq)).dx
    refine g2.congr_deriv ?_
    rw [← ha]
    field_simp; ring
  · rw [← ha]
    simp only [dalHGK, b1, b2, b3, b4, b5, b6, r.dd, r.d2d, r.d2dt, r.d2tp, r.d3dt, r.d3tt, total, Helm.plus, i1, i2, i3, i4, i5, i6]
    congr 1
    · congr 1 <;> ring
    · ring

end Den

end Gems

end ThermoFun
