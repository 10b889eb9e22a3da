import Verif.Lemmas.CorkGas

/-!
The modified Redlich-Kwong part of the CORK equation where its cubic has one real root.
-/

namespace ThermoFun.Cork

open Topology Filter
open Gas (AB Fug cq cr oneRoot gres hres cres)

lemma cardano_one {a2 a1 a0 : ℝ} (h : cq a2 a1 ^ 3 < cr a2 a1 a0 ^ 2) (h0 : cr a2 a1 a0 ≠ 0) :
    cardano a2 a1 a0 = some (oneRoot a2 a1 a0, oneRoot a2 a1 a0, oneRoot a2 a1 a0) := by
  unfold cardano oneRoot
  unfold cq cr at *
  dsimp only
  rw [if_pos (by linarith), if_neg h0]
  have e : ∀ x y z : ℝ, (if x ≠ 0 then x + y / x - z / 3 else -z / 3) = x + y / x - z / 3 := by
    intro x y z; split_ifs with hx
    · rfl
    · simp only [not_not] at hx; rw [hx]; simp; ring
  simp only [e, neg_mul, one_mul]

/-- The coefficients of the cubic. -/
noncomputable def cbM (T P : ℝ) : ℝ := (-1) * RR * T / P
/-- The coefficients of the cubic. -/
noncomputable def ccM (a b T P : ℝ) : ℝ := (-1) * (b * RR * T + b ^ 2 * P - a / Real.sqrt T) / P
/-- The coefficients of the cubic. -/
noncomputable def cdM (a b T P : ℝ) : ℝ := (-1) * a * b / (Real.sqrt T * P)

lemma mrk_cubic {a b T P : ℝ} (hT : 0 < T) (hP : 0 < P) (v : ℝ) : v ^ 3 + cbM T P * v ^ 2 + ccM a b T P * v + cdM a b T P
    = v * (v + b) * (v - b - RR * T / P) + a / Real.sqrt T / P * (v - b) := by
  have hs : 0 < Real.sqrt T := Real.sqrt_pos.mpr hT
  unfold cbM ccM cdM
  field_simp
  ring

/-- One real root. -/
def One (a b T P : ℝ) : Prop :=
  cq (cbM T P) (ccM a b T P) ^ 3 < cr (cbM T P) (ccM a b T P) (cdM a b T P) ^ 2 ∧ cr (cbM T P) (ccM a b T P) (cdM a b T P) ≠ 0

/-- The root. -/
noncomputable def mrkV (a b T P : ℝ) : ℝ := oneRoot (cbM T P) (ccM a b T P) (cdM a b T P)

/-- What the root satisfies. -/
structure Root (a b T P v : ℝ) : Prop where
  vb : b < v
  eos : P = RR * T / (v - b) - a / Real.sqrt T / ((v + 1 * b) * (v + 0 * b))
  slope : -RR * T / (v - b) ^ 2 + a / Real.sqrt T * (2 * v + (1 + 0) * b) / ((v + 1 * b) * (v + 0 * b)) ^ 2 ≠ 0

lemma eos_of {A b v r P : ℝ} (hP : 0 < P) (hb : 0 < b) (hv : b < v) (h : v * (v + b) * (v - b - r / P) + A / P * (v - b) = 0) :
    P = r / (v - b) - A / ((v + 1 * b) * (v + 0 * b)) := by
  have h1 : 0 < v - b := by linarith
  have h2 : 0 < v := by linarith
  have h3 : 0 < v + b := by linarith
  rw [one_mul, zero_mul, add_zero]
  have e : P * (v * (v + b) * (v - b - r / P) + A / P * (v - b)) = v * (v + b) * (P * (v - b) - r) + A * (v - b) := by
    field_simp
  rw [h, mul_zero] at e
  field_simp
  linarith

lemma mrk_root {a b T P : ℝ} (hT : 0 < T) (hP : 0 < P) (ha : 0 ≤ a) (hb : 0 < b) (h : One a b T P) : Root a b T P (mrkV a b T P) := by
  have hR := RRpos
  have hs : 0 < Real.sqrt T := Real.sqrt_pos.mpr hT
  have hz := Gas.oneRoot_root h.1.le h.2
  change (mrkV a b T P) ^ 3 + cbM T P * (mrkV a b T P) ^ 2 + ccM a b T P * mrkV a b T P + cdM a b T P = 0 at hz
  have hgt : b < mrkV a b T P := by
    have hcont : ContinuousOn (fun x : ℝ => x ^ 3 + cbM T P * x ^ 2 + ccM a b T P * x + cdM a b T P) (Set.Icc b (b + RR * T / P)) := by fun_prop
    have h1 : b ^ 3 + cbM T P * b ^ 2 + ccM a b T P * b + cdM a b T P < 0 := by
      rw [mrk_cubic hT hP]
      have : 0 < b * (b + b) * (RR * T / P) := by positivity
      nlinarith
    have h2 : 0 ≤ (b + RR * T / P) ^ 3 + cbM T P * (b + RR * T / P) ^ 2 + ccM a b T P * (b + RR * T / P) + cdM a b T P := by
      rw [mrk_cubic hT hP, show b + RR * T / P - b - RR * T / P = 0 by ring, mul_zero, zero_add]
      have : 0 ≤ b + RR * T / P - b := by rw [add_sub_cancel_left]; positivity
      positivity
    have hle : b ≤ b + RR * T / P := by linarith [show 0 < RR * T / P by positivity]
    obtain ⟨y, hy, hy0⟩ := intermediate_value_Icc hle hcont ⟨h1.le, h2⟩
    have : mrkV a b T P = y := Gas.root_unique h.1 hz hy0
    rw [this]
    refine lt_of_le_of_ne hy.1 ?_
    intro h'
    simp only [← h'] at hy0
    linarith
  have hz' := hz
  rw [mrk_cubic hT hP] at hz'
  refine ⟨hgt, eos_of hP hb hgt hz', ?_⟩
  -- slope of the cubic
  have hsl : 3 * (mrkV a b T P) ^ 2 + 2 * cbM T P * mrkV a b T P + ccM a b T P ≠ 0 := by
    intro h'
    have hd := h.1
    have hy : (mrkV a b T P + cbM T P / 3) ^ 2 = cq (cbM T P) (ccM a b T P) := by unfold cq; linear_combination h' / 3
    rw [Gas.depressed] at hz
    have hr : cr (cbM T P) (ccM a b T P) (cdM a b T P) = (mrkV a b T P + cbM T P / 3) ^ 3 := by rw [← hy] at hz; linear_combination hz / 2
    rw [hr, ← hy] at hd
    exact absurd hd (by rw [show ((mrkV a b T P + cbM T P / 3) ^ 2) ^ 3 = ((mrkV a b T P + cbM T P / 3) ^ 3) ^ 2 by ring]; exact lt_irrefl _)
  have e : 3 * (mrkV a b T P) ^ 2 + 2 * cbM T P * mrkV a b T P + ccM a b T P
      = (2 * mrkV a b T P + b) * (mrkV a b T P - b - RR * T / P) + mrkV a b T P * (mrkV a b T P + b) + a / Real.sqrt T / P := by
    unfold cbM ccM; field_simp; ring
  rw [e] at hsl
  have hRT : -RR * T = -(RR * T / P * P) := by field_simp
  rw [hRT]
  generalize mrkV a b T P = v at *
  generalize RR * T / P = s at *
  have hAP : a / Real.sqrt T = a / Real.sqrt T / P * P := by field_simp
  rw [hAP]
  generalize a / Real.sqrt T / P = A at *
  intro hc
  apply hsl
  have p1 : 0 < v - b := by linarith
  have p2 : 0 < v := by linarith
  have p3 : 0 < v + b := by linarith
  simp only [one_mul, zero_mul, add_zero] at hc
  have hA : A = -(v * (v + b) * (v - b - s)) / (v - b) := by rw [eq_div_iff p1.ne']; linarith
  rw [hA] at hc ⊢
  have k : s * (v * (v + b)) = -((v - b - s) * (2 * v + b) * (v - b)) := by
    have e2 : (-(s * P) / (v - b) ^ 2 + -(v * (v + b) * (v - b - s)) / (v - b) * P * (2 * v + b) / ((v + b) * v) ^ 2)
        * ((v - b) ^ 2 * (v * (v + b))) = -P * (s * (v * (v + b)) + (v - b - s) * (2 * v + b) * (v - b)) := by
      field_simp
      ring
    rw [hc, zero_mul] at e2
    have := mul_eq_zero.mp e2.symm
    rcases this with h | h
    · linarith
    · linarith
  field_simp
  linear_combination k

/-! ### Volume and fugacity coefficient -/

lemma volFug_one {vap : Bool} {a b T P : ℝ} {w : Vir} (hT : 0 < T) (hP : 0 < P) (ha : 0 ≤ a) (hb : 0 < b) (h : One a b T P) :
    volumeFugacity vap T P a b w = some (mrkV a b T P + virV w P, Real.exp (mrkLn T P a b (mrkV a b T P) + virLn w T P)) := by
  have hR := RRpos
  have r := mrk_root hT hP ha hb h
  have hv : 0 < mrkV a b T P := by linarith [r.vb]
  unfold volumeFugacity
  dsimp only
  have e := cardano_one h.1 h.2
  unfold cbM ccM cdM at e
  rw [e]
  have e2 : oneRoot (-1 * RR * T / P) (-1 * (b * RR * T + b ^ 2 * P - a / Real.sqrt T) / P) (-1 * a * b / (Real.sqrt T * P)) = mrkV a b T P := rfl
  simp only [e2]
  have e3 : (if vap = true then vaporRoot (mrkV a b T P) (mrkV a b T P) (mrkV a b T P)
      else liquidRoot (mrkV a b T P) (mrkV a b T P) (mrkV a b T P)) = mrkV a b T P := by
    unfold vaporRoot liquidRoot
    simp
  rw [e3, if_neg]
  intro hc
  have h1 : 0 < (mrkV a b T P - b) * P / (RR * T) := by
    have := r.vb
    have : 0 < mrkV a b T P - b := by linarith
    positivity
  have h2 : 0 < 1 + b / mrkV a b T P := by positivity
  rcases hc with hc | hc | hc <;> linarith

lemma mrkLn_gres {a b T P v : ℝ} (hT : 0 < T) (hb : 0 < b) (hv : b < v) :
    RR * T * mrkLn T P a b v = gres RR 1 0 P T (a / Real.sqrt T) b v := by
  have hR := RRpos
  have hs : 0 < Real.sqrt T := Real.sqrt_pos.mpr hT
  have hv0 : 0 < v := by linarith
  unfold mrkLn gres
  rw [show (v + 1 * b) / (v + 0 * b) = 1 + b / v by rw [one_mul, zero_mul, add_zero, add_div, div_self hv0.ne'],
    show (v - b) * P / (RR * T) = P * (v - b) / (RR * T) by ring, show (b * (1 - 0) : ℝ) = b by ring]
  generalize Real.log (1 + b / v) = L
  generalize Real.log (P * (v - b) / (RR * T)) = M
  field_simp

/-! ### The properties computed from them, without virial part -/

lemma log_inv {v b : ℝ} : Real.log (v / (v + b)) = -Real.log ((v + 1 * b) / (v + 0 * b)) := by
  rw [← Real.log_inv, inv_div, one_mul, zero_mul, add_zero]

lemma ratio_pos {v b : ℝ} (hb : 0 < b) (h1 : 0 < v) : ¬ v / (v + b) ≤ 0 := by
  have h2 : 0 < v + b := by linarith
  exact not_le.mpr (by positivity)

lemma props_h0 {T P v f : ℝ} {p : AB} (hT : 0 < T) (hb : 0 < p.b) (hv : 0 < v) :
    (mrkProps T P p (v, f)).h = some (1000 * hres RR 1 0 P T (p.a / Real.sqrt T) (p.da / Real.sqrt T - p.a / (2 * (T * Real.sqrt T))) p.b v) ∧
    (mrkProps T P p (v, f)).s = some ((1000 * hres RR 1 0 P T (p.a / Real.sqrt T) (p.da / Real.sqrt T - p.a / (2 * (T * Real.sqrt T))) p.b v
      - (mrkProps T P p (v, f)).g) / T) := by
  have hR := RRpos
  have hs : 0 < Real.sqrt T := Real.sqrt_pos.mpr hT
  have key : (P * v / (RR * T) - 1 - 1 / (p.b * RR * T) * (Real.sqrt T * p.da - 3 / 2 * p.a / Real.sqrt T) * Real.log (v / (v + p.b))) * Rgas * T
      = 1000 * hres RR 1 0 P T (p.a / Real.sqrt T) (p.da / Real.sqrt T - p.a / (2 * (T * Real.sqrt T))) p.b v := by
    rw [log_inv, Rgas_RR]
    unfold hres
    generalize Real.log ((v + 1 * p.b) / (v + 0 * p.b)) = L
    have h2 := Real.sq_sqrt hT.le
    generalize Real.sqrt T = s at *
    rw [← h2]
    field_simp
    ring
  unfold mrkProps
  dsimp only
  rw [if_neg (ratio_pos hb hv), if_neg (ratio_pos hb hv), key]
  exact ⟨rfl, rfl⟩

lemma props_h {T P v f : ℝ} {p : AB} (hT : 0 < T) (hb : 0 < p.b) (hv : p.b < v) :
    (mrkProps T P p (v, f)).h = some (1000 * hres RR 1 0 P T (p.a / Real.sqrt T) (p.da / Real.sqrt T - p.a / (2 * (T * Real.sqrt T))) p.b v) ∧
    (mrkProps T P p (v, f)).s = some ((1000 * hres RR 1 0 P T (p.a / Real.sqrt T) (p.da / Real.sqrt T - p.a / (2 * (T * Real.sqrt T))) p.b v
      - (mrkProps T P p (v, f)).g) / T) := props_h0 hT hb (hb.trans hv)

lemma props_cp {T P v f : ℝ} {p : AB} (hT : 0 < T) (hb : 0 < p.b) (hv : p.b < v)
    (slope : -RR * T / (v - p.b) ^ 2 + p.a / Real.sqrt T * (2 * v + (1 + 0) * p.b) / ((v + 1 * p.b) * (v + 0 * p.b)) ^ 2 ≠ 0) :
    (mrkProps T P p (v, f)).cp = 1000 * cres RR 1 0 T (p.a / Real.sqrt T) (p.da / Real.sqrt T - p.a / (2 * (T * Real.sqrt T)))
      (p.d2a / Real.sqrt T - p.da / (T * Real.sqrt T) + 3 * p.a / (4 * (T ^ 2 * Real.sqrt T))) p.b v := by
  have hR := RRpos
  have hs : 0 < Real.sqrt T := Real.sqrt_pos.mpr hT
  have h1 : 0 < v := by linarith
  have h2 : 0 < v + p.b := by linarith
  have h3 : 0 < v - p.b := by linarith
  unfold mrkProps cres
  dsimp only
  rw [log_inv, Rgas_RR, rpow15 hT.le, one_div_one_div]
  have ed : (-RR * T / (v - p.b) ^ 2 + p.a / (v ^ 2 * (v + p.b) * Real.sqrt T) + p.a / (v * (v + p.b) ^ 2 * Real.sqrt T))
      = -RR * T / (v - p.b) ^ 2 + p.a / Real.sqrt T * (2 * v + (1 + 0) * p.b) / ((v + 1 * p.b) * (v + 0 * p.b)) ^ 2 := by
    rw [one_mul, zero_mul, add_zero]
    field_simp
    ring
  have et : RR / (v - p.b) - p.da * (1 / v) / ((v + p.b) * Real.sqrt T) + 0.5 * p.a * (1 / v) / ((v + p.b) * (T * Real.sqrt T))
      = RR / (v - p.b) - (p.da / Real.sqrt T - p.a / (2 * (T * Real.sqrt T))) / ((v + 1 * p.b) * (v + 0 * p.b)) := by
    rw [one_mul, zero_mul, add_zero]
    field_simp
    ring
  rw [ed, et]
  generalize RR / (v - p.b) - (p.da / Real.sqrt T - p.a / (2 * (T * Real.sqrt T))) / ((v + 1 * p.b) * (v + 0 * p.b)) = D at *
  generalize -RR * T / (v - p.b) ^ 2 + p.a / Real.sqrt T * (2 * v + (1 + 0) * p.b) / ((v + 1 * p.b) * (v + 0 * p.b)) ^ 2 = S at *
  generalize Real.log ((v + 1 * p.b) / (v + 0 * p.b)) = L
  have hq := Real.sq_sqrt hT.le
  generalize Real.sqrt T = s at *
  rw [← hq]
  field_simp
  ring

/-! ### Neighbourhoods -/

lemma One.eventually {a t p : ℝ → ℝ} {b x : ℝ} (ha : ContinuousAt a x) (ht : ContinuousAt t x) (hp : ContinuousAt p x)
    (ht0 : 0 < t x) (hp0 : p x ≠ 0) (h : One (a x) b (t x) (p x)) : ∀ᶠ y in 𝓝 x, One (a y) b (t y) (p y) := by
  have hs : Real.sqrt (t x) ≠ 0 := (Real.sqrt_pos.mpr ht0).ne'
  have hsp : Real.sqrt (t x) * p x ≠ 0 := mul_ne_zero hs hp0
  have c1 : ContinuousAt (fun y => cbM (t y) (p y)) x := by unfold cbM; fun_prop (disch := assumption)
  have c2 : ContinuousAt (fun y => ccM (a y) b (t y) (p y)) x := by unfold ccM; fun_prop (disch := assumption)
  have c3 : ContinuousAt (fun y => cdM (a y) b (t y) (p y)) x := by unfold cdM; fun_prop (disch := assumption)
  unfold One cq cr at *
  exact (ContinuousAt.eventually_lt (by fun_prop) (by fun_prop) h.1).and (ContinuousAt.eventually_ne (by fun_prop) h.2)

lemma mrkV_diff {a t p : ℝ → ℝ} {b x : ℝ} (ha : DifferentiableAt ℝ a x) (ht : DifferentiableAt ℝ t x) (hp : DifferentiableAt ℝ p x)
    (ht0 : 0 < t x) (hp0 : p x ≠ 0) (h : One (a x) b (t x) (p x)) : DifferentiableAt ℝ (fun y => mrkV (a y) b (t y) (p y)) x := by
  have hs : Real.sqrt (t x) ≠ 0 := (Real.sqrt_pos.mpr ht0).ne'
  have hsd : DifferentiableAt ℝ (fun y => Real.sqrt (t y)) x := ht.sqrt ht0.ne'
  unfold mrkV
  refine Gas.oneRoot_diff ?_ ?_ ?_ h.1 h.2
  · unfold cbM; exact (ht.const_mul _).div hp hp0
  · unfold ccM
    exact (((ht.const_mul _).add (hp.const_mul _)).sub (ha.div hsd hs)).const_mul _ |>.div hp hp0
  · unfold cdM
    exact ((ha.const_mul _).mul_const _).div (hsd.mul hp) (mul_ne_zero hs hp0)

end ThermoFun.Cork
