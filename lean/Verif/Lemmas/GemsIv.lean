import Verif.Lemmas.Interval
import Verif.Lemmas.GemsTotal

/-! Interval versions of the functions of WaterHGK-JNgems.cpp, for proofs about concrete states. -/

namespace ThermoFun

namespace Gems

open WP (el)
open HGK (eli)

/-- An element of a list of coefficients. -/
def elI (l : List ℚ) (i : ℕ) : Iv := .rat (l.getD i 0)

lemma elI_enc (l : List ℚ) (i : ℕ) : Enc (el l i) (elI l i) := Enc.rat _

def gasconI : Iv := .rat 0.46152200e0
def tzI : Iv := .rat 0.647073e3
def g1I : Iv := .rat 0.11e2
def g2I : Iv := .rat 0.44333333333333e2
def gfI : Iv := .rat 0.35e1

lemma gascon_enc : Enc gascon gasconI := Enc.lit _ (by unfold gascon; norm_num)
lemma tz_enc : Enc tz tzI := Enc.lit _ (by unfold tz; norm_num)
lemma g1_enc : Enc g1 g1I := Enc.lit _ (by unfold g1; norm_num)
lemma g2_enc : Enc g2 g2I := Enc.lit _ (by unfold g2; norm_num)
lemma gf_enc : Enc gf gfI := Enc.lit _ (by unfold gf; norm_num)

/-! ### bb -/

structure EllI where
  b1 : Iv
  b2 : Iv
  b1t : Iv
  b2t : Iv
  b1tt : Iv
  b2tt : Iv

structure EllI.Enc (e : Ell) (a : EllI) : Prop where
  b1 : ThermoFun.Enc e.b1 a.b1
  b2 : ThermoFun.Enc e.b2 a.b2
  b1t : ThermoFun.Enc e.b1t a.b1t
  b2t : ThermoFun.Enc e.b2t a.b2t
  b1tt : ThermoFun.Enc e.b1tt a.b1tt
  b2tt : ThermoFun.Enc e.b2tt a.b2tt

def bbStepI (t : Iv) (e : EllI) (i : ℕ) : EllI :=
  let v := (tzI / t) ^ (i - 1)
  { b1 := e.b1 + elI bp i * v
    b2 := e.b2 + elI bq i * v
    b1t := e.b1t - (.int i - .int 1) * elI bp i * v / t
    b2t := e.b2t - (.int i - .int 1) * elI bq i * v / t
    b1tt := e.b1tt + elI bp i * (.int i - .int 1) * (.int i - .int 1) * v / t / t
    b2tt := e.b2tt + elI bq i * (.int i - .int 1) * (.int i - .int 1) * v / t / t }

def bbI (t : Iv) : EllI :=
  let v1 := tzI / t
  let e := ((List.range 8).map (· + 2)).foldl (bbStepI t)
    { b1 := elI bp 0 + elI bp 1 * .log (.rat 1 / v1), b2 := elI bq 0, b1t := elI bp 1 * v1 / tzI, b2t := .rat 0, b1tt := .rat 0, b2tt := .rat 0 }
  { e with b1tt := e.b1tt - e.b1t / t, b2tt := e.b2tt - e.b2t / t }

lemma foldl_enc {σ τ ι : Type*} (R : σ → τ → Prop) (l : List ι) (f : σ → ι → σ) (k : τ → ι → τ) (hs : ∀ i s u, R s u → R (f s i) (k u i))
    {s : σ} {u : τ} (h : R s u) : R (l.foldl f s) (l.foldl k u) := by
  induction l generalizing s u with
  | nil => exact h
  | cons i l ih => exact ih (hs i s u h)

variable {t d al : ℝ} {tI dI alI : Iv}

lemma natI (i : ℕ) : Enc (i : ℝ) (.int i) := by
  have := Enc.int (i : ℤ)
  push_cast at this
  exact this

lemma oneI : Enc 1 (.int 1) := by
  have := Enc.int 1
  push_cast at this
  exact this

lemma bb_enc (ht : Enc t tI) : EllI.Enc (bb t) (bbI tI) := by
  have hz := tz_enc
  have h : EllI.Enc _ _ := foldl_enc EllI.Enc ((List.range 8).map (· + 2)) (bbStep t) (bbStepI tI) (fun i s u h => by
      obtain ⟨h1, h2, h3, h4, h5, h6⟩ := h
      have hp := elI_enc bp i
      have hq := elI_enc bq i
      have hi := natI i
      have ho := oneI
      unfold bbStep bbStepI
      constructor <;> dsimp only <;> enc)
    (s := { b1 := el bp 0 + el bp 1 * Real.log (1 / (tz / t)), b2 := el bq 0, b1t := el bp 1 * (tz / t) / tz, b2t := 0, b1tt := 0, b2tt := 0 })
    (u := { b1 := elI bp 0 + elI bp 1 * .log (.rat 1 / (tzI / tI)), b2 := elI bq 0, b1t := elI bp 1 * (tzI / tI) / tzI, b2t := .rat 0, b1tt := .rat 0, b2tt := .rat 0 }) (by
      have h0 := elI_enc bp 0
      have h1 := elI_enc bp 1
      have h2 := elI_enc bq 0
      constructor <;> enc)
  obtain ⟨h1, h2, h3, h4, h5, h6⟩ := h
  unfold bb bbI
  constructor <;> dsimp only <;> enc

/-! ### base -/

def xI (e : EllI) (d : Iv) : Iv := .rat 1 - .rat 0.25 * e.b1 * d

structure BaseI where
  yb : Iv
  zb : Iv
  dzb : Iv
  dpdtb : Iv
  ub : Iv
  cvb : Iv

def baseI (e : EllI) (t d : Iv) : BaseI :=
  let yb := .rat 0.25 * e.b1 * d
  let x := .rat 1 - yb
  let z0 := (.rat 1 + g1I * yb + g2I * yb * yb) / (x * x * x)
  let zb := z0 + .rat 4 * yb * (e.b2 / e.b1 - gfI)
  let dz0 := (g1I + .rat 2 * g2I * yb) / (x * x * x) + .rat 3 * (.rat 1 + g1I * yb + g2I * yb * yb) / (x * x * x * x)
  let dzb := dz0 + .rat 4 * (e.b2 / e.b1 - gfI)
  let ub := -t * e.b1t * (zb - .rat 1 - d * e.b2) / e.b1 - d * t * e.b2t
  let bb2tt := t * t * e.b2tt
  { yb := yb, zb := zb, dzb := dzb, ub := ub
    cvb := .rat 2 * ub + (z0 - .rat 1) * (((t * e.b1t / e.b1) * (t * e.b1t / e.b1)) - t * t * e.b1tt / e.b1) -
      d * (bb2tt - gfI * e.b1tt * t * t) - (t * e.b1t / e.b1) * (t * e.b1t / e.b1) * yb * dz0
    dpdtb := zb / t + d * (dzb * e.b1t / .rat 4 + e.b2t - e.b2 / e.b1 * e.b1t) }

structure BaseI.Enc (e : BaseF) (a : BaseI) : Prop where
  yb : ThermoFun.Enc e.yb a.yb
  zb : ThermoFun.Enc e.zb a.zb
  dzb : ThermoFun.Enc e.dzb a.dzb
  dpdtb : ThermoFun.Enc e.dpdtb a.dpdtb
  ub : ThermoFun.Enc e.ub a.ub
  cvb : ThermoFun.Enc e.cvb a.cvb

lemma base_enc {e : Ell} {eI : EllI} (he : EllI.Enc e eI) (ht : Enc t tI) (hd : Enc d dI) : BaseI.Enc (base e t d) (baseI eI tI dI) := by
  obtain ⟨h1, h2, h3, h4, h5, h6⟩ := he
  have a1 := g1_enc
  have a2 := g2_enc
  have a3 := gf_enc
  unfold base baseI
  constructor <;> dsimp only <;> enc

/-! ### resid -/

structure RAccI where
  q0 : Iv
  q5 : Iv
  dpdtr : Iv
  cvr : Iv
  qp : Iv
  q2a : Iv

structure RAccI.Enc (e : RAcc) (a : RAccI) : Prop where
  q0 : ThermoFun.Enc e.q0 a.q0
  q5 : ThermoFun.Enc e.q5 a.q5
  dpdtr : ThermoFun.Enc e.dpdtr a.dpdtr
  cvr : ThermoFun.Enc e.cvr a.cvr
  qp : ThermoFun.Enc e.qp a.qp
  q2a : ThermoFun.Enc e.q2a a.q2a

def aaI : Iv := .rat 1
lemma aa_enc : Enc aa aaI := Enc.lit _ (by unfold aa; norm_num)

def residStepI (e t d : Iv) (s : RAccI) (i : ℕ) : RAccI :=
  let q10 := d * d * e
  let q20 := .rat 1 - e
  let v := tzI / t
  let k := HGK.eli ii i + 1
  let l := HGK.eli jj i
  let qp := elI g i * aaI * (q10 * q20 ^ (k - 1)) * v ^ (l - 1)
  let dfdt := q20 ^ k * (.rat 1 - .int l) * v ^ l / tzI / .int k
  let d2f := .int l * dfdt
  let dpt := dfdt * q10 * aaI * .int k / q20
  { s with
    q0 := s.q0 + qp
    q5 := s.q5 + aaI * (.rat 2 / d - aaI * (.rat 1 - e * (.int k - .rat 1) / q20)) * qp
    dpdtr := s.dpdtr + elI g i * dpt
    cvr := s.cvr + elI g i * d2f / gasconI }

/-- The exponential with the lower limit of the argument. -/
def cutI (x : Iv) : Iv :=
  if x.ok && decide (x.hi < -6735000000000000000000000000000000000000000000000000000000000000000000000000000000000000000000000000000000000000000000000000000000000) then .rat 0
  else if x.ok && decide (-6735000000000000000000000000000000000000000000000000000000000000000000000000000000000000000000000000000000000000000000000000000000000 < x.lo) then .exp x else .bad

def delI (d z : Iv) : Iv :=
  let del := d / z - .rat 1
  if decide (1000000000000000000000000000000000000000000000000000000000000000000000000000000000000000000000000000000000000000000000000 < del.lo) || decide (del.hi < -1000000000000000000000000000000000000000000000000000000000000000000000000000000000000000000000000000000000000000000000000) then del else .bad

def residExtraI (t d : Iv) (s : RAccI) (j : ℕ) : RAccI :=
  let k := HGK.eli ii (j + 36)
  let km := HGK.eli jj (j + 36)
  let ddz := elI adz j
  let del := delI d ddz
  let ex1 := -elI aad j * del ^ k
  let dex := cutI ex1 * del ^ km
  let att := elI aat j
  let tx := elI atz j
  let tau := t / tx - .rat 1
  let ex2 := -att * tau * tau
  let tex := cutI ex2
  let q10 := dex * tex
  let qm := .int km / del - .int k * elI aad j * del ^ (k - 1)
  let fct := qm * d * d * q10 / ddz
  let q5t := fct * (.rat 2 / d + qm / ddz) - (d / ddz) * (d / ddz) * q10 * (.int km / del / del + .int k * (.int k - .rat 1) * elI aad j * del ^ (k - 2))
  { s with
    q5 := s.q5 + q5t * elI g (j + 36)
    qp := s.qp + elI g (j + 36) * fct
    dpdtr := s.dpdtr - .rat 2 * elI g (j + 36) * att * tau * fct / tx
    q2a := s.q2a + t * elI g (j + 36) * (.rat 4 * att * ex2 + .rat 2 * att) * q10 / tx / tx }

def residI (t d : Iv) : RAccI :=
  (List.range 4).foldl (residExtraI t d) ((List.range 36).foldl (residStepI (.exp (-aaI * d)) t d) ⟨.rat 0, .rat 0, .rat 0, .rat 0, .rat 0, .rat 0⟩)

lemma EXPTOL_eq : EXPTOL * (scl : ℝ) = -6735000000000000000000000000000000000000000000000000000000000000000000000000000000000000000000000000000000000000000000000000000000000 := by unfold EXPTOL scl; norm_num

lemma cut_lt {x : ℝ} {a : Iv} (h : Enc x a) (h1 : (a.ok && decide (a.hi < -6735000000000000000000000000000000000000000000000000000000000000000000000000000000000000000000000000000000000000000000000000000000000)) = true) : x < EXPTOL := by
  rw [Bool.and_eq_true, decide_eq_true_eq] at h1
  have h2 := (h h1.1).2
  have h3 : (a.hi : ℝ) < -6735000000000000000000000000000000000000000000000000000000000000000000000000000000000000000000000000000000000000000000000000000000000 := by exact_mod_cast h1.2
  rw [← EXPTOL_eq] at h3
  exact lt_of_mul_lt_mul_right (by linarith) scl_pos.le

lemma cut_gt {x : ℝ} {a : Iv} (h : Enc x a) (h1 : (a.ok && decide (-6735000000000000000000000000000000000000000000000000000000000000000000000000000000000000000000000000000000000000000000000000000000000 < a.lo)) = true) : EXPTOL < x := by
  rw [Bool.and_eq_true, decide_eq_true_eq] at h1
  have h2 := (h h1.1).1
  have h3 : (-6735000000000000000000000000000000000000000000000000000000000000000000000000000000000000000000000000000000000000000000000000000000000 : ℝ) < a.lo := by exact_mod_cast h1.2
  rw [← EXPTOL_eq] at h3
  exact lt_of_mul_lt_mul_right (by linarith) scl_pos.le

lemma cutLt_enc {x : ℝ} {a : Iv} (h : Enc x a) : Enc (cutLt x) (cutI a) :=
  Enc.ite (cut_lt h) (fun h1 h2 => absurd (cut_gt h h1) (not_lt.2 h2.le)) (Enc.lit 0 (by norm_num)) h.exp

lemma cutLe_enc {x : ℝ} {a : Iv} (h : Enc x a) : Enc (cutLe x) (cutI a) :=
  Enc.ite (fun h1 => (cut_lt h h1).le) (fun h1 h2 => absurd (cut_gt h h1) (not_lt.2 h2)) (Enc.lit 0 (by norm_num)) h.exp

lemma del_gt {x z : ℝ} {a b : Iv} (hx : Enc x a) (hz : Enc z b) (h : (delI a b).ok = true) : 1.0e-10 < |x / z - 1| := by
  have h1 : Enc (x / z - 1) (a / b - .rat 1) := by enc
  revert h
  unfold delI
  dsimp only
  generalize a / b - .rat 1 = c at *
  split_ifs with hc
  · intro ho
    obtain ⟨h2, h3⟩ := h1 ho
    have hs := scl_pos
    have e : (1.0e-10 : ℝ) * (scl : ℝ) = 1000000000000000000000000000000000000000000000000000000000000000000000000000000000000000000000000000000000000000000000000 := by unfold scl; norm_num
    simp only [Bool.or_eq_true, decide_eq_true_eq] at hc
    rw [lt_abs]
    rcases hc with hc | hc
    · left
      have : (1000000000000000000000000000000000000000000000000000000000000000000000000000000000000000000000000000000000000000000000000 : ℝ) < c.lo := by exact_mod_cast hc
      exact lt_of_mul_lt_mul_right (by linarith) hs.le
    · right
      have : (c.hi : ℝ) < -1000000000000000000000000000000000000000000000000000000000000000000000000000000000000000000000000000000000000000000000000 := by exact_mod_cast hc
      refine lt_of_mul_lt_mul_right (a := (scl : ℝ)) ?_ hs.le
      rw [neg_mul]; linarith
  · intro ho; exact absurd ho (by decide)

lemma del_enc {x z : ℝ} {a b : Iv} (hx : Enc x a) (hz : Enc z b) : Enc (delOf x z) (delI a b) := by
  intro ho
  have h1 : Enc (x / z - 1) (a / b - .rat 1) := by enc
  have h2 := del_gt hx hz ho
  have e : delOf x z = x / z - 1 := by
    unfold delOf; dsimp only; rw [if_neg (not_lt.2 h2.le)]
  rw [e]
  revert ho
  unfold delI
  dsimp only
  split_ifs
  · exact h1
  · intro ho; exact absurd ho (by decide)

lemma residStep_enc (ht : Enc t tI) (hd : Enc d dI) {e : ℝ} {eI : Iv} (he : Enc (Real.exp (-aa * d)) eI) (i : ℕ) (s : RAcc) (u : RAccI) (h : RAccI.Enc s u) :
    RAccI.Enc (residStep t d s i) (residStepI eI tI dI u i) := by
  obtain ⟨h1, h2, h3, h4, h5, h6⟩ := h
  have z1 := tz_enc
  have z2 := aa_enc
  have z3 := gascon_enc
  have z4 := elI_enc g i
  unfold residStep residStepI
  constructor <;> dsimp only <;> enc

lemma residExtra_enc (ht : Enc t tI) (hd : Enc d dI) (j : ℕ) (hj : el g (j + 36) ≠ 0) (s : RAcc) (u : RAccI) (h : RAccI.Enc s u) :
    RAccI.Enc (residExtra t d s j) (residExtraI tI dI u j) := by
  obtain ⟨h1, h2, h3, h4, h5, h6⟩ := h
  have z1 := elI_enc adz j
  have z2 := elI_enc aad j
  have z3 := elI_enc aat j
  have z4 := elI_enc atz j
  have z5 := elI_enc g (j + 36)
  have z6 := del_enc hd z1
  have c1 : Enc (-el aad j * delOf d (el adz j) ^ eli ii (j + 36)) (-elI aad j * delI dI (elI adz j) ^ eli ii (j + 36)) := by enc
  have c2 : Enc (-el aat j * (t / el atz j - 1) * (t / el atz j - 1)) (-elI aat j * (tI / elI atz j - .rat 1) * (tI / elI atz j - .rat 1)) := by enc
  have c3 := cutLt_enc c1
  have c4 := cutLe_enc c2
  rw [residExtra, if_neg hj]
  unfold residExtraI
  constructor <;> dsimp only <;> enc

lemma g_ne : ∀ j < 4, el g (j + 36) ≠ 0 := by
  have h : ∀ j < 4, g.getD (j + 36) 0 ≠ 0 := by decide +kernel
  exact fun j hj => by unfold el; exact_mod_cast h j hj

lemma resid_enc (ht : Enc t tI) (hd : Enc d dI) : RAccI.Enc
    ((List.range 4).foldl (residExtra t d) ((List.range 36).foldl (residStep t d) ⟨0, 0, 0, 0, 0, 0, 0, 0⟩)) (residI tI dI) := by
  have z2 := aa_enc
  have he : Enc (Real.exp (-aa * d)) (.exp (-aaI * dI)) := by enc
  have h0 : RAccI.Enc ((List.range 36).foldl (residStep t d) ⟨0, 0, 0, 0, 0, 0, 0, 0⟩) ((List.range 36).foldl (residStepI (.exp (-aaI * dI)) tI dI)
      ⟨.rat 0, .rat 0, .rat 0, .rat 0, .rat 0, .rat 0⟩) :=
    foldl_enc RAccI.Enc _ _ _ (residStep_enc (e := 0) ht hd he) (by constructor <;> exact Enc.lit 0 (by norm_num))
  have e4 : List.range 4 = [0, 1, 2, 3] := by decide
  unfold residI
  rw [e4]
  simp only [List.foldl_cons, List.foldl_nil]
  exact residExtra_enc ht hd 3 (g_ne 3 (by norm_num)) _ _ (residExtra_enc ht hd 2 (g_ne 2 (by norm_num)) _ _
    (residExtra_enc ht hd 1 (g_ne 1 (by norm_num)) _ _ (residExtra_enc ht hd 0 (g_ne 0 (by norm_num)) _ _ h0)))

/-! ### Pressure and its derivatives -/

def presI (t d : Iv) : Iv := let r := residI t d; gasconI * t * d * (baseI (bbI t) t d).zb + (r.q0 + r.qp)
def dpddI (t d : Iv) : Iv := let b := baseI (bbI t) t d; gasconI * t * (b.zb + b.yb * b.dzb) + (residI t d).q5
def dpdtI (t d : Iv) : Iv := gasconI * t * d * (baseI (bbI t) t d).dpdtb + (residI t d).dpdtr

lemma pres_enc (ht : Enc t tI) (hd : Enc d dI) : Enc (presOf (evalAt t d) t d) (presI tI dI) := by
  obtain ⟨r1, r2, r3, r4, r5, r6⟩ := resid_enc ht hd
  obtain ⟨b1, b2, b3, b4, b5, b6⟩ := base_enc (bb_enc ht) ht hd
  have z3 := gascon_enc
  unfold presOf evalAt resid presI
  dsimp only
  enc

lemma dpdd_enc (ht : Enc t tI) (hd : Enc d dI) : Enc (thmHGK (evalAt t d) t d).dpdd (dpddI tI dI) := by
  obtain ⟨r1, r2, r3, r4, r5, r6⟩ := resid_enc ht hd
  obtain ⟨b1, b2, b3, b4, b5, b6⟩ := base_enc (bb_enc ht) ht hd
  have z3 := gascon_enc
  unfold thmHGK evalAt resid dpddI
  dsimp only
  enc

lemma dpdt_enc (ht : Enc t tI) (hd : Enc d dI) : Enc (thmHGK (evalAt t d) t d).dpdt (dpdtI tI dI) := by
  obtain ⟨r1, r2, r3, r4, r5, r6⟩ := resid_enc ht hd
  obtain ⟨b1, b2, b3, b4, b5, b6⟩ := base_enc (bb_enc ht) ht hd
  have z3 := gascon_enc
  unfold thmHGK evalAt resid dpdtI
  dsimp only
  enc

/-! ### dalHGK -/

structure DalI where
  dd : Iv
  d2d : Iv
  d2dt : Iv
  d2tp : Iv
  d3dt : Iv
  d3tt : Iv

structure DalI.Enc (e : Dal) (a : DalI) : Prop where
  dd : ThermoFun.Enc e.dd a.dd
  d2d : ThermoFun.Enc e.d2d a.d2d
  d2dt : ThermoFun.Enc e.d2dt a.d2dt
  d2tp : ThermoFun.Enc e.d2tp a.d2tp
  d3dt : ThermoFun.Enc e.d3dt a.d3dt
  d3tt : ThermoFun.Enc e.d3tt a.d3tt

def dalBaseI (e : EllI) (t d alpha : Iv) : DalI :=
  let yb := .rat 0.25e0 * e.b1 * d
  let x := .rat 1 - yb
  let dydtp := (d / .rat 4) * (e.b1t - e.b1 * alpha)
  let dbdd := gasconI * t * ((e.b1 / .rat 4 / x) * (.rat 1 - (g2I - .rat 1) / x + (g1I + g2I + .rat 1) / x / x) + e.b2 - e.b1 * gfI + .rat 1 / d)
  let db2dd := gasconI * t * ((e.b1 * e.b1 / .rat 16 / x / x) * (.rat 1 - .rat 2 * (g2I - .rat 1) / x + .rat 3 * (g1I + g2I + .rat 1) / x / x) - .rat 1 / d / d)
  let db2ddt := gasconI * t * ((e.b1t / .rat 4 / x / x) * (.rat 1 - (g2I - .rat 1) * (.rat 1 + yb) / x + (g1I + g2I + .rat 1) * (.rat 1 + .rat 2 * yb) / x / x) + e.b2t - gfI * e.b1t) +
    dbdd / t
  let db2dtp := dbdd / t + gasconI * t * ((e.b1 * dydtp / .rat 4 / x / x / x) * (.rat 1 - g2I + .rat 2 * (g1I + g2I + .rat 1) / x) +
    ((x * e.b1t + e.b1 * dydtp) / .rat 4 / x / x) * (.rat 1 - (g2I - .rat 1) / x + (g1I + g2I + .rat 1) / x / x) + e.b2t - gfI * e.b1t + alpha / d)
  let db3ddt := db2dd / t + gasconI * t * ((e.b1 * e.b1 * dydtp / .rat 8 / x / x / x / x) * (.rat 1 - g2I + .rat 3 * (g1I + g2I + .rat 1) / x) +
    (e.b1 * (x * e.b1t + e.b1 * dydtp) / .rat 8 / x / x / x) * (.rat 1 - .rat 2 * (g2I - .rat 1) / x + .rat 3 * (g1I + g2I + .rat 1) / x / x) - .rat 2 * alpha / d / d)
  let db3dtt := (db2ddt - dbdd / t) / t + gasconI * t * ((e.b1t * dydtp / .rat 2 / x / x / x / x) * (.rat 1 - g2I + (g1I + g2I + .rat 1) * (.rat 2 + yb) / x) +
    ((x * e.b1tt + .rat 2 * e.b1t * dydtp) / .rat 4 / x / x / x) * (.rat 1 - (g2I - .rat 1) * (.rat 1 + yb) / x + (g1I + g2I + .rat 1) * (.rat 1 + .rat 2 * yb) / x / x) + e.b2tt -
    gfI * e.b1tt) + (t * db2dtp - dbdd) / t / t
  ⟨dbdd, db2dd, db2ddt, db2dtp, db3ddt, db3dtt⟩

set_option maxHeartbeats 1000000 in
lemma dalBase_enc {e : Ell} {eI : EllI} (he : EllI.Enc e eI) (ht : Enc t tI) (hd : Enc d dI) {al : ℝ} {aI : Iv} (ha : Enc al aI) :
    DalI.Enc (dalBase e t d al) (dalBaseI eI tI dI aI) := by
  obtain ⟨h1, h2, h3, h4, h5, h6⟩ := he
  have z1 := gascon_enc
  have z2 := g1_enc
  have z3 := g2_enc
  have z4 := gf_enc
  unfold dalBase dalBaseI
  constructor <;> dsimp only <;> enc

def dalStepI (e1 t d alpha : Iv) (s : DalI) (i : ℕ) : DalI :=
  let e2 := .rat 1 - e1
  let tzt := tzI / t
  let k := eli ii i + 1
  let l := eli jj i - 1
  let km := k - 1
  let lp := l + 1
  let xtzt := tzt ^ l
  { dd := s.dd + elI g i * xtzt * e2 ^ km * e1
    d2d := s.d2d + elI g i * e1 * xtzt * e2 ^ km * (.int km * e1 / e2 - .rat 1)
    d2dt := s.d2dt - elI g i * e1 * .int l * e2 ^ km * tzt ^ lp / tzI
    d2tp := s.d2tp + elI g i * e1 * e2 ^ km * xtzt * (d * alpha - .int l / t - .int km * e1 * d * alpha / e2)
    d3dt := s.d3dt + elI g i * (.int km * d * alpha * e1 * e1 * xtzt * e2 ^ (k - 3) +
      e1 * xtzt * e2 ^ km * (.int km * e1 / e2 - .rat 1) * (d * alpha - .int l / t - .int km * d * alpha * e1 / e2))
    d3tt := s.d3tt + elI g i * .int l * e1 * e2 ^ km * tzt ^ lp / tzI * (.int lp / t + d * alpha * .int km * e1 / e2 - d * alpha) }

lemma dalStep_enc (ht : Enc t tI) (hd : Enc d dI) {al : ℝ} {aI : Iv} (ha : Enc al aI) {eI : Iv} (he : Enc (Real.exp (-aa * d)) eI) (i : ℕ)
    (s : Dal) (u : DalI) (h : DalI.Enc s u) : DalI.Enc (dalStep t d al s i) (dalStepI eI tI dI aI u i) := by
  obtain ⟨h1, h2, h3, h4, h5, h6⟩ := h
  have z1 := tz_enc
  have z4 := elI_enc g i
  unfold dalStep dalStepI
  constructor <;> dsimp only <;> enc

def dalExtraI (t d alpha : Iv) (s : DalI) (j : ℕ) : DalI :=
  let k := eli ii (j + 36)
  let l := eli jj (j + 36)
  let km := k - 1
  let lm := l - 1
  let ai := elI aad j
  let bi := elI aat j
  let di := elI adz j
  let ti := elI atz j
  let tau := t / ti - .rat 1
  let del := delI d di
  let dex := cutI (-ai * del ^ k)
  let tex := cutI (-bi * tau * tau)
  let ex12 := dex * tex
  let qm := .int l / del - .int k * ai * del ^ km
  let xdell := del ^ l
  let xdelk := del ^ k
  let term1 := .int l * d * alpha / di / del / del + ai * .int k * .int km * d * alpha * del ^ (k - 2) / di
  let term2 := .rat 2 * qm * term1 - .rat 2 * .int l * d * alpha / di / del / del / del + ai * .int k * .int km * (.int k - .rat 2) * del ^ (k - 3) * d * alpha / di
  let term3 := qm * qm - .int l / del / del - ai * .int k * .int km * del ^ (k - 2)
  let term4 := ai * .int k * del ^ (k - 1) * d * alpha / di - .rat 2 * bi * tau / ti
  let term5 := ex12 * xdell * term4 - ex12 * .int l * del ^ (l - 1) * d * alpha / di
  { dd := s.dd + elI g (j + 36) * xdell * ex12 / di * qm
    d2d := s.d2d + elI g (j + 36) * xdell * ex12 / di / di * (qm * qm - .int l / di / di - ai * .int k * .int km * del ^ (k - 2))
    d2dt := s.d2dt - elI g (j + 36) * .rat 2 * bi * tau * ex12 * xdell / ti / di * qm
    d2tp := s.d2tp + elI g (j + 36) / di * (d * alpha * xdell * ex12 / di / del / del * (.int l + ai * .int k * .int km * xdelk) +
      qm * (ex12 * (xdell * (.int k * ai * d * alpha * del ^ km / di - .rat 2 * bi * tau / ti) - .int l * d * alpha * del ^ lm / di)))
    d3dt := s.d3dt + elI g (j + 36) / di / di * (xdell * ex12 * term2 + term3 * term5)
    d3tt := s.d3tt - .rat 2 * elI g (j + 36) * bi / ti / di * (tau * xdell * ex12 * d * alpha / del / del / di * (.int l + ai * .int k * .int km * del ^ k) +
      qm * (xdell * ex12 * (ai * .int k * d * alpha * tau * del ^ km / di + (.rat 1 - .rat 2 * bi * tau * tau) / ti - tau * .int l * d * alpha / di / del))) }

set_option maxHeartbeats 1000000 in
lemma dalExtra_enc (ht : Enc t tI) (hd : Enc d dI) {al : ℝ} {aI : Iv} (ha : Enc al aI) (j : ℕ)
    (s : Dal) (u : DalI) (h : DalI.Enc s u) : DalI.Enc (dalExtra t d al s j) (dalExtraI tI dI aI u j) := by
  obtain ⟨h1, h2, h3, h4, h5, h6⟩ := h
  have z1 := elI_enc adz j
  have z2 := elI_enc aad j
  have z3 := elI_enc aat j
  have z4 := elI_enc atz j
  have z5 := elI_enc g (j + 36)
  have z6 := del_enc hd z1
  have c1 : Enc (-el aad j * delOf d (el adz j) ^ eli ii (j + 36)) (-elI aad j * delI dI (elI adz j) ^ eli ii (j + 36)) := by enc
  have c2 : Enc (-el aat j * (t / el atz j - 1) * (t / el atz j - 1)) (-elI aat j * (tI / elI atz j - .rat 1) * (tI / elI atz j - .rat 1)) := by enc
  have c3 := cutLt_enc c1
  have c4 := cutLe_enc c2
  unfold dalExtra dalExtraI
  constructor <;> dsimp only <;> enc

def dalResidI (t d alpha : Iv) : DalI :=
  (List.range 4).foldl (dalExtraI t d alpha) ((List.range 36).foldl (dalStepI (.exp (-aaI * d)) t d alpha) ⟨.rat 0, .rat 0, .rat 0, .rat 0, .rat 0, .rat 0⟩)

lemma dalResid_enc (ht : Enc t tI) (hd : Enc d dI) {al : ℝ} {aI : Iv} (ha : Enc al aI) : DalI.Enc (dalResid t d al) (dalResidI tI dI aI) := by
  have z2 := aa_enc
  have he : Enc (Real.exp (-aa * d)) (.exp (-aaI * dI)) := by enc
  exact foldl_enc DalI.Enc _ _ _ (dalExtra_enc ht hd ha) (foldl_enc DalI.Enc _ _ _ (dalStep_enc ht hd ha he) (by constructor <;> exact Enc.lit 0 (by norm_num)))

/-- The expansivity. -/
def alphaI (t d : Iv) : Iv := d * (dpdtI t d / dpddI t d / d / d)

lemma alpha_enc (ht : Enc t tI) (hd : Enc d dI) : Enc (d * (thmHGK (evalAt t d) t d).dvdt) (alphaI tI dI) := by
  have h1 := dpdd_enc ht hd
  have h2 := dpdt_enc ht hd
  have e : (thmHGK (evalAt t d) t d).dvdt = (thmHGK (evalAt t d) t d).dpdt / (thmHGK (evalAt t d) t d).dpdd / d / d := rfl
  rw [e]; unfold alphaI; enc

/-- What `dalHGK` returns. -/
def dalI (t d alpha : Iv) : Iv :=
  let b := dalBaseI (bbI t) t d alpha
  let r := dalResidI t d alpha
  ((b.d3tt + r.d3tt) * (.rat 2 * (b.dd + r.dd) + d * (b.d2d + r.d2d)) - (b.d2dt + r.d2dt) * (.rat 2 * (b.d2tp + r.d2tp) +
    d * (b.d3dt + r.d3dt) - d * alpha * (b.d2d + r.d2d))) / (.rat 2 * (b.dd + r.dd) + d * (b.d2d + r.d2d)) /
    (.rat 2 * (b.dd + r.dd) + d * (b.d2d + r.d2d))

/-- The derivative of the expansivity. -/
def dalTrueI (t d alpha : Iv) : Iv :=
  let b := dalBaseI (bbI t) t d alpha
  let r := dalResidI t d alpha
  let n := dpddI t d / d
  ((b.d3tt + r.d3tt) * n - (b.d2dt + r.d2dt) * (.rat 2 * (b.d2tp + r.d2tp) + d * (b.d3dt + r.d3dt) - alpha * (n - .rat 2 * (b.dd + r.dd)))) / n ^ 2

lemma dal_enc (ht : Enc t tI) (hd : Enc d dI) {al : ℝ} {aI : Iv} (ha : Enc al aI) : Enc (dalHGK t d al) (dalI tI dI aI) := by
  obtain ⟨b1, b2, b3, b4, b5, b6⟩ := dalBase_enc (bb_enc ht) ht hd ha
  obtain ⟨r1, r2, r3, r4, r5, r6⟩ := dalResid_enc ht hd ha
  unfold dalHGK dalI
  dsimp only
  enc

lemma dalTrue_enc (ht : Enc t tI) (hd : Enc d dI) {al : ℝ} {aI : Iv} (ha : Enc al aI) {n : ℝ} (hn : n = (thmHGK (evalAt t d) t d).dpdd / d) :
    Enc (let b := dalBase (bb t) t d al
      let r := dalResid t d al
      ((b.d3tt + r.d3tt) * n - (b.d2dt + r.d2dt) * (2 * (b.d2tp + r.d2tp) + d * (b.d3dt + r.d3dt) - al * (n - 2 * (b.dd + r.dd)))) / n ^ 2)
      (dalTrueI tI dI aI) := by
  obtain ⟨b1, b2, b3, b4, b5, b6⟩ := dalBase_enc (bb_enc ht) ht hd ha
  obtain ⟨r1, r2, r3, r4, r5, r6⟩ := dalResid_enc ht hd ha
  have hn' := dpdd_enc ht hd
  have hq : Enc n (dpddI tI dI / dI) := by rw [hn]; enc
  unfold dalTrueI
  dsimp only
  enc

/-! ### States at which the equation of state is smooth -/

/-- Different from EXPTOL. -/
def offI (x : Iv) : Bool := (x.ok && decide (x.hi < -6735000000000000000000000000000000000000000000000000000000000000000000000000000000000000000000000000000000000000000000000000000000000)) || (x.ok && decide (-6735000000000000000000000000000000000000000000000000000000000000000000000000000000000000000000000000000000000000000000000000000000000 < x.lo))

lemma off_ne {x : ℝ} {a : Iv} (h : Enc x a) (h1 : offI a = true) : x ≠ EXPTOL := by
  rcases Bool.or_eq_true _ _ |>.mp h1 with h2 | h2
  · exact (cut_lt h h2).ne
  · exact (cut_gt h h2).ne'

def okI (t d : Iv) : Bool :=
  (t.ok && decide (0 < t.lo)) && (d.ok && decide (0 < d.lo)) && ((bbI t).b1.ok && decide (0 < (bbI t).b1.lo)) &&
    ((.rat 0.25 * ((bbI t).b1 * d) : Iv).ok && decide ((.rat 0.25 * ((bbI t).b1 * d) : Iv).hi < 10000000000000000000000000000000000000000000000000000000000000000000000000000000000000000000000000000000000000000000000000000000000)) &&
    (List.range 4).all fun j => (delI d (elI adz j)).ok && offI (-elI aad j * (d / elI adz j - .rat 1) ^ eli ii (j + 36)) &&
      offI (-elI aat j * (t / elI atz j - .rat 1) * (t / elI atz j - .rat 1))

lemma pos_of {x : ℝ} {a : Iv} (h : Enc x a) (h1 : (a.ok && decide (0 < a.lo)) = true) : 0 < x := by
  rw [Bool.and_eq_true, decide_eq_true_eq] at h1
  have h2 := (h h1.1).1
  have h3 : (0 : ℝ) < a.lo := by exact_mod_cast h1.2
  exact lt_of_mul_lt_mul_right (by rw [zero_mul]; linarith) scl_pos.le

lemma ok_of (ht : Enc t tI) (hd : Enc d dI) (h : okI tI dI = true) : Ok t d := by
  unfold okI at h
  simp only [Bool.and_eq_true (_ && _ && _ && _), Bool.and_eq_true (_ && _ && _), Bool.and_eq_true (_ && _) (_ && _)] at h
  obtain ⟨⟨⟨⟨h1, h2⟩, h3⟩, h4⟩, h5⟩ := h
  have hb := (bb_enc ht).b1
  have hy : Enc (0.25 * ((bb t).b1 * d)) (.rat 0.25 * ((bbI tI).b1 * dI)) := by enc
  rw [List.all_eq_true] at h5
  refine ⟨pos_of ht h1, pos_of hd h2, (pos_of hb h3).ne', ?_, ?_⟩
  · rw [Bool.and_eq_true, decide_eq_true_eq] at h4
    have h6 := (hy h4.1).2
    have h7 : ((.rat 0.25 * ((bbI tI).b1 * dI) : Iv).hi : ℝ) < 10000000000000000000000000000000000000000000000000000000000000000000000000000000000000000000000000000000000000000000000000000000000 := by exact_mod_cast h4.2
    have e : (1 : ℝ) * (scl : ℝ) = 10000000000000000000000000000000000000000000000000000000000000000000000000000000000000000000000000000000000000000000000000000000000 := by unfold scl; norm_num
    exact lt_of_mul_lt_mul_right (by linarith) scl_pos.le
  · constructor
    · intro j hj
      have := h5 j (List.mem_range.2 hj)
      simp only [Bool.and_eq_true] at this
      exact del_gt hd (elI_enc adz j) this.1.1
    · intro j hj
      have := h5 j (List.mem_range.2 hj)
      simp only [Bool.and_eq_true] at this
      have z1 := elI_enc adz j
      have z2 := elI_enc aad j
      exact off_ne (by enc) this.1.2
    · intro j hj
      have := h5 j (List.mem_range.2 hj)
      simp only [Bool.and_eq_true] at this
      have z3 := elI_enc aat j
      have z4 := elI_enc atz j
      exact off_ne (by enc) this.2

end Gems

end ThermoFun
