import Verif.Lemmas.WagnerPrussVal
import Verif.Props.WaterCarry

/-! The density search at 298.15 K and 1 bar in intervals. -/

namespace ThermoFun

lemma Enc.widen {x : ℝ} {a : Iv} (h : Enc x a) (l u : ℤ) (hw : (a.ok && decide (l ≤ a.lo) && decide (a.hi ≤ u)) = true) : Enc x ⟨l, u, true⟩ := by
  simp only [Bool.and_eq_true, decide_eq_true_eq] at hw
  intro _
  obtain ⟨h1, h2⟩ := h hw.1.1
  have a1 : (l : ℝ) ≤ a.lo := by exact_mod_cast hw.1.2
  have a2 : (a.hi : ℝ) ≤ u := by exact_mod_cast hw.2
  exact ⟨a1.trans h1, h2.trans a2⟩

namespace WP

/-- The liquid density curve at 298.15 K. -/
def thetaI0 : Iv := .rat (1 - 298.15 / 647.096)

def dliqI : Iv :=
  let l := Iv.log thetaI0
  .rat 322 * (.rat 1 + .rat 1.99274064 * .exp (l * .rat (1 / 3)) + .rat 1.09965342 * .exp (l * .rat (2 / 3)) - .rat 0.510839303 * .exp (l * .rat (5 / 3)) -
    .rat 1.75493479 * .exp (l * .rat (16 / 3)) - .rat 45.5170352 * .exp (l * .rat (43 / 3)) - .rat 6.74694450e5 * .exp (l * .rat (110 / 3)))

/-- The values at 298.15 K the search reads: pressure, its first and second derivative by density, from the reduced function. -/
structure PI where
  p : Iv
  pD : Iv
  pDD : Iv
  deriving DecidableEq

def pressureI (D : Iv) : PI :=
  let h := phiI liqT (D / .rat 322)
  let r := .rat (461.51805 * 298.15)
  let u := Iv.rat 1 / .rat 322
  let fD := r * (h.fD * u)
  let fDD := r * (h.fDD * u * u)
  let fDDD := r * (h.fDDD * u * u * u)
  { p := D ^ 2 * fD, pD := .rat 2 * D * fD + D ^ 2 * fDD, pDD := .rat 2 * fD + .rat 4 * D * fDD + D ^ 2 * fDDD }

/-- One step: density, and the pressure derivative it carries. -/
def stepI (D b : Iv) : Iv × Iv :=
  let q := pressureI D
  let e := q.p - .rat 100000
  (D - e / q.pD, .rat 1 / q.pD + e * q.pDD * b / q.pD ^ 2)

lemma dliq_enc : Enc (dliq95 298.15) dliqI := by
  have ht : Enc (theta95 298.15) thetaI0 := Enc.lit _ (by norm_num [theta95])
  have h0 : 0 < theta95 298.15 := theta95_pos (by norm_num)
  have hp : ∀ q : ℚ, Enc (theta95 298.15 ^ (q : ℝ)) (.exp (.log thetaI0 * .rat q)) := fun q => Enc.rpow h0 ht.log (Enc.rat q)
  have h1 := hp (1 / 3)
  have h2 := hp (2 / 3)
  have h3 := hp (5 / 3)
  have h4 := hp (16 / 3)
  have h5 := hp (43 / 3)
  have h6 := hp (110 / 3)
  push_cast at h1 h2 h3 h4 h5 h6
  unfold dliq95 dliqI
  enc

structure PI.Enc (D : ℝ) (q : PI) : Prop where
  p : ThermoFun.Enc (pOf helmholtz 298.15 D) q.p
  pD : ThermoFun.Enc (pDOf helmholtz 298.15 D) q.pD
  pDD : ThermoFun.Enc (2 * (helmholtz 298.15 D).fD + 4 * D * (helmholtz 298.15 D).fDD + D ^ 2 * (helmholtz 298.15 D).fDDD) q.pDD

lemma pressureI_enc {D : ℝ} {d : Iv} (h : Enc D d) (hD : 322 < D) : PI.Enc D (pressureI d) := by
  have hd : Enc (D / 322) (d / .rat 322) := h.div (Enc.lit _ (by norm_num))
  obtain ⟨k1, k2, k3, k4, k5, k6, k7, k8⟩ := phiI_enc (tau := 647.096 / 298.15) (by norm_num) (by linarith)
    (by rw [Ne, div_eq_one_iff_eq (by norm_num)]; exact hD.ne') liqT_enc hd
  have hR : Enc ((461.51805 : ℝ) * 298.15) (.rat (461.51805 * 298.15)) := Enc.lit _ (by norm_num)
  have e1 : (helmholtz 298.15 D).fD = 461.51805 * 298.15 * ((add (ideal coef (647.096 / 298.15) (D / 322)) (residual coef (647.096 / 298.15) (D / 322))).fD * (1 / 322)) := rfl
  have e2 : (helmholtz 298.15 D).fDD = 461.51805 * 298.15 * ((add (ideal coef (647.096 / 298.15) (D / 322)) (residual coef (647.096 / 298.15) (D / 322))).fDD * (1 / 322) * (1 / 322)) := rfl
  have e3 : (helmholtz 298.15 D).fDDD = 461.51805 * 298.15 * ((add (ideal coef (647.096 / 298.15) (D / 322)) (residual coef (647.096 / 298.15) (D / 322))).fDDD * (1 / 322) * (1 / 322) * (1 / 322)) := rfl
  have u : Enc ((1 : ℝ) / 322) (.rat 1 / .rat 322) := (Enc.lit 1 (by norm_num)).div (Enc.lit 322 (by norm_num))
  have h1 := hR.mul (k3.mul u)
  have h2 := hR.mul ((k6.mul u).mul u)
  have h3 := hR.mul (((k8.mul u).mul u).mul u)
  rw [← e1] at h1
  rw [← e2] at h2
  rw [← e3] at h3
  unfold pressureI
  constructor
  · unfold pOf; enc
  · unfold pDOf; enc
  · enc

/-! The iterates. -/

def d0 : Iv := ⟨9969993679302053534436525604386752245438134989878434672403315251384199352688353053500112826813471269791549554403400000000000000000000, 9969993679302053534436525604386752245438134989878434672403315251384199352688353053500112826813471269791549554403500000000000000000000, true⟩
def d1 : Iv := ⟨9970470443543298083272053758317850290187929399992533101937972775999389654417821650676281249507086800000000000000000000000000000000000, 9970470443543298083272053758317850290187929399992533101937972775999389654417821650676281249507086900000000000000000000000000000000000, true⟩
def d2 : Iv := ⟨9970470390177048140501156192263425969825924802076189816037314536679140498633330769258401000000000000000000000000000000000000000000000, 9970470390177048140501156192263425969825924802076189816037314536679140498633330769258402000000000000000000000000000000000000000000000, true⟩
def d3 : Iv := ⟨9970470390177047471748761214845916722490686892660816902268894825046780600334530000000000000000000000000000000000000000000000000000000, 9970470390177047471748761214845916722490686892660816902268894825046780600334540000000000000000000000000000000000000000000000000000000, true⟩
def b1 : Iv := ⟨4512281610907323694256907722263599171825494224355044711021260221133141845139445068545506300000000000000000000000000000000000, 4512281610907323694256907722263599171825494224355044711021260221133141845139445068545506400000000000000000000000000000000000, true⟩
def b2 : Iv := ⟨4511271524005690833027481284344149676129754912623745192527368480882626452409972654329006600000000000000000000000000000000000, 4511271524005690833027481284344149676129754912623745192527368480882626452409972654329006700000000000000000000000000000000000, true⟩
def b3 : Iv := ⟨4511271523980375109793445686668861699503966386577218228455338993652911442263834636036355600000000000000000000000000000000000, 4511271523980375109793445686668861699503966386577218228455338993652911442263834636055521900000000000000000000000000000000000, true⟩

/-- Is the result of a step within the next interval? -/
def within (a b : Iv) : Bool := a.ok && decide (b.lo ≤ a.lo) && decide (a.hi ≤ b.hi) && b.ok

lemma Enc.within {x : ℝ} {a b : Iv} (h : Enc x a) (hw : within a b = true) : Enc x b := by
  unfold WP.within at hw
  rw [Bool.and_eq_true] at hw
  obtain ⟨h1, h2⟩ := hw
  have := h.widen b.lo b.hi h1
  intro _
  exact this rfl

lemma d0_ok : within dliqI d0 = true := by decide +kernel

/-- A step, checked: the next intervals, the residual against its bounds, the slope away from 0, and the Newton branch. -/
def stepOk (d b d' b' : Iv) (lo hi : ℚ) : Bool :=
  let q := pressureI d
  let e := q.p - .rat 100000
  within (d - e / q.pD) d' && within (.rat 1 / q.pD + e * q.pDD * b / q.pD ^ 2) b' && decide ((Iv.rat lo).hi < e.lo) && decide (e.hi < (Iv.rat hi).lo) && e.ok &&
    decide (0 < q.pD.lo) && q.pD.ok && decide (0 < q.p.lo * q.p.hi) && q.p.ok && decide (0 < (d - e / q.pD).lo)

lemma step1_ok : stepOk d0 (.rat 0) d1 b1 (-105660) (-105659) = true := by decide +kernel
lemma step2_ok : stepOk d1 b1 d2 b2 11.8 11.9 = true := by decide +kernel
lemma step3_ok : stepOk d2 b2 d3 b3 1.4e-7 1.5e-7 = true := by decide +kernel

lemma d_gt : ((d0.ok && decide ((Iv.rat 322).hi < d0.lo)) && (d1.ok && decide ((Iv.rat 322).hi < d1.lo)) && (d2.ok && decide ((Iv.rat 322).hi < d2.lo)) &&
    (d3.ok && decide ((Iv.rat 322).hi < d3.lo))) = true := by decide +kernel

/-- What a checked step means. -/
lemma step_enc {D : TS} {d b d' b' : Iv} {lo hi : ℚ} (h : stepOk d b d' b' lo hi = true) (hd : Enc D.val d) (hb : Enc D.ddp b) (hD : 322 < D.val) :
    SmoothStep helmholtz 298.15 100000 D.val ∧ ((lo : ℝ) < pOf helmholtz 298.15 D.val - 100000 ∧ pOf helmholtz 298.15 D.val - 100000 < (hi : ℝ)) ∧
    Enc (newtonStep (TS.pressure 100000) (searchModel 298.15) D).val d' ∧ Enc (newtonStep (TS.pressure 100000) (searchModel 298.15) D).ddp b' := by
  obtain ⟨e1, e2, e3⟩ := pressureI_enc hd hD
  unfold stepOk at h
  simp only [Bool.and_eq_true, decide_eq_true_eq] at h
  obtain ⟨⟨⟨⟨⟨⟨⟨⟨⟨h1, h2⟩, h3⟩, h4⟩, h5⟩, h6⟩, h7⟩, h8⟩, h9⟩, h10⟩ := h
  have he : Enc (pOf helmholtz 298.15 D.val - 100000) ((pressureI d).p - .rat 100000) := e1.sub (Enc.lit _ (by norm_num))
  have hs := scl_pos
  have q0 : 0 < pDOf helmholtz 298.15 D.val := by
    have := (e2 h7).1
    have k : (0 : ℝ) < ((pressureI d).pD.lo : ℝ) := by exact_mod_cast h6
    exact pos_of_mul_pos_left (lt_of_lt_of_le k this) hs.le
  have p0 : pOf helmholtz 298.15 D.val ≠ 0 := by
    intro hz
    obtain ⟨u, v⟩ := e1 h9
    rw [hz, zero_mul] at u v
    have k : (0 : ℝ) < ((pressureI d).p.lo : ℝ) * ((pressureI d).p.hi : ℝ) := by exact_mod_cast h8
    nlinarith
  have hstep := hd.sub (he.div e2)
  have pos : 0 < D.val - (pOf helmholtz 298.15 D.val - 100000) / pDOf helmholtz 298.15 D.val := by
    have hok : (d - ((pressureI d).p - .rat 100000) / (pressureI d).pD).ok = true := by
      unfold within at h1
      simp only [Bool.and_eq_true] at h1
      exact h1.1.1.1
    have := (hstep hok).1
    have k : (0 : ℝ) < ((d - ((pressureI d).p - .rat 100000) / (pressureI d).pD).lo : ℝ) := by exact_mod_cast h10
    exact pos_of_mul_pos_left (lt_of_lt_of_le k this) hs.le
  have branch : D.val > (pOf helmholtz 298.15 D.val - 100000) / pDOf helmholtz 298.15 D.val := by linarith
  refine ⟨⟨(C93_partial 298.15 D.val (by norm_num) (by linarith) (by linarith)).1, q0.ne', ?_, branch.ne'⟩, ⟨?_, ?_⟩, ?_, ?_⟩
  · intro hz
    apply p0
    rw [pOf, pow_two, mul_assoc, hz, mul_zero]
  · exact he.rat_lt lo (by rw [h5, decide_eq_true h3]; rfl)
  · exact he.lt_rat hi (by rw [h5, decide_eq_true h4]; rfl)
  · rw [newton_val searchModel_follows, if_pos branch]
    exact Enc.within hstep h1
  · rw [(newton_carried searchModel_follows 298.15 100000 D q0.ne' branch).2]
    have one : Enc (1 : ℝ) (.rat 1) := Enc.lit _ (by norm_num)
    exact Enc.within ((one.div e2).add (((he.mul e3).mul hb).div (e2.pow 2))) h2

/-- The iterates of the search at 298.15 K and 1 bar. -/
noncomputable def it (k : ℕ) : TS := iterate (TS.pressure 100000) (searchModel 298.15) (start 0 298.15 100000) k

lemma start_val : (start 0 298.15 100000).val = dliq95 298.15 := by
  rw [← satLiquid_val (by norm_num)]
  have : (TS.temperature 298.15).val ≤ critT := by rw [critT]; show (298.15 : ℝ) ≤ _; norm_num
  simp [start, startDensity, phase, show (298.15 : ℝ) ≤ critT by rw [critT]; norm_num]

lemma start_off : OffCurve 0 298.15 100000 := Or.inr ⟨by norm_num, by norm_num, Or.inl rfl⟩

lemma start_ddp : (start 0 298.15 100000).ddp = 0 := by
  have h : TrueTS (start 0) 298.15 100000 := start_true start_off
  have hle : (298.15 : ℝ) ≤ critT := by rw [critT]; norm_num
  have e : ∀ p, (start 0 298.15 p).val = dliq95 298.15 := fun p => by
    rw [← satLiquid_val (by norm_num)]
    simp [start, startDensity, phase, hle]
  exact h.dy.unique ((hasDerivAt_const (100000 : ℝ) (dliq95 298.15)).congr_of_eventuallyEq (Filter.Eventually.of_forall e))

/-- The search at 298.15 K and 1 bar: the residuals 105.7 kPa, 12 Pa and 0.14 µPa, and where the iterates and the carried pressure derivatives are. -/
lemma search_298 :
    (SmoothStep helmholtz 298.15 100000 (it 0).val ∧ SmoothStep helmholtz 298.15 100000 (it 1).val ∧ SmoothStep helmholtz 298.15 100000 (it 2).val) ∧
    (pOf helmholtz 298.15 (it 0).val - 100000 < -105659 ∧ 11.8 < pOf helmholtz 298.15 (it 1).val - 100000 ∧
      1.4e-7 < pOf helmholtz 298.15 (it 2).val - 100000 ∧ pOf helmholtz 298.15 (it 2).val - 100000 < 1.5e-7) ∧
    Enc (it 3).val d3 ∧ Enc (it 3).ddp b3 := by
  have g := d_gt
  simp only [Bool.and_eq_true] at g
  obtain ⟨⟨⟨g0, g1⟩, g2⟩, g3⟩ := g
  have gt : ∀ {x : ℝ} {d : Iv}, Enc x d → (d.ok = true ∧ decide ((Iv.rat 322).hi < d.lo) = true) → 322 < x := by
    intro x d h hg
    have := h.rat_lt 322 (by rw [hg.1, hg.2]; rfl)
    push_cast at this
    exact this
  have v0 : Enc (it 0).val d0 := by
    show Enc (start 0 298.15 100000).val d0
    rw [start_val]; exact Enc.within dliq_enc d0_ok
  have c0 : Enc (it 0).ddp (.rat 0) := by
    show Enc (start 0 298.15 100000).ddp _
    rw [start_ddp]; exact Enc.lit _ (by norm_num)
  obtain ⟨s0, r0, v1, c1⟩ := step_enc step1_ok v0 c0 (gt v0 g0)
  obtain ⟨s1, r1, v2, c2⟩ := step_enc (D := it 1) step2_ok v1 c1 (gt v1 g1)
  obtain ⟨s2, r2, v3, c3⟩ := step_enc (D := it 2) step3_ok v2 c2 (gt v2 g2)
  push_cast at r0 r1 r2
  refine ⟨⟨s0, s1, s2⟩, ⟨r0.2, r1.1, r2.1, r2.2⟩, v3, c3⟩

end WP

end ThermoFun
