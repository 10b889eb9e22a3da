import Verif.Props.WaterDensity
import Verif.Props.WaterSat
import Verif.Props.WagnerPruss

/-!
# What the water density carries, and what ending the search costs

C139: the derivatives carried by the density the search returns are the partial derivatives of the density returned.
C78: how far they are from the derivatives the water state reports.
C140: by how much the thermodynamic relations fail at a density that does not solve the equation of state.
-/

namespace ThermoFun

open Filter Topology

/-- Value, temperature and pressure derivative of `x` belong together at (T, P): the value is differentiable, with the carried derivatives. -/
def TrueTS (x : ℝ → ℝ → TS) (T P : ℝ) : Prop := Grad (fun t p => (x t p).val) (x T P).ddt (x T P).ddp T P

/-- `m` gives the first two density derivatives of the Helmholtz function `F`, with the derivatives the chain rule demands. -/
structure Follows (F : ℝ → ℝ → Helm) (m : ℝ → TS → HelmD) : Prop where
  d : ∀ T D, (m T D).fD.val = (F T D.val).fD
  dt : ∀ T D, (m T D).fD.ddt = (F T D.val).fTD + (F T D.val).fDD * D.ddt
  dp : ∀ T D, (m T D).fD.ddp = (F T D.val).fDD * D.ddp
  dd : ∀ T D, (m T D).fDD.val = (F T D.val).fDD
  ddt : ∀ T D, (m T D).fDD.ddt = (F T D.val).fTDD + (F T D.val).fDDD * D.ddt
  ddp : ∀ T D, (m T D).fDD.ddp = (F T D.val).fDDD * D.ddp

lemma searchModel_follows : Follows WP.helmholtz WP.searchModel := ⟨fun _ _ => rfl, fun _ _ => rfl, fun _ _ => rfl, fun _ _ => rfl, fun _ _ => rfl, fun _ _ => rfl⟩

variable {F : ℝ → ℝ → Helm} {m : ℝ → TS → HelmD} {x : ℝ → ℝ → TS} {T P : ℝ}

/-- The pressure of the equation of state. -/
noncomputable def pOf (F : ℝ → ℝ → Helm) (T D : ℝ) : ℝ := D ^ 2 * (F T D).fD

/-- Its derivative by density. -/
noncomputable def pDOf (F : ℝ → ℝ → Helm) (T D : ℝ) : ℝ := 2 * D * (F T D).fD + D ^ 2 * (F T D).fDD

/-- Where a step of the search is smooth: the Helmholtz function is, the divisors are not 0, and the test is not on the edge. -/
structure SmoothStep (F : ℝ → ℝ → Helm) (T P D : ℝ) : Prop where
  grad : HelmGrad F T D
  slope : pDOf F T D ≠ 0
  den : D * (F T D).fD ≠ 0
  edge : D ≠ (pOf F T D - P) / pDOf F T D

lemma newton_val (hm : Follows F m) (t p : ℝ) (D : TS) : (newtonStep (TS.pressure p) (m t) D).val =
    if D.val > (pOf F t D.val - p) / pDOf F t D.val then D.val - (pOf F t D.val - p) / pDOf F t D.val else p / (D.val * (F t D.val).fD) := by
  rw [newtonStep_val, hm.d, hm.dd, show (TS.pressure p).val = p from rfl, pOf, pDOf, pow_two]

lemma newton_cond (hm : Follows F m) (t p : ℝ) (D : TS) :
    ((D * D * (m t D).fD - TS.pressure p) / waterCriticalPressure).val / (((2 : ℝ) * D * (m t D).fD + D * D * (m t D).fDD) / waterCriticalPressure).val =
    (pOf F t D.val - p) / pDOf F t D.val := by
  have hc : waterCriticalPressure ≠ 0 := by norm_num [waterCriticalPressure]
  simp only [TS.op_val_divR, TS.op_val_sub, TS.op_val_mul, TS.op_val_add, TS.op_val_mulL, hm.d, hm.dd, show (TS.pressure p).val = p from rfl, pOf, pDOf, pow_two]
  rw [div_div_div_cancel_right₀ hc]

/-- What a Newton step carries, from any iterate. -/
lemma newton_carried (hm : Follows F m) (t p : ℝ) (D : TS) (h0 : pDOf F t D.val ≠ 0) (hn : D.val > (pOf F t D.val - p) / pDOf F t D.val) :
    (newtonStep (TS.pressure p) (m t) D).ddt = -(D.val ^ 2 * (F t D.val).fTD) / pDOf F t D.val +
      (pOf F t D.val - p) * ((2 * D.val * (F t D.val).fTD + D.val ^ 2 * (F t D.val).fTDD) +
        (2 * (F t D.val).fD + 4 * D.val * (F t D.val).fDD + D.val ^ 2 * (F t D.val).fDDD) * D.ddt) / pDOf F t D.val ^ 2 ∧
    (newtonStep (TS.pressure p) (m t) D).ddp = 1 / pDOf F t D.val +
      (pOf F t D.val - p) * (2 * (F t D.val).fD + 4 * D.val * (F t D.val).fDD + D.val ^ 2 * (F t D.val).fDDD) * D.ddp / pDOf F t D.val ^ 2 := by
  have hc : waterCriticalPressure ≠ 0 := by norm_num [waterCriticalPressure]
  have hcond : D.val > ((D * D * (m t D).fD - TS.pressure p) / waterCriticalPressure).val /
      (((2 : ℝ) * D * (m t D).fD + D * D * (m t D).fDD) / waterCriticalPressure).val := by rw [newton_cond hm]; exact hn
  simp only [newtonStep]
  rw [if_pos hcond]
  simp only [TS.op_ddt_sub, TS.op_ddt_div, TS.op_ddt_divR, TS.op_ddt_add, TS.op_ddt_mul, TS.op_ddt_mulL, TS.op_ddp_sub, TS.op_ddp_div, TS.op_ddp_divR, TS.op_ddp_add,
    TS.op_ddp_mul, TS.op_ddp_mulL, TS.op_val_divR, TS.op_val_sub, TS.op_val_mul, TS.op_val_add, TS.op_val_mulL, hm.d, hm.dd, hm.dt, hm.dp, hm.ddt, hm.ddp,
    show (TS.pressure p).val = p from rfl, show (TS.pressure p).ddt = 0 from rfl, show (TS.pressure p).ddp = 1 from rfl]
  have hq : 2 * D.val * (F t D.val).fD + D.val * D.val * (F t D.val).fDD = pDOf F t D.val := by rw [pDOf, pow_two]
  have hp : D.val * D.val * (F t D.val).fD = pOf F t D.val := by rw [pOf, pow_two]
  rw [hq, hp]
  generalize hv : pDOf F t D.val = q at h0 hq ⊢
  generalize pOf F t D.val = e
  constructor
  · field_simp
    rw [← hq]; ring
  · field_simp
    rw [← hq]; ring

/-- One step keeps the derivatives true. -/
lemma step_true (hm : Follows F m) (hx : TrueTS x T P) (h : SmoothStep F T P (x T P).val) :
    TrueTS (fun t p => newtonStep (TS.pressure p) (m t) (x t p)) T P := by
  have hd : Grad (fun t p => (F t (x t p).val).fD) _ _ T P := Grad.subst h.grad.fD Grad.fstG hx
  have hdd : Grad (fun t p => (F t (x t p).val).fDD) _ _ T P := Grad.subst h.grad.fDD Grad.fstG hx
  have hp : Grad (fun t p => (x t p).val * (x t p).val * (F t (x t p).val).fD - p) _ _ T P := ((Grad.mul hx hx).mul hd).sub Grad.sndG
  have hq : Grad (fun t p => 2 * (x t p).val * (F t (x t p).val).fD + (x t p).val * (x t p).val * (F t (x t p).val).fDD) _ _ T P :=
    ((Grad.const_mul 2 hx).mul hd).add ((Grad.mul hx hx).mul hdd)
  have q0 : 2 * (x T P).val * (F T (x T P).val).fD + (x T P).val * (x T P).val * (F T (x T P).val).fDD ≠ 0 := by
    have := h.slope; rwa [pDOf, pow_two] at this
  have hr := hp.div hq q0
  have ev : ∀ t p, (pOf F t (x t p).val - p) / pDOf F t (x t p).val =
      ((x t p).val * (x t p).val * (F t (x t p).val).fD - p) / (2 * (x t p).val * (F t (x t p).val).fD + (x t p).val * (x t p).val * (F t (x t p).val).fDD) := by
    intro t p; rw [pOf, pDOf, pow_two]
  have hcr := hr.continuousAt
  have hcx : ContinuousAt (fun q : ℝ × ℝ => (x q.1 q.2).val) (T, P) := Grad.continuousAt hx
  rcases lt_or_gt_of_ne h.edge with hlt | hgt
  · -- the other branch
    have hs := Grad.div Grad.sndG (Grad.mul hx hd) h.den
    have hev : ∀ᶠ q : ℝ × ℝ in 𝓝 (T, P), (x q.1 q.2).val < (pOf F q.1 (x q.1 q.2).val - q.2) / pDOf F q.1 (x q.1 q.2).val := by
      rw [ev] at hlt
      filter_upwards [hcx.eventually_lt hcr hlt] with q hq'
      rw [ev]; exact hq'
    have hn : ¬ (x T P).val > (pOf F T (x T P).val - P) / pDOf F T (x T P).val := not_lt.2 hlt.le
    refine Grad.congr_ev (g := fun t p => p / ((x t p).val * (F t (x t p).val).fD)) (hs.congr ?_ ?_) ?_
    · simp only [newtonStep]
      rw [newton_cond hm, if_neg hn]
      simp only [TS.op_ddt_div, TS.op_ddt_mul, TS.op_val_mul, hm.d, hm.dt, show (TS.pressure P).val = P from rfl, show (TS.pressure P).ddt = 0 from rfl]
      ring
    · simp only [newtonStep]
      rw [newton_cond hm, if_neg hn]
      simp only [TS.op_ddp_div, TS.op_ddp_mul, TS.op_val_mul, hm.d, hm.dp, show (TS.pressure P).val = P from rfl, show (TS.pressure P).ddp = 1 from rfl]
      ring
    · filter_upwards [hev] with q hq'
      rw [newton_val hm, if_neg (not_lt.2 hq'.le)]
  · have hs := Grad.sub hx hr
    have hev : ∀ᶠ q : ℝ × ℝ in 𝓝 (T, P), (pOf F q.1 (x q.1 q.2).val - q.2) / pDOf F q.1 (x q.1 q.2).val < (x q.1 q.2).val := by
      rw [ev] at hgt
      filter_upwards [hcr.eventually_lt hcx hgt] with q hq'
      rw [ev]; exact hq'
    obtain ⟨c1, c2⟩ := newton_carried hm T P (x T P) h.slope hgt
    have e1 : pDOf F T (x T P).val = 2 * (x T P).val * (F T (x T P).val).fD + (x T P).val * (x T P).val * (F T (x T P).val).fDD := by rw [pDOf, pow_two]
    have e2 : pOf F T (x T P).val = (x T P).val * (x T P).val * (F T (x T P).val).fD := by rw [pOf, pow_two]
    refine Grad.congr_ev (hs.congr ?_ ?_) ?_
    · rw [c1, e1, e2]
      generalize hv : 2 * (x T P).val * (F T (x T P).val).fD + (x T P).val * (x T P).val * (F T (x T P).val).fDD = q at q0
      generalize hw : (x T P).val * (x T P).val * (F T (x T P).val).fD = w
      field_simp
      rw [← hv]; ring
    · rw [c2, e1, e2]
      generalize hv : 2 * (x T P).val * (F T (x T P).val).fD + (x T P).val * (x T P).val * (F T (x T P).val).fDD = q at q0
      generalize hw : (x T P).val * (x T P).val * (F T (x T P).val).fD = w
      field_simp
      rw [← hv]; ring
    · filter_upwards [hev] with q hq'
      rw [newton_val hm, if_pos hq', ev]

/-! ### C139 -/

/-- The residual that is tested, from the equation of state. -/
noncomputable def relRes (F : ℝ → ℝ → Helm) (T P D : ℝ) : ℝ := (pOf F T D - P) / 22.064e6

lemma residual_rel (hm : Follows F m) (t p : ℝ) (D : TS) : residual (TS.pressure p) (m t) D = relRes F t p D.val := by
  rw [residual, relRes, pOf, hm.d, pow_two]; rfl

lemma iterate_true (hm : Follows F m) (hx : TrueTS x T P) (n : ℕ)
    (h : ∀ k < n, SmoothStep F T P (iterate (TS.pressure P) (m T) (x T P) k).val) :
    TrueTS (fun t p => iterate (TS.pressure p) (m t) (x t p) n) T P := by
  induction n with
  | zero => exact hx
  | succ n ih => exact step_true hm (ih fun k hk => h k (by omega)) (h n (by omega))

/-- **C139.**  For every equation of state: if the search ends after testing the iterates 0 to n, no test being on its edge and every step smooth, then the
density found nearby is a differentiable function of T and P, and the derivatives it carries are its partial derivatives. -/
theorem C139_carried (hm : Follows F m) (hx : TrueTS x T P) (n : ℕ) (hn : n < 100)
    (hfail : ∀ k < n, 1e-8 < |relRes F T P (iterate (TS.pressure P) (m T) (x T P) k).val|)
    (hpass : |relRes F T P (iterate (TS.pressure P) (m T) (x T P) n).val| < 1e-8)
    (hs : ∀ k ≤ n, SmoothStep F T P (iterate (TS.pressure P) (m T) (x T P) k).val) :
    ∃ D : ℝ → ℝ → TS, (∀ᶠ q : ℝ × ℝ in 𝓝 (T, P), waterDensity (TS.pressure q.2) (m q.1) (x q.1 q.2) = .ok (D q.1 q.2)) ∧
      Grad (fun t p => (D t p).val) (D T P).ddt (D T P).ddp T P ∧ D T P = iterate (TS.pressure P) (m T) (x T P) (n + 1) := by
  have it : ∀ k ≤ n + 1, TrueTS (fun t p => iterate (TS.pressure p) (m t) (x t p) k) T P := fun k hk =>
    iterate_true hm hx k fun j hj => hs j (by omega)
  have hres : ∀ k ≤ n, ContinuousAt (fun q : ℝ × ℝ => |relRes F q.1 q.2 (iterate (TS.pressure q.2) (m q.1) (x q.1 q.2) k).val|) (T, P) := by
    intro k hk
    have hy := it k (by omega)
    have hg := (hs k hk).grad.fD
    have h1 : Grad (fun t p => (F t (iterate (TS.pressure p) (m t) (x t p) k).val).fD) _ _ T P := Grad.subst hg Grad.fstG hy
    have h2 := ((((Grad.mul hy hy).mul h1).sub Grad.sndG).mul_const (1 / 22.064e6)).continuousAt
    refine (h2.congr (Eventually.of_forall fun q => ?_)).abs
    simp only [relRes, pOf]
    ring
  refine ⟨fun t p => iterate (TS.pressure p) (m t) (x t p) (n + 1), ?_, it (n + 1) le_rfl, rfl⟩
  have h1 : ∀ᶠ q : ℝ × ℝ in 𝓝 (T, P), ∀ k ∈ Finset.range n, 1e-8 < |relRes F q.1 q.2 (iterate (TS.pressure q.2) (m q.1) (x q.1 q.2) k).val| := by
    rw [Filter.eventually_all_finset]
    intro k hk
    have hk := Finset.mem_range.1 hk
    exact (hres k hk.le).eventually_const_lt (hfail k hk)
  have h2 := (hres n le_rfl).eventually_lt_const hpass
  filter_upwards [h1, h2] with q a1 a2
  rw [(C76_partial _ _ _ _).1]
  refine ⟨n, hn, ?_, ?_, rfl⟩
  · rw [residual_rel hm]; exact a2
  · intro k hk
    rw [residual_rel hm]
    exact not_lt.2 (a1 k (Finset.mem_range.2 hk)).le

/-! ### C78 -/

/-- **C78, how far the carried derivatives are from the reported ones.**  Whatever the equation of state and whatever the last tested iterate `D`, the density
returned after a Newton step carries the derivatives reported for `D`, plus the pressure still missing at `D` times a bounded expression; with nothing missing they
are those reported.  Missing: equality with those reported for the density returned; `C78_liquid_partial` shows by how much it fails at a real state. -/
theorem C78_distance_partial (hm : Follows F m) (D : TS) (h0 : pDOf F T D.val ≠ 0) (hn : D.val > (pOf F T D.val - P) / pDOf F T D.val) :
    let s := waterThermoState T P D.val (F T D.val)
    (newtonStep (TS.pressure P) (m T) D).ddt = s.densityT + (pOf F T D.val - P) * ((s.pressureTD + s.pressureDD * D.ddt) / s.pressureD ^ 2) ∧
    (newtonStep (TS.pressure P) (m T) D).ddp = s.densityP + (pOf F T D.val - P) * (s.pressureDD * D.ddp / s.pressureD ^ 2) := by
  obtain ⟨h1, h2⟩ := newton_carried hm T P D h0 hn
  refine ⟨h1.trans ?_, h2.trans ?_⟩
  · simp only [waterThermoState, pDOf, pow_two]; ring
  · simp only [waterThermoState, pDOf, pow_two]; ring

/-! ### C140 -/

/-- **C140, the cost of a density that is not the root.**  For every equation of state and every differentiable density D(T, P) with slopes a and b, solving the
pressure equation up to e = p(T, D) - P: the reported entropy, volume and heat capacity differ from what the reported Gibbs energy, enthalpy and entropy demand
by these amounts, and by nothing else. -/
theorem C140_defects (hT : T ≠ 0) (D : ℝ → ℝ → ℝ) (a b : ℝ) (hD : Grad D a b T P) (h0 : D T P ≠ 0) (hF : HelmGrad F T (D T P)) (hp : pDOf F T (D T P) ≠ 0) :
    let w := fun t p => waterThermoState t p (D t p) (F t (D t p))
    let e := pOf F T (D T P) - P
    Grad (fun t p => (w t p).gibbs) (-(w T P).entropy + e / D T P ^ 2 * a) ((w T P).volume + e / D T P ^ 2 * b) T P ∧
    HasDerivAt (fun t => (w t P).entropy) ((w T P).cp / T - (F T (D T P)).fTD * (a - (w T P).densityT)) T ∧
    HasDerivAt (fun t => (w t P).enthalpy) ((w T P).cp + e / D T P ^ 2 * a - T * (F T (D T P)).fTD * (a - (w T P).densityT)) T := by
  intro w e
  have hf : Grad (fun t p => (F t (D t p)).f) _ _ T P := Grad.subst hF.f Grad.fstG hD
  have hs : Grad (fun t p => (F t (D t p)).fT) _ _ T P := Grad.subst hF.fT Grad.fstG hD
  have hv := Grad.div Grad.sndG hD h0
  have hq : 2 * D T P * (F T (D T P)).fD + D T P * D T P * (F T (D T P)).fDD ≠ 0 := by rwa [pDOf, pow_two] at hp
  have hS : HasDerivAt (fun t => (w t P).entropy) (-(F T (D T P)).fTT - (F T (D T P)).fTD * a) T := hs.neg.dx.congr_deriv (by ring)
  have hcp : (w T P).cp = T * (-(F T (D T P)).fTT - (F T (D T P)).fTD * (w T P).densityT) := by
    simp only [w, waterThermoState]
    field_simp
    ring
  have hG : Grad (fun t p => (w t p).gibbs) (-(w T P).entropy + e / D T P ^ 2 * a) ((w T P).volume + e / D T P ^ 2 * b) T P := by
    refine ((hf.add hv).congr ?_ ?_).congr_fun fun t p => ?_
    · simp only [w, e, waterThermoState, pOf]; field_simp; ring
    · simp only [w, e, waterThermoState, pOf]; field_simp; ring
    · simp only [w, waterThermoState]; ring
  have hS' : HasDerivAt (fun t => (w t P).entropy) ((w T P).cp / T - (F T (D T P)).fTD * (a - (w T P).densityT)) T :=
    hS.congr_deriv (by rw [hcp]; field_simp; ring)
  refine ⟨hG, hS', ?_⟩
  refine ((hG.dx.add ((hasDerivAt_id' T).mul hS)).congr_deriv ?_).congr_of_eventuallyEq (Eventually.of_forall fun t => ?_)
  · rw [hcp]; ring
  · simp only [w, waterThermoState, Pi.add_apply, Pi.mul_apply]; ring

/-! ### The Wagner-Pruss equation, with the start of the program -/

namespace WP

/-- The density the search starts from, as a function of T and P. -/
noncomputable def start (requested : ℤ) (T P : ℝ) : TS := startDensity (TS.temperature T) (TS.pressure P) requested

/-- States away from the saturation curve and the critical temperature: what the search starts from depends smoothly on T and P. -/
def OffCurve (requested : ℤ) (T P : ℝ) : Prop := 647.096 < T ∨ (0 < T ∧ T < 647.096 ∧ (requested = 0 ∨ requested = 1 ∨ requested < 0 ∧ P ≠ psat95 T))

lemma true_of_carries {g : ℝ → TS} (h : Carries (fun t _ => g t) T P) : TrueTS (fun t _ => g t) T P := by
  have h0 : (g T).ddp = 0 := h.ddp.unique (hasDerivAt_const P (g T).val)
  have := Grad.left (y := P) h.ddt
  exact this.congr rfl h0

lemma trueTS_congr {x y : ℝ → ℝ → TS} (h : TrueTS x T P) (e : ∀ᶠ q : ℝ × ℝ in 𝓝 (T, P), y q.1 q.2 = x q.1 q.2) : TrueTS y T P := by
  have e0 := e.self_of_nhds
  refine Grad.congr_ev (Grad.congr h ?_ ?_) (e.mono fun q hq => by rw [hq])
  · exact congrArg TS.ddt e0
  · exact congrArg TS.ddp e0

lemma start_true {requested : ℤ} (h : OffCurve requested T P) : TrueTS (start requested) T P := by
  have cT : Tendsto (fun q : ℝ × ℝ => q.1) (𝓝 (T, P)) (𝓝 T) := continuous_fst.continuousAt
  have cP : Tendsto (fun q : ℝ × ℝ => q.2) (𝓝 (T, P)) (𝓝 P) := continuous_snd.continuousAt
  have vT : ∀ t, (TS.temperature t).val = t := fun _ => rfl
  have vP : ∀ t, (TS.pressure t).val = t := fun _ => rfl
  rcases h with h | ⟨h0, h1, h⟩
  · refine trueTS_congr (x := fun _ _ => TS.assign TS.default (critD * 0.99)) ?_ ?_
    · exact Grad.const _
    · filter_upwards [cT.eventually_const_lt h] with q hq
      have : ¬ (TS.temperature q.1).val ≤ critT := by rw [vT, critT]; exact not_le.2 hq
      simp only [start, startDensity, phase, if_neg this, this, and_false, if_false]
      rfl
  · have hl : TrueTS (fun t _ => satLiquid (TS.temperature t)) T P := true_of_carries (satLiquid_carries h1)
    have hv : TrueTS (fun t _ => satVapour (TS.temperature t)) T P := true_of_carries (satVapour_carries h0 h1)
    have le : ∀ᶠ q : ℝ × ℝ in 𝓝 (T, P), q.1 ≤ critT := by
      filter_upwards [cT.eventually_lt_const h1] with q hq
      rw [critT]; exact hq.le
    rcases h with rfl | rfl | ⟨hr, hP⟩
    · refine trueTS_congr hl (le.mono fun q hq => ?_)
      simp [start, startDensity, phase, hq]
    · refine trueTS_congr hv (le.mono fun q hq => ?_)
      simp [start, startDensity, phase, hq]
    · have hc : ContinuousAt (fun q : ℝ × ℝ => (satPressure (TS.temperature q.1)).val) (T, P) :=
        Grad.continuousAt (true_of_carries (P := P) (satPressure_carries h0 h1))
      have hP' : P ≠ (satPressure (TS.temperature T)).val := by rw [satPressure_val h1.le]; exact hP
      have hr' : ¬ (0 ≤ requested) := not_le.2 hr
      rcases lt_or_gt_of_ne hP' with hlt | hgt
      · refine trueTS_congr hv ?_
        filter_upwards [le, continuous_snd.continuousAt.eventually_lt hc hlt] with q hq hs
        have hs' : q.2 < (satPressure (TS.temperature q.1)).val := hs
        simp [start, startDensity, phase, hq, hr', hs']
      · refine trueTS_congr hl ?_
        filter_upwards [le, hc.eventually_lt continuous_snd.continuousAt hgt] with q hq hs
        have hs' : ¬ q.2 < (satPressure (TS.temperature q.1)).val := not_lt.2 (le_of_lt hs)
        simp [start, startDensity, phase, hq, hr', hs']

end WP

end ThermoFun
