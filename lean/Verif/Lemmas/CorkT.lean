import Verif.Lemmas.CorkMrk
import Verif.Props.GasT

/-!
Derivatives of the results of the CORK equation for H2O and CO2 where its cubic has one real root.
-/

namespace ThermoFun.Cork

open Topology Filter
open Gas (AB Fug cq cr oneRoot gres hres cres EntropyOK HeatOK EntropyWrong)

/-! ### The virial part -/

lemma mul_cont {g : ℝ → ℝ} {x : ℝ} (hg : ContinuousAt g x) : HasDerivAt (fun y => (y - x) * g y) (g x) x := by
  rw [hasDerivAt_iff_tendsto_slope]
  refine (hg.tendsto.mono_left nhdsWithin_le_nhds).congr' ?_
  filter_upwards [self_mem_nhdsWithin] with y hy
  have : y - x ≠ 0 := sub_ne_zero.mpr hy
  rw [slope_def_field]
  simp only [sub_self, zero_mul, sub_zero]
  field_simp

lemma vir_d {w : Vir} {T : ℝ} (hT : 0 < T) (P : ℝ) : HasDerivAt (fun p => RR * T * virLn w T p) (virV w P) P := by
  have hR := RRpos
  rcases lt_trichotomy P w.p0 with h | h | h
  · have : (fun p => RR * T * virLn w T p) =ᶠ[𝓝 P] fun _ => 0 := by
      filter_upwards [gt_mem_nhds h] with p hp
      unfold virLn
      rw [if_neg (not_lt.mpr hp.le), mul_zero]
    refine ((hasDerivAt_const P (0 : ℝ)).congr_of_eventuallyEq this).congr_deriv ?_
    unfold virV
    rw [if_neg (not_lt.mpr h.le)]
  · subst h
    have hc : ContinuousAt (fun p => 2 / 3 * w.c * Real.sqrt (p - w.p0) + w.d / 2 * max (p - w.p0) 0
        + 4 / 5 * w.e * Real.sqrt (Real.sqrt (p - w.p0))) w.p0 := by fun_prop
    have := mul_cont hc
    refine (this.congr_of_eventuallyEq (Eventually.of_forall fun p => ?_)).congr_deriv ?_
    · unfold virLn
      by_cases hp : p > w.p0
      · simp only [if_pos hp, max_eq_left (by linarith : (0 : ℝ) ≤ p - w.p0)]
        field_simp
      · have h0 : p - w.p0 ≤ 0 := by linarith
        simp only [if_neg hp, max_eq_right h0, Real.sqrt_eq_zero_of_nonpos h0, Real.sqrt_zero]
        ring
    · unfold virV
      simp
  · have hx : 0 < P - w.p0 := by linarith
    have s := ((hasDerivAt_id' P).sub_const w.p0).sqrt hx.ne'
    have s2 := s.sqrt (Real.sqrt_pos.mpr hx).ne'
    have l := (hasDerivAt_id' P).sub_const w.p0
    have d := (((l.const_mul (2 / 3 * w.c)).fun_mul s).fun_add ((l.fun_pow 2).const_mul (w.d / 2))).fun_add
      ((l.const_mul (4 / 5 * w.e)).fun_mul s2)
    refine (d.congr_of_eventuallyEq ?_).congr_deriv ?_
    · filter_upwards [lt_mem_nhds h] with p hp
      unfold virLn
      rw [if_pos hp]
      field_simp
    · unfold virV
      rw [if_pos h]
      have q0 : 0 < Real.sqrt (P - w.p0) := Real.sqrt_pos.mpr hx
      have q1 := Real.sq_sqrt hx.le
      have q2 := Real.sq_sqrt q0.le
      have q3 : 0 < Real.sqrt (Real.sqrt (P - w.p0)) := Real.sqrt_pos.mpr q0
      generalize Real.sqrt (Real.sqrt (P - w.p0)) = r at *
      generalize Real.sqrt (P - w.p0) = s at *
      subst q2
      rw [← q1]
      push_cast
      field_simp
      ring

/-! ### Pressure -/

lemma mrk_gP {vap : Bool} {T P b : ℝ} {p : AB} {w : Vir} (hT : 0 < T) (hP : 0 < P) (hb : 0 < b) (ha : 0 ≤ p.a) (h : One p.a b T P) :
    ∃ f : ℝ → Fug, (∀ᶠ x in 𝓝 P, (volumeFugacity vap T x p.a b w).map (mrkProps T x p) = some (f x) ∧
      0 < (f x).phi ∧ (f x).g = Rgas * T * Real.log (f x).phi) ∧ (f P).v = mrkV p.a b T P + virV w P ∧
      HasDerivAt (fun x => (f x).g) (1000 * ((f P).v - RR * T / P)) P := by
  have hR := RRpos
  have ev : ∀ᶠ x in 𝓝 P, 0 < x ∧ One p.a b T x :=
    (lt_mem_nhds hP).and (One.eventually (a := fun _ => p.a) (t := fun _ => T) (p := fun x => x) continuousAt_const continuousAt_const
      continuousAt_id hT hP.ne' h)
  refine ⟨fun x => mrkProps T x p (mrkV p.a b T x + virV w x, Real.exp (mrkLn T x p.a b (mrkV p.a b T x) + virLn w T x)), ?_, rfl, ?_⟩
  · filter_upwards [ev] with x hx
    rw [volFug_one hT hx.1 ha hb hx.2]
    exact ⟨rfl, Real.exp_pos _, rfl⟩
  · have r := mrk_root hT hP ha hb h
    have hv := (mrkV_diff (a := fun _ => p.a) (t := fun _ => T) (p := fun x => x) (b := b) (x := P) (by fun_prop) (by fun_prop) (by fun_prop)
      hT hP.ne' h).hasDerivAt
    have d := ((Gas.gres_P (u := 1) (w := 0) (a := p.a / Real.sqrt T) hR hT hP hb (by norm_num) hv r.vb (by linarith [r.vb]) (by linarith [r.vb])
      r.eos).fun_add (vir_d (w := w) hT P)).const_mul 1000
    refine (d.congr_of_eventuallyEq ?_).congr_deriv ?_
    · filter_upwards [ev] with x hx
      have r' := mrk_root hT hx.1 ha hb hx.2
      rw [← mrkLn_gres hT hb r'.vb]
      unfold mrkProps
      dsimp only
      rw [Real.log_exp, Rgas_RR]
      ring
    · unfold mrkProps
      dsimp only
      ring

/-! ### Temperature -/

lemma sqrtA {a : ℝ → ℝ} {a' T : ℝ} (hT : 0 < T) (ha : HasDerivAt a a' T) :
    HasDerivAt (fun t => a t / Real.sqrt t) (a' / Real.sqrt T - a T / (2 * (T * Real.sqrt T))) T := by
  have s := (hasDerivAt_id' T).sqrt hT.ne'
  have hs : 0 < Real.sqrt T := Real.sqrt_pos.mpr hT
  refine (ha.fun_div s hs.ne').congr_deriv ?_
  have h2 := Real.sq_sqrt hT.le
  generalize Real.sqrt T = s at *
  rw [← h2]
  field_simp

lemma sqrtA' {a da : ℝ → ℝ} {d2a T : ℝ} (hT : 0 < T) (ha : HasDerivAt a (da T) T) (hda : HasDerivAt da d2a T) :
    HasDerivAt (fun t => da t / Real.sqrt t - a t / (2 * (t * Real.sqrt t)))
      (d2a / Real.sqrt T - da T / (T * Real.sqrt T) + 3 * a T / (4 * (T ^ 2 * Real.sqrt T))) T := by
  have s := (hasDerivAt_id' T).sqrt hT.ne'
  have hs : 0 < Real.sqrt T := Real.sqrt_pos.mpr hT
  refine ((sqrtA hT hda).fun_sub (ha.fun_div (((hasDerivAt_id' T).fun_mul s).const_mul 2) (by positivity))).congr_deriv ?_
  have h2 := Real.sq_sqrt hT.le
  generalize Real.sqrt T = s at *
  rw [← h2]
  field_simp
  ring

lemma mrk_gT {vap : Bool} {T P b a' ω : ℝ} {p : ℝ → AB} {w : ℝ → Vir} (hT : 0 < T) (hP : 0 < P) (hb : 0 < b)
    (hpa : 0 < (p T).a) (hda : HasDerivAt (fun t => (p t).a) a' T) (hw : HasDerivAt (fun t => RR * t * virLn (w t) t P) ω T)
    (h : One (p T).a b T P) :
    ∃ f : ℝ → Fug, (∀ᶠ t in 𝓝 T, 0 < t ∧ One (p t).a b t P ∧ 0 < (p t).a ∧
        (volumeFugacity vap t P (p t).a b (w t)).map (mrkProps t P (p t)) = some (f t) ∧
        f t = mrkProps t P (p t) (mrkV (p t).a b t P + virV (w t) P, Real.exp (mrkLn t P (p t).a b (mrkV (p t).a b t P) + virLn (w t) t P)) ∧
        (f t).g = 1000 * (gres RR 1 0 P t ((p t).a / Real.sqrt t) b (mrkV (p t).a b t P) + RR * t * virLn (w t) t P)) ∧
      HasDerivAt (fun t => (f t).g) (1000 * ((gres RR 1 0 P T ((p T).a / Real.sqrt T) b (mrkV (p T).a b T P)
        - hres RR 1 0 P T ((p T).a / Real.sqrt T) (a' / Real.sqrt T - (p T).a / (2 * (T * Real.sqrt T))) b (mrkV (p T).a b T P)) / T + ω)) T := by
  have hR := RRpos
  have ev : ∀ᶠ t in 𝓝 T, 0 < t ∧ One (p t).a b t P ∧ 0 < (p t).a :=
    (lt_mem_nhds hT).and ((One.eventually (a := fun t => (p t).a) (t := fun t => t) (p := fun _ => P) hda.continuousAt continuousAt_id
      continuousAt_const hT hP.ne' h).and (hda.continuousAt.eventually (lt_mem_nhds hpa)))
  have hg : ∀ t, 0 < t → One (p t).a b t P → 0 < (p t).a →
      (mrkProps t P (p t) (mrkV (p t).a b t P + virV (w t) P, Real.exp (mrkLn t P (p t).a b (mrkV (p t).a b t P) + virLn (w t) t P))).g
        = 1000 * (gres RR 1 0 P t ((p t).a / Real.sqrt t) b (mrkV (p t).a b t P) + RR * t * virLn (w t) t P) := by
    intro t h1 h2 h3
    have r := mrk_root h1 hP h3.le hb h2
    rw [← mrkLn_gres h1 hb r.vb]
    unfold mrkProps
    dsimp only
    rw [Real.log_exp, Rgas_RR]
    ring
  refine ⟨fun t => mrkProps t P (p t) (mrkV (p t).a b t P + virV (w t) P,
    Real.exp (mrkLn t P (p t).a b (mrkV (p t).a b t P) + virLn (w t) t P)), ?_, ?_⟩
  · filter_upwards [ev] with t ht
    refine ⟨ht.1, ht.2.1, ht.2.2, ?_, rfl, hg t ht.1 ht.2.1 ht.2.2⟩
    rw [volFug_one ht.1 hP ht.2.2.le hb ht.2.1]
    rfl
  · have r := mrk_root hT hP hpa.le hb h
    have hv := (mrkV_diff (a := fun t => (p t).a) (t := fun t => t) (p := fun _ => P) (b := b) (x := T) hda.differentiableAt (by fun_prop)
      (by fun_prop) hT hP.ne' h).hasDerivAt
    have d := ((((Gas.gres_over_T (u := 1) (w := 0) (A := fun t => (p t).a / Real.sqrt t) hR hT hP hb (by norm_num) hv (sqrtA hT hda) r.vb
      (by linarith [r.vb]) (by linarith [r.vb]) r.eos).fun_mul (hasDerivAt_id' T))).fun_add hw).const_mul 1000
    refine (d.congr_of_eventuallyEq ?_).congr_deriv ?_
    · filter_upwards [ev] with t ht
      rw [hg t ht.1 ht.2.1 ht.2.2, div_mul_cancel₀ _ ht.1.ne']
    · field_simp
      ring

lemma novir {P : ℝ} {w : Vir} (h : P ≤ w.p0) (T : ℝ) : virV w P = 0 ∧ virLn w T P = 0 := by
  unfold virV virLn
  rw [if_neg (not_lt.mpr h), if_neg (not_lt.mpr h)]
  exact ⟨rfl, rfl⟩

/-- Below `p0`, with the right derivatives of the parameter. -/
lemma mrk_both {vap : Bool} {T P b : ℝ} {p : ℝ → AB} {w : ℝ → Vir} (hT : 0 < T) (hP : 0 < P) (hb : 0 < b) (hpb : ∀ t, (p t).b = b)
    (hw : ∀ t, P ≤ (w t).p0)
    (hpa : 0 < (p T).a) (hda : HasDerivAt (fun t => (p t).a) (p T).da T) (hd2 : HasDerivAt (fun t => (p t).da) (p T).d2a T)
    (h : One (p T).a b T P) :
    EntropyOK (fun t => (volumeFugacity vap t P (p t).a b (w t)).map (mrkProps t P (p t))) T ∧
    HeatOK (fun t => (volumeFugacity vap t P (p t).a b (w t)).map (mrkProps t P (p t))) T := by
  have hR := RRpos
  have hw0 : HasDerivAt (fun t => RR * t * virLn (w t) t P) 0 T := by
    refine (hasDerivAt_const T (0 : ℝ)).congr_of_eventuallyEq (Eventually.of_forall fun t => ?_)
    simp only [(novir (hw t) t).2, mul_zero]
  obtain ⟨f, ev, hd⟩ := mrk_gT (vap := vap) hT hP hb hpa hda hw0 h
  have hval : ∀ᶠ t in 𝓝 T, (f t).h = some (1000 * hres RR 1 0 P t ((p t).a / Real.sqrt t)
        ((p t).da / Real.sqrt t - (p t).a / (2 * (t * Real.sqrt t))) b (mrkV (p t).a b t P)) ∧
      (f t).s = some ((1000 * hres RR 1 0 P t ((p t).a / Real.sqrt t)
        ((p t).da / Real.sqrt t - (p t).a / (2 * (t * Real.sqrt t))) b (mrkV (p t).a b t P) - (f t).g) / t) := by
    filter_upwards [ev] with t ht
    obtain ⟨t0, h1, h2, -, e, -⟩ := ht
    have r := mrk_root t0 hP h2.le hb h1
    rw [(novir (hw t) t).1, add_zero] at e
    have hh := props_h (P := P) (p := p t) (f := Real.exp (mrkLn t P (p t).a b (mrkV (p t).a b t P) + virLn (w t) t P)) t0 (by rw [hpb]; exact hb)
      (by rw [hpb]; exact r.vb)
    rw [← e, hpb] at hh
    exact hh
  obtain ⟨-, -, -, -, e, hg⟩ := ev.self_of_nhds
  have r := mrk_root hT hP hpa.le hb h
  rw [(novir (hw T) T).2, mul_zero, add_zero] at hg
  constructor
  · refine ⟨f, _, _, ev.mono fun t ht => ht.2.2.2.1, hval.self_of_nhds.1, hval.self_of_nhds.2, hd.congr_deriv ?_, ?_⟩
    · rw [hg]; ring
    · field_simp; ring
  · refine ⟨f, _, (ev.and hval).mono fun t ht => ⟨ht.1.2.2.2.1, ht.2.1⟩, ?_⟩
    have hcp : (f T).cp = 1000 * cres RR 1 0 T ((p T).a / Real.sqrt T) ((p T).da / Real.sqrt T - (p T).a / (2 * (T * Real.sqrt T)))
        ((p T).d2a / Real.sqrt T - (p T).da / (T * Real.sqrt T) + 3 * (p T).a / (4 * (T ^ 2 * Real.sqrt T))) b (mrkV (p T).a b T P) := by
      rw [(novir (hw T) T).1, add_zero] at e
      have := props_cp (P := P) (p := p T) (f := Real.exp (mrkLn T P (p T).a b (mrkV (p T).a b T P) + virLn (w T) T P)) hT (by rw [hpb]; exact hb)
        (by rw [hpb]; exact r.vb) (by rw [hpb]; exact r.slope)
      rw [← e, hpb] at this
      exact this
    rw [hcp]
    have hv := (mrkV_diff (a := fun t => (p t).a) (t := fun t => t) (p := fun _ => P) (b := b) (x := T) hda.differentiableAt (by fun_prop)
      (by fun_prop) hT hP.ne' h).hasDerivAt
    refine (Gas.hres_cres (u := 1) (w := 0) (A := fun t => (p t).a / Real.sqrt t)
      (A' := fun t => (p t).da / Real.sqrt t - (p t).a / (2 * (t * Real.sqrt t))) hb (by norm_num) hv (sqrtA hT hda) (sqrtA' hT hda hd2) r.vb
      (by linarith [r.vb]) (by linarith [r.vb]) ?_ r.slope).const_mul 1000
    filter_upwards [ev] with t ht
    exact (mrk_root ht.1 hP ht.2.2.1.le hb ht.2.1).eos

/-- Below `p0`, with a wrong derivative of the parameter. -/
lemma mrk_wrong {vap : Bool} {T P b a' : ℝ} {p : ℝ → AB} {w : ℝ → Vir} (hT : 0 < T) (hP : 0 < P) (hb : 0 < b) (hpb : ∀ t, (p t).b = b)
    (hw : ∀ t, P ≤ (w t).p0)
    (hpa : 0 < (p T).a) (hda : HasDerivAt (fun t => (p t).a) a' T) (hne : a' ≠ (p T).da) (h : One (p T).a b T P) :
    EntropyWrong (fun t => (volumeFugacity vap t P (p t).a b (w t)).map (mrkProps t P (p t))) T := by
  have hR := RRpos
  have hw0 : HasDerivAt (fun t => RR * t * virLn (w t) t P) 0 T := by
    refine (hasDerivAt_const T (0 : ℝ)).congr_of_eventuallyEq (Eventually.of_forall fun t => ?_)
    simp only [(novir (hw t) t).2, mul_zero]
  obtain ⟨f, ev, hd⟩ := mrk_gT (vap := vap) hT hP hb hpa hda hw0 h
  obtain ⟨-, -, -, -, e, hg⟩ := ev.self_of_nhds
  have r := mrk_root hT hP hpa.le hb h
  rw [(novir (hw T) T).2, mul_zero, add_zero] at hg
  rw [(novir (hw T) T).1, add_zero] at e
  have hh := props_h (P := P) (p := p T) (f := Real.exp (mrkLn T P (p T).a b (mrkV (p T).a b T P) + virLn (w T) T P)) hT (by rw [hpb]; exact hb)
    (by rw [hpb]; exact r.vb)
  rw [← e, hpb] at hh
  have hs : 0 < Real.sqrt T := Real.sqrt_pos.mpr hT
  have hv0 : 0 < mrkV (p T).a b T P := by linarith [r.vb]
  have hL : 0 < Real.log ((mrkV (p T).a b T P + 1 * b) / (mrkV (p T).a b T P + 0 * b)) := by
    apply Real.log_pos
    rw [lt_div_iff₀ (by linarith)]; linarith
  have key : hres RR 1 0 P T ((p T).a / Real.sqrt T) ((p T).da / Real.sqrt T - (p T).a / (2 * (T * Real.sqrt T))) b (mrkV (p T).a b T P)
      - hres RR 1 0 P T ((p T).a / Real.sqrt T) (a' / Real.sqrt T - (p T).a / (2 * (T * Real.sqrt T))) b (mrkV (p T).a b T P) ≠ 0 := by
    have : hres RR 1 0 P T ((p T).a / Real.sqrt T) ((p T).da / Real.sqrt T - (p T).a / (2 * (T * Real.sqrt T))) b (mrkV (p T).a b T P)
      - hres RR 1 0 P T ((p T).a / Real.sqrt T) (a' / Real.sqrt T - (p T).a / (2 * (T * Real.sqrt T))) b (mrkV (p T).a b T P)
        = ((p T).da - a') * (T / (Real.sqrt T * b) * Real.log ((mrkV (p T).a b T P + 1 * b) / (mrkV (p T).a b T P + 0 * b))) := by
      unfold hres
      generalize Real.log ((mrkV (p T).a b T P + 1 * b) / (mrkV (p T).a b T P + 0 * b)) = L
      field_simp
      ring
    rw [this]
    exact mul_ne_zero (sub_ne_zero.mpr (Ne.symm hne)) (by positivity)
  refine ⟨f, _, _, _, ev.mono fun t ht => ht.2.2.2.1, hh.1, hh.2, hd, ?_, ?_⟩
  · intro hc
    apply key
    rw [hg] at hc
    generalize hres RR 1 0 P T ((p T).a / Real.sqrt T) ((p T).da / Real.sqrt T - (p T).a / (2 * (T * Real.sqrt T))) b (mrkV (p T).a b T P) = X at *
    generalize hres RR 1 0 P T ((p T).a / Real.sqrt T) (a' / Real.sqrt T - (p T).a / (2 * (T * Real.sqrt T))) b (mrkV (p T).a b T P) = Y at *
    field_simp at hc
    linarith
  · intro hc
    apply key
    rw [hg] at hc
    generalize hres RR 1 0 P T ((p T).a / Real.sqrt T) ((p T).da / Real.sqrt T - (p T).a / (2 * (T * Real.sqrt T))) b (mrkV (p T).a b T P) = X at *
    generalize hres RR 1 0 P T ((p T).a / Real.sqrt T) (a' / Real.sqrt T - (p T).a / (2 * (T * Real.sqrt T))) b (mrkV (p T).a b T P) = Y at *
    field_simp at hc
    linarith

end ThermoFun.Cork
