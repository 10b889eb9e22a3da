import Verif.Lemmas.WagnerPruss
import Mathlib.Analysis.SpecialFunctions.Pow.Continuity

/-! The terms of the Wagner–Pruss equation at low density. -/

namespace ThermoFun

namespace WP

open Filter Topology

/-- What vanishes in the limit of low density, at a given temperature. -/
structure Low (F : ℝ → Helm) : Prop where
  fD : Tendsto (fun y => y * (F y).fD) (𝓝[>] 0) (𝓝 0)
  fDD : Tendsto (fun y => y ^ 2 * (F y).fDD) (𝓝[>] 0) (𝓝 0)
  fTD : Tendsto (fun y => y * (F y).fTD) (𝓝[>] 0) (𝓝 0)
  fTTT : Tendsto (fun y => (F y).fTTT) (𝓝[>] 0) (𝓝 0)

lemma Low.add {F G : ℝ → Helm} (h : Low F) (k : Low G) : Low (fun y => WP.add (F y) (G y)) := by
  refine ⟨?_, ?_, ?_, ?_⟩
  · simpa [WP.add, mul_add] using h.fD.add k.fD
  · simpa [WP.add, mul_add] using h.fDD.add k.fDD
  · simpa [WP.add, mul_add] using h.fTD.add k.fTD
  · simpa [WP.add] using h.fTTT.add k.fTTT

lemma foldl_low {ι : Type*} (l : List ι) (T : ι → ℝ → Helm) {G : ℝ → Helm} (hG : Low G) (h : ∀ i ∈ l, Low (T i)) :
    Low (fun y => (l.map fun i => T i y).foldl WP.add (G y)) := by
  induction l generalizing G with
  | nil => exact hG
  | cons i l ih => exact ih (hG.add (h i (by simp))) fun j hj => h j (List.mem_cons_of_mem _ hj)

lemma tendsto_id0 : Tendsto (fun y : ℝ => y) (𝓝[>] 0) (𝓝 0) := tendsto_id.mono_left nhdsWithin_le_nhds

lemma tendsto_pow0 {d : ℝ} (hd : 0 < d) : Tendsto (fun y : ℝ => y ^ d) (𝓝[>] 0) (𝓝 0) := by
  have h := (Real.continuousAt_rpow_const 0 d (Or.inr hd.le)).tendsto
  rw [Real.zero_rpow hd.ne'] at h
  exact h.mono_left nhdsWithin_le_nhds

/-- Something bounded times something that vanishes. -/
lemma tendsto_mul0 {u v w : ℝ → ℝ} {c : ℝ} (hu : Tendsto u (𝓝[>] 0) (𝓝 c)) (hv : Tendsto v (𝓝[>] 0) (𝓝 0)) (hw : ∀ y, 0 < y → w y = u y * v y) :
    Tendsto w (𝓝[>] 0) (𝓝 0) := by
  have := hu.mul hv
  rw [mul_zero] at this
  refine this.congr' ?_
  filter_upwards [self_mem_nhdsWithin] with y hy
  exact (hw y hy).symm

lemma tendsto_const0 (c : ℝ) : Tendsto (fun _ : ℝ => c) (𝓝[>] 0) (𝓝 c) := tendsto_const_nhds

lemma termA_low (n d t x : ℝ) (hd : 0 < d) : Low (fun y => termA n d t x y) := by
  have h := tendsto_pow0 hd
  refine ⟨?_, ?_, ?_, ?_⟩
  · refine tendsto_mul0 (tendsto_const0 (n * d * x ^ t)) h fun y hy => ?_
    simp only [termA]; field_simp
  · refine tendsto_mul0 (tendsto_const0 (n * d * (d - 1) * x ^ t)) h fun y hy => ?_
    simp only [termA]; field_simp
  · refine tendsto_mul0 (tendsto_const0 (n * d * (t / x) * x ^ t)) h fun y hy => ?_
    simp only [termA]
    rcases eq_or_ne x 0 with rfl | hx
    · simp
    · field_simp
  · refine tendsto_mul0 (tendsto_const0 ((t - 2) / x * ((t - 1) / x * (t / x)) * n * x ^ t)) h fun y hy => ?_
    simp only [termA]; ring

lemma termB_low (n d t c x : ℝ) (hd : 0 < d) (hc : 0 < c) : Low (fun y => termB n d t c x y) := by
  have h := tendsto_pow0 hd
  have hp := tendsto_pow0 hc
  have he : Tendsto (fun y : ℝ => Real.exp (-y ^ c)) (𝓝[>] 0) (𝓝 1) := by
    have := (Real.continuous_exp.tendsto _).comp hp.neg
    simpa [Function.comp_def] using this
  have hq := hp.const_mul c
  refine ⟨?_, ?_, ?_, ?_⟩
  · refine tendsto_mul0 (((hq.const_sub d).mul he).mul_const (n * x ^ t)) h fun y hy => ?_
    simp only [termB]; field_simp
  · refine tendsto_mul0 (((((hq.const_sub d).sub_const 1).mul (hq.const_sub d)).sub (hp.mul_const (c ^ 2))).mul (he.mul_const (n * x ^ t))) h fun y hy => ?_
    simp only [termB]; field_simp
  · refine tendsto_mul0 (((hq.const_sub d).mul he).mul_const (t / x * n * x ^ t)) h fun y hy => ?_
    simp only [termB]
    rcases eq_or_ne x 0 with rfl | hx
    · simp
    · field_simp
  · refine tendsto_mul0 (he.mul_const ((t - 2) / x * ((t - 1) / x * (t / x)) * n * x ^ t)) h fun y hy => ?_
    simp only [termB]; ring

lemma termC_low (n d t al be ga ep x : ℝ) (hd : 0 < d) : Low (fun y => termC n d t al be ga ep x y) := by
  have h := tendsto_pow0 hd
  have hi := tendsto_id0
  have he : ∃ c, Tendsto (fun y : ℝ => Real.exp (-al * (y - ep) ^ 2 - be * (x - ga) ^ 2)) (𝓝[>] 0) (𝓝 c) := by
    have : Continuous fun y : ℝ => Real.exp (-al * (y - ep) ^ 2 - be * (x - ga) ^ 2) := by fun_prop
    exact ⟨_, (this.tendsto 0).mono_left nhdsWithin_le_nhds⟩
  obtain ⟨c, he⟩ := he
  have h1 : Tendsto (fun y : ℝ => d - 2 * al * y * (y - ep)) (𝓝[>] 0) (𝓝 d) := by
    have : Continuous fun y : ℝ => d - 2 * al * y * (y - ep) := by fun_prop
    have := (this.tendsto 0).mono_left (nhdsWithin_le_nhds (s := Set.Ioi 0))
    simpa using this
  have h2 : Tendsto (fun y : ℝ => d + 2 * al * y ^ 2) (𝓝[>] 0) (𝓝 d) := by
    have : Continuous fun y : ℝ => d + 2 * al * y ^ 2 := by fun_prop
    have := (this.tendsto 0).mono_left (nhdsWithin_le_nhds (s := Set.Ioi 0))
    simpa using this
  refine ⟨?_, ?_, ?_, ?_⟩
  · refine tendsto_mul0 ((h1.mul he).mul_const (n * x ^ t)) h fun y hy => ?_
    simp only [termC]; field_simp
  · refine tendsto_mul0 ((((h1.mul h1).sub h2).mul he).mul_const (n * x ^ t)) h fun y hy => ?_
    simp only [termC]; field_simp
  · refine tendsto_mul0 ((h1.mul he).mul_const ((t / x - 2 * be * (x - ga)) * n * x ^ t)) h fun y hy => ?_
    simp only [termC]
    generalize t / x = r
    field_simp
  · refine tendsto_mul0 (he.mul_const (((t / x - 2 * be * (x - ga)) * ((t / x - 2 * be * (x - ga)) * (t / x - 2 * be * (x - ga)) - (t / x ^ 2 + 2 * be)) -
      2 * (t / x ^ 2 + 2 * be) * (t / x - 2 * be * (x - ga)) + 2 * t / x ^ 3) * n * x ^ t)) h fun y hy => ?_
    simp only [termC]; ring

/-- A component of a record is continuous in the second variable. -/
lemma tendsto_of_grad {g : ℝ → ℝ → ℝ} {a b x y : ℝ} (h : Grad g a b x y) : Tendsto (fun y => g x y) (𝓝 y) (𝓝 (g x y)) := h.dy.continuousAt.tendsto

lemma termD_low (n a b A B C F E x : ℝ) (hE : E ≠ 0) (hB : 0 < B) : Low (fun y => termD n a b A B C F E x y) := by
  have hj : Jet (termD n a b A B C F E) x 0 := termD_jet n a b A B C F E hE hB (by norm_num)
  have hd : Jet (fun x y => bigDelta B a (theta A E x y) y) x 0 := bigDelta_jet A E B a hE (by norm_num)
  have hp : Jet (psi C F) x 0 := psi_jet C F
  have hq := deltaPow_jet hd (bigDelta_pos A E B a hB (by norm_num : (0 : ℝ) ≠ 1)).ne' b
  have le : (𝓝[>] (0 : ℝ)) ≤ 𝓝 0 := nhdsWithin_le_nhds
  have hi := tendsto_id0
  refine ⟨?_, ?_, ?_, ?_⟩
  · exact tendsto_mul0 ((tendsto_of_grad hj.fD).mono_left le) hi fun y _ => mul_comm _ _
  · exact tendsto_mul0 ((tendsto_of_grad hj.fDD).mono_left le) (by simpa using hi.pow 2) fun y _ => mul_comm _ _
  · exact tendsto_mul0 ((tendsto_of_grad hj.fTD).mono_left le) hi fun y _ => mul_comm _ _
  · have d0 := (tendsto_of_grad hd.f).mono_left le
    have d1 := (tendsto_of_grad hd.fT).mono_left le
    have d2 := (tendsto_of_grad hd.fTT).mono_left le
    have p0 := (tendsto_of_grad hp.f).mono_left le
    have p1 := (tendsto_of_grad hp.fT).mono_left le
    have p2 := (tendsto_of_grad hp.fTT).mono_left le
    have q0 := (tendsto_of_grad hq.f).mono_left le
    have q1 := (tendsto_of_grad hq.fT).mono_left le
    have q2 := (tendsto_of_grad hq.fTT).mono_left le
    have h0 := (bigDelta_pos (x := x) A E B a hB (by norm_num : (0 : ℝ) ≠ 1)).ne'
    have dq := ((((d1.const_mul (3 * b * (b - 1))).mul d2).div d0 h0).div d0 h0).add (((d1.div d0 h0).pow 3).const_mul (b * (b - 1) * (b - 2)))
    have q3 := dq.mul q0
    have p3 := ((p1.const_mul 2).add (p2.const_mul (x - 1))).const_mul (-2 * F)
    have hs := ((((q3.mul p0).add ((q2.const_mul 3).mul p1)).add ((q1.const_mul 3).mul p2)).add (q0.mul p3)).const_mul n
    refine tendsto_mul0 hs hi fun y _ => ?_
    have e1 : (bigDelta B a (theta A E x y) y).fTTT = 0 := rfl
    have e2 : (psi C F x y).fTTT = -2 * F * (2 * (psi C F x y).fT + (x - 1) * (psi C F x y).fTT) := rfl
    simp only [termD, product, Pi.div_apply]
    rw [e2]
    generalize psi C F x y = p at *
    generalize bigDelta B a (theta A E x y) y = g at *
    have e3 : (deltaPow b g).fTTT = (b * g.fTTT / g.f + 3 * b * (b - 1) * g.fT * g.fTT / g.f / g.f + b * (b - 1) * (b - 2) * (g.fT / g.f) ^ 3) *
      (deltaPow b g).f := rfl
    rw [e3, e1]
    ring

lemma residual_low (k : Coef) (x : ℝ) (hd : ∀ i < 54, 0 < el k.d (i + 1)) (hc : ∀ i < 44, 0 < el k.c (i + 8)) (hE : ∀ j < 2, el k.E j ≠ 0)
    (hB : ∀ j < 2, 0 < el k.B j) : Low (fun y => residual k x y) := by
  have hz : Low (fun _ => zero) := by
    refine ⟨?_, ?_, ?_, ?_⟩ <;> simp [zero]
  have hd' : ∀ i, 1 ≤ i → i ≤ 54 → 0 < el k.d i := fun i h1 h2 => by
    have := hd (i - 1) (by omega)
    rwa [Nat.sub_add_cancel h1] at this
  have hA := foldl_low ((List.range 7).map (· + 1)) (fun i y => termA (el k.n i) (el k.d i) (el k.t i) x y) hz fun i hi => by
    simp only [List.mem_map, List.mem_range] at hi
    exact termA_low _ _ _ _ (hd' _ (by omega) (by omega))
  have hB' := foldl_low ((List.range 44).map (· + 8)) (fun i y => termB (el k.n i) (el k.d i) (el k.t i) (el k.c i) x y) hA fun i hi => by
    simp only [List.mem_map, List.mem_range] at hi
    obtain ⟨m, hm, rfl⟩ := hi
    exact termB_low _ _ _ _ _ (hd' _ (by omega) (by omega)) (hc m hm)
  have hC := foldl_low ((List.range 3).map (· + 52)) (fun i y => termC (el k.n i) (el k.d i) (el k.t i) (el k.alpha (i - 52)) (el k.beta (i - 52))
    (el k.gamma (i - 52)) (el k.epsilon (i - 52)) x y) hB' fun i hi => by
      simp only [List.mem_map, List.mem_range] at hi
      exact termC_low _ _ _ _ _ _ _ _ (hd' _ (by omega) (by omega))
  have hD := foldl_low ((List.range 2).map (· + 55)) (fun i y => termD (el k.n i) (el k.a (i - 55)) (el k.b (i - 55)) (el k.A (i - 55))
    (el k.B (i - 55)) (el k.C (i - 55)) (el k.F (i - 55)) (el k.E (i - 55)) x y) hC fun i hi => by
      have hi' : i - 55 < 2 := by
        simp only [List.mem_map, List.mem_range] at hi
        obtain ⟨m, hm, rfl⟩ := hi
        omega
      exact termD_low _ _ _ _ _ _ _ _ _ (hE _ hi') (hB _ hi')
  refine ⟨?_, ?_, ?_, ?_⟩ <;> simp only [residual, sum, List.foldl_append]
  exacts [hD.fD, hD.fDD, hD.fTD, hD.fTTT]

end WP

end ThermoFun
