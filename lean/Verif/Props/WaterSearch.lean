import Verif.Lemmas.WagnerPrussSearch

/-!
# The density search of the program with the Wagner-Pruss equation

C139, C140 and C78 for `waterDensityWagnerPruss` as a whole, with a real state as the example: liquid water at 298.15 K and 1 bar.
-/

namespace ThermoFun

open Filter Topology

variable {F : ℝ → ℝ → Helm} {m : ℝ → TS → HelmD} {x : ℝ → ℝ → TS} {T P : ℝ}

/-- **C140, for the search.**  Where the search ends after testing the iterates 0 to n (C139), the water state built at the density it returns obeys
dG = -S dT + V dP and dH/dT = Cp up to e/D² times the derivatives carried by the density, e being the pressure still missing at that density, and up to the distance of
the carried from the reported temperature derivative (C78). -/
theorem C140_search (hT : T ≠ 0) (hm : Follows F m) (hx : TrueTS x T P) (n : ℕ) (hn : n < 100)
    (hfail : ∀ k < n, 1e-8 < |relRes F T P (iterate (TS.pressure P) (m T) (x T P) k).val|)
    (hpass : |relRes F T P (iterate (TS.pressure P) (m T) (x T P) n).val| < 1e-8)
    (hs : ∀ k ≤ n, SmoothStep F T P (iterate (TS.pressure P) (m T) (x T P) k).val)
    (hF : HelmGrad F T (iterate (TS.pressure P) (m T) (x T P) (n + 1)).val) (hp : pDOf F T (iterate (TS.pressure P) (m T) (x T P) (n + 1)).val ≠ 0)
    (h0 : (iterate (TS.pressure P) (m T) (x T P) (n + 1)).val ≠ 0) :
    ∃ D : ℝ → ℝ → TS, (∀ᶠ q : ℝ × ℝ in 𝓝 (T, P), waterDensity (TS.pressure q.2) (m q.1) (x q.1 q.2) = .ok (D q.1 q.2)) ∧
      D T P = iterate (TS.pressure P) (m T) (x T P) (n + 1) ∧
      let w := fun t p => waterThermoState t p (D t p).val (F t (D t p).val)
      let d := (pOf F T (D T P).val - P) / (D T P).val ^ 2
      Grad (fun t p => (w t p).gibbs) (-(w T P).entropy + d * (D T P).ddt) ((w T P).volume + d * (D T P).ddp) T P ∧
      HasDerivAt (fun t => (w t P).enthalpy)
        ((w T P).cp + d * (D T P).ddt - T * (F T (D T P).val).fTD * ((D T P).ddt - (w T P).densityT)) T := by
  obtain ⟨D, h1, h2, h3⟩ := C139_carried hm hx n hn hfail hpass hs
  refine ⟨D, h1, h3, ?_⟩
  rw [← h3] at hF hp h0
  obtain ⟨a1, -, a3⟩ := C140_defects hT (fun t p => (D t p).val) (D T P).ddt (D T P).ddp h2 h0 hF hp
  exact ⟨a1, a3⟩

/-- The hypotheses of `C78_distance_partial` and `C140_defects`: p = D + (T - 277)² at 300 K; the iterate 1000 when 1000 Pa are asked for, and the density
p - 520 that misses the pressure by 9 Pa. -/
example : (pDOf sampleHelm 300 1000 ≠ 0 ∧ (1000 : ℝ) > (pOf sampleHelm 300 1000 - 1000) / pDOf sampleHelm 300 1000) ∧
    Grad (fun _ p => p - 520) 0 1 300 1520 ∧ (1520 : ℝ) - 520 ≠ 0 ∧ HelmGrad sampleHelm 300 1000 ∧ pOf sampleHelm 300 1000 - 1520 = 9 := by
  refine ⟨⟨?_, ?_⟩, ?_, by norm_num, sampleHelm_grad (by norm_num), ?_⟩
  · norm_num [pDOf, sampleHelm]
  · norm_num [pDOf, pOf, sampleHelm]
  · exact (Grad.sndG.sub (Grad.const 520)).congr (by norm_num) (by norm_num)
  · norm_num [pOf, sampleHelm]

namespace WP

/-- Each of the first three residuals at 298.15 K and 1 bar. -/
lemma rel_298 : (∀ k < 2, 1e-8 < |relRes helmholtz 298.15 100000 (it k).val|) ∧ |relRes helmholtz 298.15 100000 (it 2).val| < 1e-8 := by
  obtain ⟨-, ⟨r0, r1, r2, r3⟩, -⟩ := search_298
  refine ⟨fun k hk => ?_, ?_⟩
  · have : k = 0 ∨ k = 1 := by omega
    rcases this with rfl | rfl
    · rw [lt_abs]; right; rw [relRes, ← neg_div, lt_div_iff₀ (by norm_num)]; norm_num; linarith
    · rw [lt_abs]; left; rw [relRes, lt_div_iff₀ (by norm_num)]; norm_num; linarith
  · rw [abs_lt, relRes]
    constructor
    · rw [lt_div_iff₀ (by norm_num)]; norm_num; linarith
    · rw [div_lt_iff₀ (by norm_num)]; norm_num; linarith

lemma smooth_298 : ∀ k ≤ 2, SmoothStep helmholtz 298.15 100000 (it k).val := by
  obtain ⟨⟨s0, s1, s2⟩, -⟩ := search_298
  intro k hk
  have : k = 0 ∨ k = 1 ∨ k = 2 := by omega
  rcases this with rfl | rfl | rfl
  · exact s0
  · exact s1
  · exact s2

/-- The hypotheses of `C139_carried` are met by liquid water at 298.15 K and 1 bar with the program's start; the density found carries its own derivatives. -/
example : ∃ D : ℝ → ℝ → TS, (∀ᶠ q : ℝ × ℝ in 𝓝 (298.15, 100000), density q.1 q.2 0 = .ok (D q.1 q.2)) ∧
    Grad (fun t p => (D t p).val) (D 298.15 100000).ddt (D 298.15 100000).ddp 298.15 100000 ∧ D 298.15 100000 = it 3 :=
  C139_carried searchModel_follows (start_true start_off) 2 (by norm_num) rel_298.1 rel_298.2 smooth_298

/-! ### The state that is returned -/

/-- The slope at the density returned, and the distance of the carried from the reported derivative. -/
def lastOk : Bool :=
  let q := pressureI d3
  let g := b3 - .rat 1 / q.pD
  let e := q.p - .rat 100000
  decide (0 < q.pD.lo) && q.pD.ok && (g.ok && decide ((Iv.rat 7.9e-34).hi < g.lo)) && (g.ok && decide (g.hi < (Iv.rat 8e-34).lo)) &&
    (e.ok && decide ((Iv.rat 2.3e-23).hi < e.lo)) && (e.ok && decide (e.hi < (Iv.rat 2.4e-23).lo))

lemma last_ok : lastOk = true := by decide +kernel

lemma last_298 : 322 < (it 3).val ∧ pDOf helmholtz 298.15 (it 3).val ≠ 0 ∧
    (7.9e-34 < (it 3).ddp - 1 / pDOf helmholtz 298.15 (it 3).val ∧ (it 3).ddp - 1 / pDOf helmholtz 298.15 (it 3).val < 8e-34) ∧
    (2.3e-23 < pOf helmholtz 298.15 (it 3).val - 100000 ∧ pOf helmholtz 298.15 (it 3).val - 100000 < 2.4e-23) := by
  obtain ⟨-, -, v, c⟩ := search_298
  have hD : 322 < (it 3).val := by
    have g := d_gt
    rw [Bool.and_eq_true] at g
    have := v.rat_lt 322 g.2
    push_cast at this
    exact this
  obtain ⟨e1, e2, -⟩ := pressureI_enc v hD
  have h := last_ok
  unfold lastOk at h
  simp only [Bool.and_eq_true] at h
  obtain ⟨⟨⟨⟨⟨h1, h2⟩, h3⟩, h4⟩, h5⟩, h6⟩ := h
  have one : Enc (1 : ℝ) (.rat 1) := Enc.lit _ (by norm_num)
  have hg := c.sub (one.div e2)
  have he : Enc (pOf helmholtz 298.15 (it 3).val - 100000) ((pressureI d3).p - .rat 100000) := e1.sub (Enc.lit _ (by norm_num))
  refine ⟨hD, ?_, ⟨?_, ?_⟩, ⟨?_, ?_⟩⟩
  · have := (e2 h2).1
    have k : (0 : ℝ) < ((pressureI d3).pD.lo : ℝ) := by exact_mod_cast of_decide_eq_true h1
    exact (pos_of_mul_pos_left (lt_of_lt_of_le k this) scl_pos.le).ne'
  · have := hg.rat_lt 7.9e-34 (by rw [h3.1, h3.2]; rfl)
    push_cast at this; exact this
  · have := hg.lt_rat 8e-34 (by rw [h4.1, h4.2]; rfl)
    push_cast at this; exact this
  · have := he.rat_lt 2.3e-23 (by rw [h5.1, h5.2]; rfl)
    push_cast at this; exact this
  · have := he.lt_rat 2.4e-23 (by rw [h6.1, h6.2]; rfl)
    push_cast at this; exact this

/-- The hypotheses of `C140_search` are met there too; the pressure missing is 2.3e-23 Pa, so that dG/dP = V up to a relative 1e-35. -/
example : ∃ D : ℝ → ℝ → TS, (∀ᶠ q : ℝ × ℝ in 𝓝 (298.15, 100000), density q.1 q.2 0 = .ok (D q.1 q.2)) ∧
    ∃ d : ℝ, 0 < d ∧ d < 2.4e-28 ∧
      HasDerivAt (fun p => (waterThermoState 298.15 p (D 298.15 p).val (helmholtz 298.15 (D 298.15 p).val)).gibbs)
        (1 / (D 298.15 100000).val + d * (D 298.15 100000).ddp) 100000 := by
  obtain ⟨hD, hp, -, r1, r2⟩ := last_298
  obtain ⟨D, h1, h2, h3, -⟩ := C140_search (by norm_num) searchModel_follows (start_true start_off) 2 (by norm_num) rel_298.1 rel_298.2 smooth_298
    (C93_partial 298.15 (it 3).val (by norm_num) (by linarith) (by linarith)).1 hp (show (it 3).val ≠ 0 by linarith)
  have e : D 298.15 100000 = it 3 := h2
  refine ⟨D, h1, _, ?_, ?_, h3.dy⟩
  · rw [e]; have : 0 < pOf helmholtz 298.15 (it 3).val - 100000 := by linarith
    positivity
  · rw [e, div_lt_iff₀ (by positivity)]
    have : (322 : ℝ) ^ 2 < (it 3).val ^ 2 := by gcongr
    nlinarith

/-- **C78, at a real state.**  For liquid water at 298.15 K and 1 bar the search returns the third iterate, and the pressure derivative the density carries exceeds the
densityP reported for it, 4.5e-7 kg/m³/Pa, by 8e-34: equality in the strict sense fails, by an amount without consequence. -/
theorem C78_liquid_partial : density 298.15 100000 0 = .ok (it 3) ∧
    let s := waterThermoState 298.15 100000 (it 3).val (helmholtz 298.15 (it 3).val)
    7.9e-34 < (it 3).ddp - s.densityP ∧ (it 3).ddp - s.densityP < 8e-34 := by
  obtain ⟨D, h1, -, h3⟩ := C139_carried searchModel_follows (start_true start_off) 2 (by norm_num) rel_298.1 rel_298.2 smooth_298
  have h1 := h1.self_of_nhds
  have h3 : D 298.15 100000 = it 3 := h3
  refine ⟨by rw [← h3]; exact h1, ?_⟩
  obtain ⟨-, -, h, -⟩ := last_298
  have e : (waterThermoState 298.15 100000 (it 3).val (helmholtz 298.15 (it 3).val)).densityP = 1 / pDOf helmholtz 298.15 (it 3).val := by
    simp only [waterThermoState, pDOf, pow_two]
  intro s
  rw [show s.densityP = 1 / pDOf helmholtz 298.15 (it 3).val from e]
  exact h

end WP

end ThermoFun
