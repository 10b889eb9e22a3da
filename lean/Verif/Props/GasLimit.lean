import Verif.Props.GasContinuity

/-!
C172 at the lower temperature limit of a record, below which the three cubic gas models take the gas to be ideal.
-/

open Filter Topology

namespace ThermoFun.Gas

/-- **C172** is violated at the lower temperature limit of every record, where the gas models change from an ideal to a real gas without a transition: from below the residual
properties are zero and the volume tends to RT/P, from above the volume tends to that of the equation of state, which is another unless the ideal volume happens to satisfy the equation. -/
theorem C172_limit_refuted (m : Eos) (lo P : ℝ) (k : Nat → ℝ) (hlo : 0 < lo) (hlo2 : lo < 1e4) (hP : 1e-5 ≤ P) (hP2 : P < 1e5) (hTc : 0 < k 0) (hPc : 0 < k 1)
    (hne : m ≠ .SRK → lo ≠ k 0 ∧ (parsOf m lo k).a ≠ 0)
    (h : match m with
      | .SRK => SrkSingle (parsOf m lo k).a (parsOf m lo k).b lo P
      | _ => PrSingle (parsOf m lo k).a (parsOf m lo k).b lo P)
    (hi : P ≠ eosOf m lo k (8.31451 * lo / P)) :
    ∃ g hh s v, Limits (fun t => calcFugPure m lo t P k) (𝓝[<] lo) 0 0 0 (8.31451 * lo / P) ∧ Limits (fun t => calcFugPure m lo t P k) (𝓝[≥] lo) g hh s v ∧
      P = eosOf m lo k v ∧ v ≠ 8.31451 * lo / P := by
  have hP0 : 0 < P := lt_of_lt_of_le (by norm_num) hP
  obtain ⟨ha, hb⟩ := parsOf_pos (m := m) (T := lo) hTc hPc
  obtain ⟨g, hh, s, v, f, fh, fs, ev, tg, th, ts, tv⟩ := C172_partial m lo P k hlo hP0 hTc hPc hne h
  have hv : (f lo).v = v := tendsto_nhds_unique (tendsto_pure_nhds (fun t => (f t).v) lo) (tv.mono_left (pure_le_nhds lo))
  have heos : P = eosOf m lo k v := by
    have hf := ev.self_of_nhds.1
    rw [← hv]
    cases m
    · obtain ⟨f', e1, -, e2, -⟩ := C100_pr_partial 0.457235 lo P (k 0) (k 1) (parsOf .PRSV lo k) hlo hP0 ha hb h
      have : some (f lo) = some f' := hf.symm.trans e1
      rw [Option.some.inj this]; exact e2
    · obtain ⟨f', e1, -, e2, -⟩ := C100_srk_partial lo P (parsOf .SRK lo k) hlo hP0 ha hb h
      have : some (f lo) = some f' := hf.symm.trans e1
      rw [Option.some.inj this]; exact e2
    · obtain ⟨f', e1, -, e2, -⟩ := C100_pr_partial 0.457235529 lo P (k 0) (k 1) (parsOf .PR78 lo k) hlo hP0 ha hb h
      have : some (f lo) = some f' := hf.symm.trans e1
      rw [Option.some.inj this]; exact e2
  refine ⟨g, hh, s, v, ?_, ?_, heos, ?_⟩
  · refine ⟨fun t => { phi := 1, g := 0, h := some 0, s := some 0, v := 8.31451 * t / P, cp := 0 }, fun _ => 0, fun _ => 0, ?_, tendsto_const_nhds,
      tendsto_const_nhds, tendsto_const_nhds, ?_⟩
    · filter_upwards [self_mem_nhdsWithin] with t ht
      refine ⟨?_, rfl, rfl⟩
      unfold calcFugPure
      rw [if_neg fun e => absurd e.1 (not_le.mpr ht)]
    · have c : ContinuousAt (fun t : ℝ => 8.31451 * t / P) lo := by fun_prop
      exact c.tendsto.mono_left nhdsWithin_le_nhds
  · refine ⟨f, fh, fs, ?_, tg.mono_left nhdsWithin_le_nhds, th.mono_left nhdsWithin_le_nhds, ts.mono_left nhdsWithin_le_nhds, tv.mono_left nhdsWithin_le_nhds⟩
    filter_upwards [self_mem_nhdsWithin, ev.filter_mono nhdsWithin_le_nhds, (gt_mem_nhds hlo2 : ∀ᶠ t in 𝓝 lo, t < 1e4).filter_mono nhdsWithin_le_nhds] with t h1 h2 h3
    refine ⟨?_, h2.2⟩
    unfold calcFugPure
    rw [if_pos ⟨h1, h3, hP, hP2⟩]
    exact h2.1
  · rintro rfl
    exact hi heos

/-- The gas of `exAr` with a record that begins at 216 K: the volume jumps there from RT/P to twice b. -/
example : ∃ g hh s v, Limits (fun t => calcFugPure .SRK 216 t exP (fun i => exAr.getD i 0)) (𝓝[<] 216) 0 0 0 (8.31451 * 216 / exP) ∧
    Limits (fun t => calcFugPure .SRK 216 t exP (fun i => exAr.getD i 0)) (𝓝[≥] 216) g hh s v ∧ v ≠ 8.31451 * 216 / exP := by
  have hv := exP_val
  have hB := exB_val
  have hP : 0 < exP := by linarith
  have hi : exP ≠ srkPressure (srkAB 216 150 50 0).a (srkAB 216 150 50 0).b 216 (8.31451 * 216 / exP) := by
    intro e
    have hab : 0 ≤ (srkAB 216 150 50 0).a ∧ 0 < (srkAB 216 150 50 0).b :=
      parsOf_pos (m := .SRK) (T := 216) (k := fun i => exAr.getD i 0) (by norm_num [exAr]) (by norm_num [exAr])
    obtain ⟨f, e1, -, -, e2⟩ := C100_srk_partial 216 exP (srkAB 216 150 50 0) (by norm_num) hP hab.1 hab.2 exAr_single
    have e3 := srkPure_one (p := srkAB 216 150 50 0) (T := 216) (P := exP) (by norm_num) hP hab.1 hab.2 exAr_single.one
    have hfv : f.v = 2 * (srkAB 216 150 50 0).b := by
      rw [Option.some.inj (e1.symm.trans e3), ← exAr_v]
      rfl
    have hb : (srkAB 216 150 50 0).b = exB * (Rgas * 216) / exP := by
      rw [← exAr_AB.2]
      have := Rpos
      unfold Bx
      field_simp
    have hw : (srkAB 216 150 50 0).b < 8.31451 * 216 / exP := by
      rw [hb]
      apply div_lt_div_of_pos_right _ hP
      unfold Rgas
      linarith
    have := e2 _ hw e
    rw [hfv, hb] at this
    unfold Rgas at this
    field_simp at this
    linarith
  obtain ⟨g, hh, s, v, h1, h2, -, h3⟩ := C172_limit_refuted .SRK 216 exP (fun i => exAr.getD i 0) (by norm_num) (by norm_num) (by norm_num; linarith) (by norm_num; linarith)
    (by norm_num [exAr]) (by norm_num [exAr]) (fun h => absurd rfl h) exAr_single hi
  exact ⟨g, hh, s, v, h1, h2, h3⟩

end ThermoFun.Gas
