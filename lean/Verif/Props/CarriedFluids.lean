import Verif.Props.CorkEntry
import Verif.Props.StpEntry

/-!
C98 for the CORK and STP fluids where they fall back to an ideal gas.
-/

open Filter Topology

namespace ThermoFun

/-- A result near a pressure whose volume depends on pressure and carries a zero derivative. -/
def FlatVolume (f : ℝ → Res (Option TPS)) (P : ℝ) : Prop :=
  ∃ r : ℝ → TPS, (∀ᶠ p in 𝓝 P, f p = .ok (some (r p))) ∧ (r P).V.ddp = 0 ∧ ∃ d, HasDerivAt (fun p => (r p).V.val) d P ∧ d ≠ 0

/-- The fallback of the CORK and STP fluids, s_solmod2_.cpp:6269-6275: an ideal gas. -/
noncomputable def idealFug (T Pb : ℝ) : Gas.Fug := { phi := 1, g := 0, h := some 0, s := some 0, v := 8.31451 * T / Pb, cp := 0 }

lemma flat_ideal {f : ℝ → Res (Option TPS)} {T P : ℝ} {tps : TPS} (hT : 0 < T) (hP : 0 < P)
    (h : ∀ p, 0 < p → f p = .ok (some (Gas.increment (TS.temperature T) (pbar p) (idealFug T (p / 1e5)) 0 0 tps))) : FlatVolume f P := by
  refine ⟨_, (lt_mem_nhds hP).mono fun p hp => h p hp, rfl, ?_⟩
  have d : HasDerivAt (fun p : ℝ => 8.31451 * T / (p / 1e5)) ((0 * (P / 1e5) - 8.31451 * T * (1 / 1e5)) / (P / 1e5) ^ 2) P :=
    (hasDerivAt_const P (8.31451 * T)).fun_div ((hasDerivAt_id' P).div_const 1e5) (by positivity)
  refine ⟨_, d, ?_⟩
  have : 0 < 8.31451 * T * (1 / 1e5) / (P / 1e5) ^ 2 := by positivity
  rw [zero_mul, zero_sub, neg_div]
  exact (neg_neg_of_pos this).ne

/-- **C98** is violated by the CORK and STP fluids too: the volume they return is a plain number.  Below the lower temperature limit of the record, for example, it is that of an ideal gas,
RT/P, with a pressure derivative of zero, for every record and pressure. -/
theorem C98_fluids_refuted (T P lo Pr : ℝ) (fm : String) (rest : List ℝ) (tail : List (List ℝ)) (crit : List ℝ) (tps : TPS) (hT : 0 < T) (hP : 0 < P)
    (hlo : T < lo) (hl : 7 ≤ crit.length) :
    FlatVolume (fun p => Cork.corkEntry T p fm ((lo :: rest) :: tail) crit Pr tps false) P ∧
    (fm = "H2O" ∨ fm = "CO2" → FlatVolume (fun p => Stp.stpEntry T p fm ((lo :: rest) :: tail) crit Pr tps false) P) := by
  have hnot : ∀ p : ℝ, ¬ (T ≥ lo ∧ T < 1e4 ∧ p / 1e5 ≥ 1e-5 ∧ p / 1e5 < 1e5) := fun p e => absurd e.1 (not_le.mpr hlo)
  constructor
  · refine flat_ideal (tps := tps) hT hP fun p hp => ?_
    have hc : Cork.calcFugPure (.of fm) lo T (p / 1e5) (fun i => crit.getD i 0) = some (idealFug T (p / 1e5)) := by
      unfold Cork.calcFugPure
      rw [if_neg (hnot p)]
      rfl
    unfold Cork.corkEntry
    rw [Cork.corkProps_eq hp.ne', if_neg (by omega), hc]
    rfl
  · intro hf
    have hm : ∃ m, Stp.Fluid.of fm = some m := by
      rcases hf with rfl | rfl
      · exact ⟨.H2O, rfl⟩
      · exact ⟨.CO2, rfl⟩
    obtain ⟨m, hm⟩ := hm
    refine flat_ideal (tps := tps) hT hP fun p hp => ?_
    have hc : Stp.calcFugPure m lo T (p / 1e5) (fun i => crit.getD i 0) = .ok (some (idealFug T (p / 1e5))) := by
      unfold Stp.calcFugPure
      rw [if_neg (hnot p)]
      rfl
    unfold Stp.stpEntry
    rw [Stp.stpProps_eq hp.ne' hm (by omega), hc]
    rfl

example : FlatVolume (fun p => Cork.corkEntry 250 p "CO2" [[298.15, 2000]] [304.2, 73.8, 0, 0, 0, 0, 0] 1e5 TPS.default false) 1e7 ∧
    FlatVolume (fun p => Stp.stpEntry 250 p "CO2" [[298.15, 2000]] [304.2, 73.8, 0, 0, 0, 0, 0] 1e5 TPS.default false) 1e7 := by
  have := C98_fluids_refuted 250 1e7 298.15 1e5 "CO2" [2000] [] [304.2, 73.8, 0, 0, 0, 0, 0] TPS.default (by norm_num) (by norm_num) (by norm_num) (by simp)
  exact ⟨this.1, this.2 (.inr rfl)⟩

end ThermoFun
