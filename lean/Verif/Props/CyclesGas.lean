import Verif.Props.Cycles
import Verif.Props.EngineHist

/-!
# Cycles of reactions with gases

Theorems about /repo/ThermoFun/ThermoEngine.cpp:583-668, 777-836 as modelled in Model/Engine.lean: cycles of reactions between a gas, a species defined by a
reaction and a mineral do not close (C162).
-/

namespace ThermoFun.Engine

/-- X, defined by a reaction, the gas Y and the mineral Z. -/
noncomputable def exCyc : Env Unit Unit := exEnv [conSub "A" 2, exDC false, gasSub "Y" 3, conSub "Z" 4] [exDCR]

/-- What the engine answers for X. -/
noncomputable def exCycX : TPS := divAll (subScaled (ofReaction (refR 3)) (refGV 2 1) (-1)) 1

/-- X asked first in a reaction, on a new engine: it switches the correction off. -/
lemma exCyc_X (T P : ℝ) : ∃ s1 : ESt Unit Unit, s1.pcorr = false ∧ s1.subC.entries.length < 1000000 ∧ s1.subC.find ⟨T, P, "Y"⟩ = none ∧
    s1.subC.find ⟨T, P, "Z"⟩ = none ∧ (run exCyc 2).sub T P "X" { (ESt.init : ESt Unit Unit) with pcorr := true } = (.ok exCycX, s1) := by
  have hr : ∃ s1, s1.subC = (ESt.init : ESt Unit Unit).subC ∧
      (run exCyc 1).reac T P "r" { (setPrefs exCyc (exDC false) { (ESt.init : ESt Unit Unit) with pcorr := true }).2 with pcorr := true } = (.ok (refR 3), s1) := by
    have e := cached_miss (env := exCyc) (get := ESt.reacC) (set := fun c s => { s with reacC := c }) (k := ⟨T, P, "r"⟩)
      (s := { (setPrefs exCyc (exDC false) { (ESt.init : ESt Unit Unit) with pcorr := true }).2 with pcorr := true })
      (m := reacSym exCyc (run exCyc 0) T P "r") (v := refR 3) (fun _ => rfl) (by simp [exCyc, exEnv, ESt.init, setPrefs, EM.change, exDC, dcSub]) rfl rfl rfl
    refine ⟨_, ?_, e⟩
    rfl
  obtain ⟨s1, h1, h2⟩ := hr
  have hA : (run exCyc 1).sub T P "A" s1 = (.ok (refGV 2 1), remember T P "A" (refGV 2 1) { s1 with solventState := 0 }) :=
    run_miss (v := conSub "A" 2) rfl (by rw [h1]; simp [ESt.init]) (by rw [h1]; rfl) (substRec_con _ _ _ T P "A" 2 (by decide) s1)
  have ef : (exDCR.reactants.filter fun e => e.1 ≠ (exDC false).symbol) = [("A", -1)] := by simp [exDCR, exDC, dcSub]
  have e := substRec_dc_run (env := exCyc) (n := 1) (T := T) (P := P) (x := exDC false) (s := { (ESt.init : ESt Unit Unit) with pcorr := true })
    (re := exDCR) (tpr := refR 3) (ts := [refGV 2 1]) (s1 := s1)
    (by show "X" ≠ "H+"; decide) rfl (by show "r" ≠ ""; decide) rfl h2 (by rw [ef]; exact .cons hA (.nil _)) rfl (fun t => rfl)
  rw [ef] at e
  have hmP : ¬ ((exDC false).mP = .CON ∧ (exDCR.mP = .OFF ∨ exDCR.mP = .unset)) := by simp [exDC]
  simp only [if_neg hmP] at e
  have hX : (run exCyc 2).sub T P "X" { (ESt.init : ESt Unit Unit) with pcorr := true } = _ :=
    run_miss (v := exDC false) rfl (by simp [ESt.init]) rfl e
  refine ⟨_, ?_, ?_, ?_, ?_, hX⟩
  · rfl
  · refine lt_of_le_of_lt length_insert ?_
    refine lt_of_le_of_lt (Nat.add_le_add_right length_insert 1) ?_
    simp only
    rw [h1]; simp [ESt.init]
  · refine find_insert_ne (key_ne (by decide)) (find_insert_ne (key_ne (by decide)) ?_)
    simp only
    rw [h1]; rfl
  · refine find_insert_ne (key_ne (by decide)) (find_insert_ne (key_ne (by decide)) ?_)
    simp only
    rw [h1]; rfl

/-- A reaction of two of the species on a new engine, in terms of what the engine answers for them. -/
lemma exCyc_leg {T P : ℝ} {y z : String} {ty tz : TPS} {s2 : ESt Unit Unit}
    (h : Asked exCyc 2 T P { (ESt.init : ESt Unit Unit) with pcorr := true } [(y, -1), (z, 1)] [ty, tz] s2)
    (hv : ∀ e ∈ [(y, (-1 : ℝ)), (z, 1)], ∃ v, exCyc.db.subs.lookup e.1 = some v ∧ (v.noMethods = false ∨ v.reactionSymbol ≠ "q")) :
    ∃ t : TPR, Answered exCyc 2 T P [(y, -1), (z, 1)] t ∧ t.G.val = tz.G.val - ty.G.val := by
  have e := fromReactants_run (env := exCyc) (x := fromR "q" [(y, -1), (z, 1)]) (s := ESt.init) h hv
  have e1 : ask exCyc 2 (.fromRRec T P (fromR "q" [(y, -1), (z, 1)])) =
    (reacFromReactants exCyc (run exCyc 2) T P (fromR "q" [(y, -1), (z, 1)]) >>= fun t => pure (.reac t)) := rfl
  have hq : FromSpecies exCyc T P (fromR "q" [(y, -1), (z, 1)]) (.fromRRec T P (fromR "q" [(y, -1), (z, 1)])) := .record
  refine ⟨_, Answered.species (K := 0) hq (qs := []) (by simp) ((congrArg Prod.fst (by
    show ask exCyc 2 _ ESt.init = _
    rw [e1, EM.bind_of_ok (congrArg Prod.fst e)])).trans rfl), ?_⟩
  simp [fromR, addScaled, zeroTPR, zeroTS, TS.assign]
  ring

/-- **C162 refuted with gases.**  X (defined by a reaction) = Y (a gas), Y = Z (a mineral) and X = Z are a cycle.  At every temperature and every
pressure other than 1 bar G around it is not zero: in the first reaction the gas is taken without its dependence on pressure, because X before it in the
map of species has switched the correction off (C84), in the second with it. -/
theorem C162_gas_refuted (T P : ℝ) (hT : 0 < T) (hP : 0 < P) (hP1 : P ≠ 1e5) : ∃ t1 t2 t3 : TPR, Answered exCyc 2 T P [("X", -1), ("Y", 1)] t1 ∧
    Answered exCyc 2 T P [("Y", -1), ("Z", 1)] t2 ∧ Answered exCyc 2 T P [("X", -1), ("Z", 1)] t3 ∧
    t1.G.val + t2.G.val - t3.G.val = -(T / (P / 1e5) * 8.31451 * (P / 1e5 - 1)) ∧ t1.G.val + t2.G.val - t3.G.val ≠ 0 := by
  obtain ⟨s1, h0, hl, hy, hz, hX⟩ := exCyc_X T P
  have hY := run_miss (subs := [conSub "A" 2, exDC false, gasSub "Y" 3, conSub "Z" 4]) (reacs := [exDCR]) (n := 1) (v := gasSub "Y" 3) rfl hl hy
    (substRec_gas _ _ _ T P "Y" 3 (by decide) s1)
  rw [h0] at hY
  have hZ := run_miss (subs := [conSub "A" 2, exDC false, gasSub "Y" 3, conSub "Z" 4]) (reacs := [exDCR]) (n := 1) (v := conSub "Z" 4) rfl hl hz
    (substRec_con _ _ _ T P "Z" 4 (by decide) s1)
  have hY' := run_miss (subs := [conSub "A" 2, exDC false, gasSub "Y" 3, conSub "Z" 4]) (reacs := [exDCR]) (n := 1) (T := T) (P := P) (y := "Y") (v := gasSub "Y" 3)
    (s := { (ESt.init : ESt Unit Unit) with pcorr := true }) rfl (by simp [ESt.init]) rfl (substRec_gas _ _ _ T P "Y" 3 (by decide) _)
  have hZ' := run_miss (subs := [conSub "A" 2, exDC false, gasSub "Y" 3, conSub "Z" 4]) (reacs := [exDCR]) (n := 1) (T := T) (P := P) (y := "Z") (v := conSub "Z" 4)
    (s := remember T P "Y" (gasT 3 T P true) { (ESt.init : ESt Unit Unit) with pcorr := true, solventState := 1 }) rfl
    (lt_of_le_of_lt length_insert (by simp [ESt.init])) (find_insert_ne (key_ne (by decide)) rfl) (substRec_con _ _ _ T P "Z" 4 (by decide) _)
  have vX : ∃ v, exCyc.db.subs.lookup "X" = some v ∧ (v.noMethods = false ∨ v.reactionSymbol ≠ "q") := ⟨exDC false, rfl, Or.inr (by show "r" ≠ "q"; decide)⟩
  have vY : ∃ v, exCyc.db.subs.lookup "Y" = some v ∧ (v.noMethods = false ∨ v.reactionSymbol ≠ "q") := ⟨gasSub "Y" 3, rfl, Or.inl rfl⟩
  have vZ : ∃ v, exCyc.db.subs.lookup "Z" = some v ∧ (v.noMethods = false ∨ v.reactionSymbol ≠ "q") := ⟨conSub "Z" 4, rfl, Or.inl rfl⟩
  obtain ⟨t1, a1, g1⟩ := exCyc_leg (y := "X") (z := "Y") (.cons hX (.cons hY (.nil _))) (by
    intro e he
    simp only [List.mem_cons, List.not_mem_nil, or_false] at he
    rcases he with rfl | rfl
    · exact vX
    · exact vY)
  obtain ⟨t2, a2, g2⟩ := exCyc_leg (y := "Y") (z := "Z") (.cons hY' (.cons hZ' (.nil _))) (by
    intro e he
    simp only [List.mem_cons, List.not_mem_nil, or_false] at he
    rcases he with rfl | rfl
    · exact vY
    · exact vZ)
  obtain ⟨t3, a3, g3⟩ := exCyc_leg (y := "X") (z := "Z") (.cons hX (.cons hZ (.nil _))) (by
    intro e he
    simp only [List.mem_cons, List.not_mem_nil, or_false] at he
    rcases he with rfl | rfl
    · exact vX
    · exact vZ)
  have key : t1.G.val + t2.G.val - t3.G.val = -(T / (P / 1e5) * 8.31451 * (P / 1e5 - 1)) := by
    have k1 := (gasT_G 3 T P hP).1
    have k2 := (gasT_G 3 T P hP).2
    change t1.G.val = (gasT 3 T P false).G.val - _ at g1
    change t2.G.val = _ - (gasT 3 T P true).G.val at g2
    rw [g1, g2, g3, k1, k2]
    ring
  refine ⟨t1, t2, t3, a1, a2, a3, key, ?_⟩
  rw [key, neg_ne_zero]
  refine mul_ne_zero (by positivity) (sub_ne_zero.2 fun h => hP1 ?_)
  rw [div_eq_one_iff_eq (by norm_num)] at h
  exact h

/-- At 300 K and 2 bar 1247.2 J/mol are missing. -/
example : ∃ t1 t2 t3 : TPR, Answered exCyc 2 300 2e5 [("X", -1), ("Y", 1)] t1 ∧ Answered exCyc 2 300 2e5 [("Y", -1), ("Z", 1)] t2 ∧
    Answered exCyc 2 300 2e5 [("X", -1), ("Z", 1)] t3 ∧ t1.G.val + t2.G.val - t3.G.val = -1247.1765 := by
  obtain ⟨t1, t2, t3, a1, a2, a3, e, -⟩ := C162_gas_refuted 300 2e5 (by norm_num) (by norm_num) (by norm_num)
  exact ⟨t1, t2, t3, a1, a2, a3, by rw [e]; norm_num⟩

end ThermoFun.Engine
