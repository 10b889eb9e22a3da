import Verif.Props.Carried
import Verif.Props.EmpCp
import Verif.Props.HKF

/-! Theorems about the derivatives carried by the standard properties of substances (C98, continued). -/

namespace ThermoFun

/-! ### Integration of the heat capacity -/

/-- **C98, constant heat capacity.**  Cp carries its derivatives, and pressure derivatives are right everywhere.  Missing: dG/dT, dS/dT and
dH/dT, which are wrong (below). -/
theorem C98_entropyCp_partial (Tr : ℝ) (hTr : 0 < Tr) (pt ref : TPS) (hr : ConstS ref) (T P : ℝ) (hT : 0 < T) :
    let f := fun t (_ : ℝ) => entropyCpEntry t Tr pt ref
    Carries (fun t p => (f t p).Cp) T P ∧ (f T P).G.ddp = 0 ∧ (f T P).H.ddp = 0 ∧ (f T P).S.ddp = 0 := by
  have h0 : T / Tr ≠ 0 := (div_pos hT hTr).ne'
  refine ⟨.const' hr.hCp, ?_, ?_, ?_⟩
  · dsimp only [entropyCpEntry, entropyCp]
    split_ifs <;> simp [hr.hG.2, hr.hS.2, hr.hCp.2, TS.ddp_log, h0]
  · dsimp only [entropyCpEntry, entropyCp]
    split_ifs <;> simp [hr.hH.2, hr.hCp.2]
  · dsimp only [entropyCpEntry, entropyCp]
    split_ifs <;> simp [hr.hS.2, hr.hCp.2, TS.ddp_log, h0]

/-- **C98 refuted, constant heat capacity.**  The reference temperature is declared as a temperature and so carries a derivative of one.  The
enthalpy carries a temperature derivative of zero instead of Cp, at every temperature, and the entropy one of Cp/T - Cp/Tr instead of Cp/T. -/
theorem C98_entropyCp_refuted (Tr : ℝ) (hTr : 0 < Tr) (pt ref : TPS) (hr : ConstS ref) (T : ℝ) (hT : 0 < T) (hC : ref.Cp.has)
    (hc : ref.Cp.val ≠ 0) :
    let f := fun t => entropyCpEntry t Tr pt ref
    ((f T).H.ddt = 0 ∧ HasDerivAt (fun t => (f t).H.val) ref.Cp.val T ∧ ¬ HasDerivAt (fun t => (f t).H.val) (f T).H.ddt T) ∧
    (f T).S.ddt = ref.Cp.val / T - ref.Cp.val / Tr ∧ ¬ HasDerivAt (fun t => (f t).S.val) (f T).S.ddt T := by
  have h0 : T / Tr ≠ 0 := (div_pos hT hTr).ne'
  have e1 : (entropyCpEntry T Tr pt ref).H.ddt = 0 := by
    simp [entropyCpEntry, entropyCp, hC, hr.hH.1, hr.hCp.1]
  have e2 : (entropyCpEntry T Tr pt ref).S.ddt = ref.Cp.val / T - ref.Cp.val / Tr := by
    have := hT.ne'
    have := hTr.ne'
    simp only [entropyCpEntry, entropyCp, hC, if_true, TS.ddt_addAssign, hr.hS.1, TS.op_ddt_mul, hr.hCp.1]
    rw [TS.ddt_log _ (by simpa using h0)]
    simp
    field_simp
  have d1 : HasDerivAt (fun t => (entropyCpEntry t Tr pt ref).H.val) ref.Cp.val T := by
    simp only [entropyCpEntry, entropyCp, hC, if_true, TS.val_addAssign, TS.op_val_mul, TS.op_val_sub, TS.val_temperature]
    exact ((((hasDerivAt_id' T).sub_const Tr).const_mul ref.Cp.val).const_add _).congr_deriv (by ring)
  have d2 : HasDerivAt (fun t => (entropyCpEntry t Tr pt ref).S.val) (ref.Cp.val / T) T := by
    simp only [entropyCpEntry, entropyCp, hC, if_true, TS.val_addAssign, TS.op_val_mul, TS.val_log, TS.op_val_div, TS.val_temperature]
    refine (((((hasDerivAt_id' T).div_const Tr).log h0).const_mul ref.Cp.val).const_add _).congr_deriv ?_
    have := hT.ne'
    have := hTr.ne'
    field_simp
  refine ⟨⟨e1, d1, fun h => hc ?_⟩, e2, fun h => hc ?_⟩
  · rw [e1] at h; exact d1.unique h
  · rw [e2] at h
    have := h.unique d2
    have h2 : ref.Cp.val / Tr = 0 := by linarith
    exact (div_eq_zero_iff.mp h2).resolve_right hTr.ne'

lemma exRef_const : ConstS exRef :=
  ⟨⟨rfl, rfl⟩, ⟨rfl, rfl⟩, ⟨rfl, rfl⟩, ⟨rfl, rfl⟩, ⟨rfl, rfl⟩, ⟨rfl, rfl⟩, ⟨rfl, rfl⟩, ⟨rfl, rfl⟩⟩

/-- The hypotheses of `C98_entropyCp_refuted` hold for the record of the examples. -/
example : ConstS exRef ∧ exRef.Cp.has ∧ exRef.Cp.val ≠ 0 := ⟨exRef_const, by simp [exRef, exTS, TS.has], by simp [exRef, exTS]⟩

lemma carries_empCp (ac : AC) (T P : ℝ) (hT : 0 < T) : Carries (fun t _ => empCp ac (TS.temperature t)) T P := by
  have hT0 := hT.ne'
  unfold empCp
  carries
  all_goals first
    | assumption
    | exact Or.inl hT0
    | (simp only [TS.op_val_mul, TS.val_powR, TS.val_temperature]; positivity)

lemma carries_empS (ac : AC) (T P Tr : ℝ) (hT : 0 < T) (hTr : 0 < Tr) : Carries (fun t _ => empS ac (TS.temperature t) Tr) T P := by
  have hT0 := hT.ne'
  dsimp only [empS]
  carries
  all_goals first
    | assumption
    | exact Or.inl hT0
    | (simp only [TS.op_val_mul, TS.val_powR, TS.val_temperature, TS.op_val_divR]; positivity)

lemma carries_empG (ac : AC) (T P Tr : ℝ) (hT : 0 < T) (hTr : 0 < Tr) : Carries (fun t _ => empG ac (TS.temperature t) Tr) T P := by
  have hT0 := hT.ne'
  dsimp only [empG]
  carries
  all_goals first
    | assumption
    | exact Or.inl hT0
    | exact Or.inr (by norm_num)
    | (simp only [TS.op_val_mul, TS.val_powR, TS.val_temperature, TS.op_val_divR]; positivity)

lemma carries_empH (ac : AC) (T P Tr : ℝ) (hT : 0 < T) (hTr : 0 < Tr) : Carries (fun t _ => empH ac (TS.temperature t) Tr) T P := by
  have hT0 := hT.ne'
  dsimp only [empH]
  carries
  all_goals first
    | assumption
    | exact Or.inl hT0
    | (simp only [TS.op_val_mul, TS.val_powR, TS.val_temperature, TS.op_val_divR]; positivity)

/-- The result in the first interval. -/
lemma emp_first (t : CpTable) (ht : t.Ok) (Tr : ℝ) (ref pt : TPS) (T : ℝ) (h : t.At T 0) :
    let ac := loadAC (loadAC (fun _ => 0) (t.c 0)) (t.c 0)
    okOr (empCpIntegration (t.data Tr ref pt) T) =
      { pt with
        Cp := empCp (loadAC (fun _ => 0) (t.c 0)) (TS.temperature T)
        G := TS.subAssign (TS.subAssign ref.G (ref.S * (TS.temperature T - Tr))) (empG ac (TS.temperature T) Tr)
        H := TS.addAssign ref.H (empH ac (TS.temperature T) Tr)
        S := TS.addAssign ref.S (empS ac (TS.temperature T) Tr)
        V := TS.assign TS.default 0 } := by
  have hk := h.1
  have hs : selectInterval T (t.data Tr ref pt).intervals = .ok 0 := select_tbl t ht T 0 h
  have hcoef : (t.data Tr ref pt).coef[0]? = some (t.c 0) := by simp [CpTable.data, hk]
  have hlen : (t.data Tr ref pt).coef.length ≠ 0 := by
    have := ht.pos
    simp [CpTable.data]; omega
  simp only [empCpIntegration, hlen, if_false, hs, Res.ok_bind, hcoef, empLoop, empStep, empTrans, if_true, okOr]
  rfl

/-- **C98, empirical heat capacity, first interval.**  All results carry their derivatives while T is in the first interval, or below it. -/
theorem C98_empCp_partial (t : CpTable) (ht : t.Ok) (Tr : ℝ) (hTr : 0 < Tr) (ref pt : TPS) (hr : ConstS ref) (hp : ConstS pt) (T P : ℝ)
    (hT : 0 < T) (h : t.Inside T 0) : CarriesS (fun x _ => okOr (empCpIntegration (t.data Tr ref pt) x)) T P := by
  have hT0 := hT.ne'
  have ev := inside_ev t T 0 h
  have hG := Carries.const' hr.hG (T := T) (P := P)
  have hH := Carries.const' hr.hH (T := T) (P := P)
  have hS := Carries.const' hr.hS (T := T) (P := P)
  set ac := loadAC (loadAC (fun _ => 0) (t.c 0)) (t.c 0)
  have g := carries_empG ac T P Tr hT hTr
  have s := carries_empS ac T P Tr hT hTr
  have hh := carries_empH ac T P Tr hT hTr
  have c := carries_empCp (loadAC (fun _ => 0) (t.c 0)) T P hT
  have key : ∀ (π : TPS → TS) (y : ℝ → ℝ → TS), (∀ x p, t.At x 0 → π (okOr (empCpIntegration (t.data Tr ref pt) x)) = y x p) →
      Carries y T P → Carries (fun x _ => π (okOr (empCpIntegration (t.data Tr ref pt) x))) T P := by
    intro π y h hy
    refine hy.congr (h T P ev.self_of_nhds) (ev.mono fun x hx => h x P hx) (Filter.Eventually.of_forall fun p => h T p ev.self_of_nhds)
  constructor
  · refine key TPS.G (fun x p => TS.subAssign (TS.subAssign ref.G (ref.S * (TS.temperature x - Tr))) (empG ac (TS.temperature x) Tr))
      (fun x p hx => by rw [emp_first t ht Tr ref pt x hx]) (by carries)
  · exact key TPS.A (fun _ _ => pt.A) (fun x p hx => by rw [emp_first t ht Tr ref pt x hx]) (.const' hp.hA)
  · exact key TPS.U (fun _ _ => pt.U) (fun x p hx => by rw [emp_first t ht Tr ref pt x hx]) (.const' hp.hU)
  · exact key TPS.H (fun x p => TS.addAssign ref.H (empH ac (TS.temperature x) Tr))
      (fun x p hx => by rw [emp_first t ht Tr ref pt x hx]) (by carries)
  · exact key TPS.S (fun x p => TS.addAssign ref.S (empS ac (TS.temperature x) Tr))
      (fun x p hx => by rw [emp_first t ht Tr ref pt x hx]) (by carries)
  · exact key TPS.V (fun x p => TS.assign TS.default 0) (fun x p hx => by rw [emp_first t ht Tr ref pt x hx]) (by carries)
  · exact key TPS.Cp (fun x p => empCp (loadAC (fun _ => 0) (t.c 0)) (TS.temperature x))
      (fun x p hx => by rw [emp_first t ht Tr ref pt x hx]) c
  · exact key TPS.Cv (fun _ _ => pt.Cv) (fun x p hx => by rw [emp_first t ht Tr ref pt x hx]) (.const' hp.hCv)

/-- The hypotheses of `C98_empCp_partial` hold for the two-interval mineral at 300 K. -/
example : CarriesS (fun x _ => okOr (empCpIntegration (twoIntervals.data 298.15 exRef exRef) x)) 300 1e5 :=
  C98_empCp_partial _ twoIntervals_ok 298.15 (by norm_num) exRef exRef exRef_const exRef_const 300 1e5 (by norm_num)
    ⟨by decide, Or.inl (by norm_num [twoIntervals])⟩

lemma empH_ddt (ac : AC) (x Tr : ℝ) (hx : 0 < x) (hTr : 0 < Tr) : (empH ac (TS.temperature x) Tr).ddt = cpPoly ac x :=
  (carries_empH ac x 0 Tr hx hTr).ddt.unique (emp_deriv ac x Tr hx hTr).1

lemma cpPoly_congr {c c' : ℕ → ℝ} (h : ∀ i < 10, c i = c' i) (x : ℝ) : cpPoly c x = cpPoly c' x := by
  simp [cpPoly, h]

lemma step_ddt (t : CpTable) (ht : t.Ok) (L : ℕ) (hL : ∀ j < t.n, (t.c j).length = L) (Tr : ℝ) (hTr : 0 < Tr) (ref pt : TPS) (T : ℝ) (hT : 0 < T)
    (k j : ℕ) (hk : k < t.n) (hj : j ≤ k) (st st' : EmpSt) (hac : ∀ i, L ≤ i → st.ac i = 0)
    (h : empStep (t.data Tr ref pt) T k j st = .ok st') :
    st'.H.ddt = st.H.ddt + cpPoly (t.coefs j) (if j = k then T else t.b (j + 1)) := by
  have hjn : j < t.n := by omega
  have hc0 : cell (t.data Tr ref pt).intervals j 0 = .ok (t.b j) := by simp [cell, CpTable.data, hjn]
  have hc1 : cell (t.data Tr ref pt).intervals j 1 = .ok (t.b (j + 1)) := by simp [cell, CpTable.data, hjn]
  have hcoef : (t.data Tr ref pt).coef[j]? = some (t.c j) := by simp [CpTable.data, hjn]
  have e1 : (if j = k then (Res.ok T : Res ℝ) else cell (t.data Tr ref pt).intervals j 1) = .ok (if j = k then T else t.b (j + 1)) := by
    by_cases h : j = k
    · simp [h]
    · simp [h, hc1]
  have e2 : (if j = 0 then (Res.ok (t.data Tr ref pt).Tr : Res ℝ) else cell (t.data Tr ref pt).intervals j 0) = .ok (t.start Tr j) := by
    by_cases h : j = 0
    · simp [h, CpTable.start, CpTable.data]
    · simp [h, hc0, CpTable.start]
  have hcong : ∀ i < 10, loadAC st.ac (t.c j) i = t.coefs j i := by
    intro i hi
    simp only [loadAC, hL j hjn, CpTable.coefs]
    by_cases hiL : i < L
    · rw [if_pos ⟨hiL, by omega⟩]
    · rw [if_neg (by omega), hac i (by omega), List.getD_eq_getElem?_getD, List.getElem?_eq_none (by rw [hL j hjn]; omega)]
      rfl
  simp only [empStep, e1, e2, Res.ok_bind, hcoef] at h
  have htr : ∀ s1, empTrans (t.data Tr ref pt) j (t.start Tr j) st = .ok s1 → s1.H.ddt = st.H.ddt ∧ s1.ac = st.ac := by
    intro s1 h1
    unfold empTrans at h1
    split_ifs at h1
    · cases h1; exact ⟨rfl, rfl⟩
    · cases hc : cell (t.data Tr ref pt).trans st.ft 0 with
      | ok x =>
        rw [hc, Res.ok_bind] at h1
        split_ifs at h1
        · cases h1
          refine ⟨?_, rfl⟩
          dsimp only
          split_ifs <;> rfl
        · cases h1; exact ⟨rfl, rfl⟩
      | ub => rw [hc] at h1; cases h1
      | throw => rw [hc] at h1; cases h1
  cases h1 : empTrans (t.data Tr ref pt) j (t.start Tr j) st with
  | ok s1 =>
    rw [h1, Res.ok_bind] at h
    cases h
    obtain ⟨g1, g2⟩ := htr s1 h1
    simp only [TS.ddt_addAssign, g1, g2]
    have hpos : 0 < (if j = k then T else t.b (j + 1)) := by split_ifs <;> [exact hT; exact ht.bpos _]
    rw [empH_ddt _ _ _ hpos (start_pos ht hTr j), cpPoly_congr hcong]
  | ub => rw [h1] at h; cases h
  | throw => rw [h1] at h; cases h

lemma loop_ddt (t : CpTable) (ht : t.Ok) (L : ℕ) (hL : ∀ j < t.n, (t.c j).length = L) (Tr : ℝ) (hTr : 0 < Tr) (ref pt : TPS) (T : ℝ) (hT : 0 < T)
    (k : ℕ) (hk : k < t.n) (st0 : EmpSt) (hft : st0.ft = 0) (hac : ∀ i, L ≤ i → st0.ac i = 0) (m : ℕ) (hm : m ≤ k) :
    ∃ st, empLoop (t.data Tr ref pt) T k st0 (m + 1) = .ok st ∧
      st.H.ddt = st0.H.ddt + ∑ j ∈ Finset.range m, cpPoly (t.coefs j) (t.b (j + 1)) + cpPoly (t.coefs m) (if m = k then T else t.b (m + 1)) := by
  induction m with
  | zero =>
    obtain ⟨st', h1, h2, h3, h4⟩ := step_tbl t L hL Tr ref pt T k 0 hk hm st0 hft hac
    exact ⟨st', by rw [empLoop, empLoop, Res.ok_bind, h1], by rw [step_ddt t ht L hL Tr hTr ref pt T hT k 0 hk hm st0 st' hac h1]; simp⟩
  | succ m ih =>
    obtain ⟨st, h1, h2⟩ := ih (by omega)
    obtain ⟨st1, f1, f2, f3, -⟩ := loop_tbl t L hL Tr ref pt T k hk st0 hft hac m (by omega)
    obtain rfl : st = st1 := Res.ok.inj (h1.symm.trans f1)
    obtain ⟨st', g1, g2, g3, g4⟩ := step_tbl t L hL Tr ref pt T k (m + 1) hk hm st (by omega) f3
    refine ⟨st', by rw [empLoop, h1, Res.ok_bind, g1], ?_⟩
    rw [step_ddt t ht L hL Tr hTr ref pt T hT k (m + 1) hk hm st st' f3 g1, h2, Finset.sum_range_succ, if_neg (by omega : m ≠ k)]
    ring

/-- **C98 refuted, empirical heat capacity beyond the first interval.**  The upper bounds of the intervals passed are made temperatures, which
carry a derivative of one.  The enthalpy then carries, besides its derivative C(T), the heat capacities at all the bounds below T: the carried
derivative is wrong whenever these do not add up to zero. -/
theorem C98_empCp_refuted (t : CpTable) (ht : t.Ok) (Tr : ℝ) (hTr : 0 < Tr) (ref pt : TPS) (hr : ConstS ref) (T : ℝ) (hT : 0 < T) (k : ℕ)
    (h : t.Inside T k) (hne : ∑ j ∈ Finset.range k, cpPoly (t.coefs j) (t.b (j + 1)) ≠ 0) :
    let f := fun x => okOr (empCpIntegration (t.data Tr ref pt) x)
    HasDerivAt (fun x => (f x).H.val) (cpPoly (t.coefs k) T) T ∧
    (f T).H.ddt = cpPoly (t.coefs k) T + ∑ j ∈ Finset.range k, cpPoly (t.coefs j) (t.b (j + 1)) ∧
    ¬ HasDerivAt (fun x => (f x).H.val) (f T).H.ddt T := by
  intro f
  have d1 : HasDerivAt (fun x => (f x).H.val) (cpPoly (t.coefs k) T) T := (C29_integrals t ht Tr hTr ref pt T hT k h).2.1
  have e1 : (f T).H.ddt = cpPoly (t.coefs k) T + ∑ j ∈ Finset.range k, cpPoly (t.coefs j) (t.b (j + 1)) := by
    have hat := (inside_ev t T k h).self_of_nhds
    have hk := h.1
    obtain ⟨L, hL⟩ := ht.len
    have hs : selectInterval T (t.data Tr ref pt).intervals = .ok k := select_tbl t ht T k hat
    have hcoef : (t.data Tr ref pt).coef[k]? = some (t.c k) := by simp [CpTable.data, hk]
    have hlen : (t.data Tr ref pt).coef.length ≠ 0 := by
      have := ht.pos
      simp [CpTable.data]; omega
    have hac : ∀ i, L ≤ i → loadAC (fun _ => 0) (t.c k) i = 0 := by
      intro i hi
      simp only [loadAC, hL k hk]
      rw [if_neg (by omega)]
    obtain ⟨st, h1, h2⟩ := loop_ddt t ht L hL Tr hTr ref pt T hT k hk
      ⟨loadAC (fun _ => 0) (t.c k), 0, (t.data Tr ref pt).ref.S, (t.data Tr ref pt).ref.G, (t.data Tr ref pt).ref.H, TS.assign TS.default 0⟩ rfl hac k le_rfl
    simp only [f, empCpIntegration, hlen, if_false, hs, Res.ok_bind, hcoef, h1, okOr]
    rw [h2, if_pos rfl]
    have : (t.data Tr ref pt).ref.H.ddt = 0 := hr.hH.1
    simp only [this]
    ring
  refine ⟨d1, e1, fun h' => hne ?_⟩
  rw [e1] at h'
  have := h'.unique d1
  linarith

/-- The hypotheses of `C98_empCp_refuted` hold for the two-interval mineral at 1000 K: the enthalpy carries 70 + 70.4375 instead of 70 J/(mol K). -/
example : twoIntervals.Inside 1000 1 ∧ ∑ j ∈ Finset.range 1, cpPoly (twoIntervals.coefs j) (twoIntervals.b (j + 1)) = 70.4375 := by
  refine ⟨⟨by decide, Or.inl (by norm_num [twoIntervals])⟩, ?_⟩
  simp [cpPoly, CpTable.coefs, twoIntervals]
  norm_num

/-! ### Pressure corrections -/

/-- **C98, constant volume.** -/
theorem C98_conMolVol (ref : TPS) (hr : ConstS ref) (Pr : ℝ) (tps : ℝ → ℝ → TPS) (T P : ℝ) (h : CarriesS tps T P) :
    CarriesS (fun t p => conMolVol t p ref Pr (tps t p)) T P := by
  obtain ⟨hG, hA, hU, hH, hS, hV, hCp, hCv⟩ := h
  have hV' := Carries.const' hr.hV (T := T) (P := P)
  unfold conMolVol
  by_cases hv : ref.V.has
  · simp only [hv, if_true]
    constructor <;> dsimp only
    all_goals carries
  · simp only [hv, if_false]
    exact ⟨hG, hA, hU, hH, hS, hV, hCp, hCv⟩

/-- **C98, ideal gas.** -/
theorem C98_idealGas (Pr : ℝ) (gas ap : Bool) (tps : ℝ → ℝ → TPS) (T P : ℝ) (hP : 0 < P) (h : CarriesS tps T P) :
    CarriesS (fun t p => idealGasLawVol t p gas Pr (tps t p) ap) T P := by
  obtain ⟨hG, hA, hU, hH, hS, hV, hCp, hCv⟩ := h
  have hp0 : (pbar P).val ≠ 0 := by norm_num [pbar, hP.ne']
  have hVV : Carries (fun t p => TS.temperature t / pbar p * Rgas) T P := by carries
  have ev : ∀ᶠ p in nhds P, 0 < p := lt_mem_nhds hP
  -- the volume used
  have main : ∀ (V : ℝ → ℝ → TS), Carries V T P → CarriesS (fun t p =>
      if ap then applyPressure { tps t p with V := V t p } (TS.temperature t) (pbar p) Pr else { tps t p with V := V t p }) T P := by
    intro V hV'
    cases ap
    · simp only [Bool.false_eq_true, if_false]
      exact ⟨hG, hA, hU, hH, hS, hV', hCp, hCv⟩
    · simp only [if_true, applyPressure]
      constructor <;> dsimp only
      all_goals carries
  cases gas with
  | false =>
    have := main (fun t p => (tps t p).V) hV
    simpa [idealGasLawVol] using this
  | true =>
    have hm := main _ hVV
    have e : ∀ t p, 0 < p → idealGasLawVol t p true Pr (tps t p) ap = (if ap then applyPressure
        { tps t p with V := TS.temperature t / pbar p * Rgas } (TS.temperature t) (pbar p) Pr else { tps t p with V := TS.temperature t / pbar p * Rgas }) := by
      intro t p hp
      simp [idealGasLawVol, hp]
    obtain ⟨h1, h2, h3, h4, h5, h6, h7, h8⟩ := hm
    constructor
    · exact h1.congr (by rw [e T P hP]) (.of_forall fun t => by rw [e t P hP]) (ev.mono fun p hp => by rw [e T p hp])
    · exact h2.congr (by rw [e T P hP]) (.of_forall fun t => by rw [e t P hP]) (ev.mono fun p hp => by rw [e T p hp])
    · exact h3.congr (by rw [e T P hP]) (.of_forall fun t => by rw [e t P hP]) (ev.mono fun p hp => by rw [e T p hp])
    · exact h4.congr (by rw [e T P hP]) (.of_forall fun t => by rw [e t P hP]) (ev.mono fun p hp => by rw [e T p hp])
    · exact h5.congr (by rw [e T P hP]) (.of_forall fun t => by rw [e t P hP]) (ev.mono fun p hp => by rw [e T p hp])
    · exact h6.congr (by rw [e T P hP]) (.of_forall fun t => by rw [e t P hP]) (ev.mono fun p hp => by rw [e T p hp])
    · exact h7.congr (by rw [e T P hP]) (.of_forall fun t => by rw [e t P hP]) (ev.mono fun p hp => by rw [e T p hp])
    · exact h8.congr (by rw [e T P hP]) (.of_forall fun t => by rw [e t P hP]) (ev.mono fun p hp => by rw [e T p hp])

/-- The two theorems apply to the mineral of the examples at 300 K. -/
example (P : ℝ) (hP : 0 < P) : CarriesS (fun t p => idealGasLawVol t p true 1e5
    (conMolVol t p exRef 1e5 (okOr (empCpIntegration (twoIntervals.data 298.15 exRef exRef) t))) true) 300 P :=
  C98_idealGas 1e5 true true _ 300 P hP (C98_conMolVol exRef exRef_const 1e5 _ 300 P
    (C98_empCp_partial _ twoIntervals_ok 298.15 (by norm_num) exRef exRef exRef_const exRef_const 300 P (by norm_num)
      ⟨by decide, Or.inl (by norm_num [twoIntervals])⟩))

/-! ### Solids -/

lemma CarriesS.congr {f g : ℝ → ℝ → TPS} {T P : ℝ} (h : CarriesS f T P) (h0 : g T P = f T P) (h1 : ∀ᶠ t in nhds T, g t P = f t P)
    (h2 : ∀ᶠ p in nhds P, g T p = f T p) : CarriesS g T P := by
  obtain ⟨hG, hA, hU, hH, hS, hV, hCp, hCv⟩ := h
  constructor
  · exact hG.congr (by rw [h0]) (h1.mono fun t e => by rw [e]) (h2.mono fun t e => by rw [e])
  · exact hA.congr (by rw [h0]) (h1.mono fun t e => by rw [e]) (h2.mono fun t e => by rw [e])
  · exact hU.congr (by rw [h0]) (h1.mono fun t e => by rw [e]) (h2.mono fun t e => by rw [e])
  · exact hH.congr (by rw [h0]) (h1.mono fun t e => by rw [e]) (h2.mono fun t e => by rw [e])
  · exact hS.congr (by rw [h0]) (h1.mono fun t e => by rw [e]) (h2.mono fun t e => by rw [e])
  · exact hV.congr (by rw [h0]) (h1.mono fun t e => by rw [e]) (h2.mono fun t e => by rw [e])
  · exact hCp.congr (by rw [h0]) (h1.mono fun t e => by rw [e]) (h2.mono fun t e => by rw [e])
  · exact hCv.congr (by rw [h0]) (h1.mono fun t e => by rw [e]) (h2.mono fun t e => by rw [e])

/-- Off a point, along both axes. -/
lemma off_point {Q : ℝ → ℝ → Prop} {T P a b : ℝ} (hQ : ∀ t p, p ≠ b ∨ t ≠ a → Q t p) (h : P ≠ b ∨ T ≠ a) :
    Q T P ∧ (∀ᶠ t in nhds T, Q t P) ∧ (∀ᶠ p in nhds P, Q T p) := by
  refine ⟨hQ _ _ h, ?_, ?_⟩
  · rcases h with h | h
    · exact .of_forall fun t => hQ _ _ (Or.inl h)
    · exact (isOpen_ne.eventually_mem h).mono fun t ht => hQ _ _ (Or.inr ht)
  · rcases h with h | h
    · exact (isOpen_ne.eventually_mem h).mono fun p hp => hQ _ _ (Or.inl hp)
    · exact .of_forall fun p => hQ _ _ (Or.inr h)

lemma CarriesS.off {f g : ℝ → ℝ → TPS} {T P a b : ℝ} (h : CarriesS g T P) (e : ∀ t p, p ≠ b ∨ t ≠ a → f t p = g t p) (hne : P ≠ b ∨ T ≠ a) :
    CarriesS f T P := by
  obtain ⟨k0, k1, k2⟩ := off_point (Q := fun t p => f t p = g t p) e hne
  exact h.congr k0 k1 k2

lemma CarriesS.ite {x y : ℝ → ℝ → TPS} {T P : ℝ} {C : ℝ → ℝ → Prop} [∀ t p, Decidable (C t p)] (h : CarriesS x T P)
    (hC : C T P ∧ (∀ᶠ t in nhds T, C t P) ∧ (∀ᶠ p in nhds P, C T p)) : CarriesS (fun t p => if C t p then x t p else y t p) T P :=
  h.congr (if_pos hC.1) (hC.2.1.mono fun _ h => if_pos h) (hC.2.2.mono fun _ h => if_pos h)

lemma CarriesS.ite_neg {x y : ℝ → ℝ → TPS} {T P : ℝ} {C : ℝ → ℝ → Prop} [∀ t p, Decidable (C t p)] (h : CarriesS y T P)
    (hC : ¬ C T P ∧ (∀ᶠ t in nhds T, ¬ C t P) ∧ (∀ᶠ p in nhds P, ¬ C T p)) : CarriesS (fun t p => if C t p then x t p else y t p) T P :=
  h.congr (if_neg hC.1) (hC.2.1.mono fun _ h => if_neg h) (hC.2.2.mono fun _ h => if_neg h)

lemma pbar_ne {p Pr : ℝ} (h : p ≠ Pr) : (pbar p - Pr / 1e5).val ≠ 0 := by
  simp only [TS.op_val_subR, val_pbar]
  intro h'
  apply h
  have h5 : (1e5 : ℝ) ≠ 0 := by norm_num
  have : (p - Pr) / 1e5 = 0 := by rw [sub_div]; exact h'
  have := (div_eq_zero_iff.mp this).resolve_right h5
  linarith

/-- **C98, Berman.**  Everywhere but at the reference state itself.  Missing: the reference state (below). -/
theorem C98_berman_partial (Tst Pr : ℝ) (ref : TPS) (hr : ConstS ref) (vc : List ℝ) (tps : ℝ → ℝ → TPS) (T P : ℝ) (h : CarriesS tps T P)
    (hne : P ≠ Pr ∨ T ≠ Tst) (f : ℝ → ℝ → TPS)
    (hf : ∀ t p, berman88 (TS.temperature t) (pbar p) Tst Pr ref vc (tps t p) = .ok (f t p)) : CarriesS f T P := by
  obtain ⟨hG, hA, hU, hH, hS, hV, hCp, hCv⟩ := h
  have hV' := Carries.const' hr.hV (T := T) (P := P)
  by_cases hl : vc.length = 5
  swap
  · exact absurd (hf T P) (by simp [berman88, hl])
  obtain ⟨v0, v1, v2, v3, v4, rfl⟩ : ∃ v0 v1 v2 v3 v4, vc = [v0, v1, v2, v3, v4] := by
    match vc, hl with
    | [a, b, c, d, e], _ => exact ⟨a, b, c, d, e, rfl⟩
  have key : ∀ t p, (p ≠ Pr ∨ t ≠ Tst) → berman88 (TS.temperature t) (pbar p) Tst Pr ref [v0, v1, v2, v3, v4] (tps t p) = .ok (
      let VP := ref.V * (pbar p - Pr / 1e5)
      let VT := ref.V * (TS.temperature t - Tst)
      let Ts2 := Tst * Tst
      let G := TS.addAssign (tps t p).G VP
      let H := TS.addAssign (tps t p).H VP
      let V := TS.addAssign ref.V (v0 * VT + v1 * VT * (TS.temperature t - Tst) + v2 * VT * Ts2 + v3 * VP + v4 * VP * (pbar p - Pr / 1e5))
      let S := TS.addAssign (tps t p).S ((-v0) * VP - v1 * VP * (2 : ℝ) * (TS.temperature t - Tst) - v2 * VP * (3 : ℝ) * Ts2)
      let G := TS.addAssign G (v0 * (TS.temperature t - Tst) * VP + v1 * VP * Ts2 + v2 * VP * Ts2 * (TS.temperature t - Tst)
        + v3 * VP * (pbar p - Pr / 1e5) / (2 : ℝ) + v4 * VP * ((pbar p - Pr / 1e5) * (pbar p - Pr / 1e5)) / (3 : ℝ))
      let H := TS.addAssign H ((-v0 * Tst) * VP - v1 * VP * (TS.temperature t + Tst) * (TS.temperature t - Tst)
        + v2 * VP * Ts2 * ((2 : ℝ) * TS.temperature t + Tst)
        + v3 * VP * (pbar p - Pr / 1e5) / (2 : ℝ) + v4 * VP * ((pbar p - Pr / 1e5) * (pbar p - Pr / 1e5)) / (3 : ℝ))
      let U := H - pbar p * V
      { tps t p with G := G, H := H, V := V, S := S, U := U, A := U - TS.temperature t * S }) := by
    intro t p hn
    have hc : (pbar p - Pr / 1e5).val ≠ 0 ∨ (TS.temperature t - Tst).val ≠ 0 := by
      rcases hn with hn | hn
      · exact Or.inl (pbar_ne hn)
      · exact Or.inr (by simpa [sub_eq_zero] using hn)
    simp only [berman88, List.length_cons, List.length_nil, ne_eq, not_true, if_false, Nat.reduceAdd]
    rw [if_pos hc]
  have key' := fun t p hn => Res.ok.inj ((hf t p).symm.trans (key t p hn))
  refine CarriesS.off ?_ key' hne
  constructor <;> dsimp only
  all_goals carries

/-- **C98 refuted, Berman at the reference state.**  At exactly (Tr, Pr) the volume term is skipped: the Gibbs energy returned there carries
the pressure derivative of the uncorrected G, which is short of the derivative of the value by V/1e5. -/
theorem C98_berman_refuted (Tst Pr : ℝ) (ref tps : TPS) (hr : ConstS ref) (ht : tps.G.ddp = 0) (vc : List ℝ) (hV : ref.V.val ≠ 0)
    (f : ℝ → ℝ → TPS) (hf : ∀ t p, berman88 (TS.temperature t) (pbar p) Tst Pr ref vc tps = .ok (f t p)) :
    (f Tst Pr).G.ddp = 0 ∧ HasDerivAt (fun p => (f Tst p).G.val) (ref.V.val / 1e5 * (1 + vc.getD 1 0 * (Tst * Tst))) Pr ∧
    (vc.getD 1 0 = 0 → ¬ HasDerivAt (fun p => (f Tst p).G.val) (f Tst Pr).G.ddp Pr) := by
  by_cases hl : vc.length = 5
  swap
  · exact absurd (hf Tst Pr) (by simp [berman88, hl])
  obtain ⟨v0, v1, v2, v3, v4, rfl⟩ : ∃ v0 v1 v2 v3 v4, vc = [v0, v1, v2, v3, v4] := by
    match vc, hl with
    | [a, b, c, d, e], _ => exact ⟨a, b, c, d, e, rfl⟩
  have e0 : (f Tst Pr).G.ddp = 0 := by
    have := hf Tst Pr
    simp only [berman88, List.length_cons, List.length_nil, ne_eq, not_true, if_false, Nat.reduceAdd] at this
    rw [if_neg (by simp [val_pbar])] at this
    rw [← Res.ok.inj this]
    exact ht
  have hv : ∀ p, (f Tst p).G.val = tps.G.val + ref.V.val * ((p - Pr) / 1e5) + v1 * (ref.V.val * ((p - Pr) / 1e5)) * (Tst * Tst)
      + v3 * (ref.V.val * ((p - Pr) / 1e5)) * ((p - Pr) / 1e5) / 2
      + v4 * (ref.V.val * ((p - Pr) / 1e5)) * (((p - Pr) / 1e5) * ((p - Pr) / 1e5)) / 3 := by
    intro p
    have := hf Tst p
    simp only [berman88, List.length_cons, List.length_nil, ne_eq, not_true, if_false, Nat.reduceAdd] at this
    by_cases hp : p = Pr
    · subst hp
      rw [if_neg (by simp [val_pbar])] at this
      rw [← Res.ok.inj this]
      simp
    · rw [if_pos (Or.inl (pbar_ne hp))] at this
      rw [← Res.ok.inj this]
      simp [val_pbar]
      ring
  have d0 : HasDerivAt (fun p => (f Tst p).G.val) (ref.V.val / 1e5 * (1 + v1 * (Tst * Tst))) Pr := by
    simp only [hv]
    have h1 : HasDerivAt (fun p : ℝ => (p - Pr) / 1e5) (1 / 1e5) Pr := ((hasDerivAt_id' Pr).sub_const Pr).div_const _
    have h2 := h1.const_mul ref.V.val
    refine (((((h2.const_add tps.G.val).fun_add ((h2.const_mul v1).mul_const (Tst * Tst)))).fun_add
      (((h2.const_mul v3).fun_mul h1).div_const 2)).fun_add (((h2.const_mul v4).fun_mul (h1.fun_mul h1)).div_const 3)).congr_deriv ?_
    simp
    ring
  refine ⟨e0, d0, fun h1 h => hV ?_⟩
  rw [e0] at h
  have h3 := d0.unique h
  simp only [List.getD_cons_succ, List.getD_cons_zero] at h1
  rw [h1] at h3
  norm_num at h3
  exact h3

/-- The hypotheses hold for the record of the examples. -/
example : ConstS exRef ∧ exRef.G.ddp = 0 ∧ exRef.V.val ≠ 0 ∧
    ∀ t p, ∃ r, berman88 (TS.temperature t) (pbar p) 298.15 1e5 exRef [1e-5, 0, 0, -1e-6, 1e-12] exRef = .ok r := by
  refine ⟨exRef_const, rfl, by simp [exRef, exTS], fun t p => ?_⟩
  simp only [berman88, List.length_cons, List.length_nil, ne_eq, not_true, if_false, Nat.reduceAdd]
  split_ifs <;> exact ⟨_, rfl⟩

/-- **C98, Murnaghan.**  Everywhere but at the reference state, within the range in which the formulas are defined: positive temperature and
pressure and bulk modulus.  For records with a zero volume, expansivity or compressibility, also at the reference state. -/
theorem C98_murnaghan_partial (Tst Pr k0 a : ℝ) (ref : TPS) (hr : ConstS ref) (tps : ℝ → ℝ → TPS) (T P : ℝ) (h : CarriesS tps T P)
    (hT : 0 < T) (hP : 0 < P) (hk : 0 ≤ k0) (hk1 : 0 < 1 - 1.5e-4 * (T - Tst))
    (hne : (P ≠ Pr ∨ T ≠ Tst) ∨ ¬ (|ref.V.val| > 1e-9 ∧ |a * 1e-5| > 1e-9 ∧ |k0| > 1e-9)) :
    CarriesS (fun t p => murnaghan (TS.temperature t) (pbar p) Tst Pr ref k0 a (tps t p)) T P := by
  obtain ⟨hG, hA, hU, hH, hS, hV, hCp, hCv⟩ := h
  have hV' := Carries.const' hr.hV (T := T) (P := P)
  unfold murnaghan
  dsimp only
  by_cases hc : |ref.V.val| > 1e-9 ∧ |a * 1e-5| > 1e-9 ∧ |k0| > 1e-9
  · have hne := hne.resolve_right (not_not.mpr hc)
    have hk0 : 0 < k0 := by
      have : k0 ≠ 0 := fun h => by rw [h] at hc; norm_num at hc
      positivity
    apply CarriesS.ite
    swap
    · refine off_point (Q := fun t p => ((pbar p - Pr / 1e5).val ≠ 0 ∨ (TS.temperature t - Tst).val ≠ 0) ∧
        |ref.V.val| > 1e-9 ∧ |a * 1e-5| > 1e-9 ∧ |k0| > 1e-9) (fun t p hn => ⟨?_, hc⟩) hne
      rcases hn with hn | hn
      · exact Or.inl (pbar_ne hn)
      · exact Or.inr (by simpa [sub_eq_zero] using hn)
    have hT0 := hT.ne'
    have s1 : ((1 : ℝ) - (1.5e-4 : ℝ) * (TS.temperature T - Tst)).val ≠ 0 := by simpa using hk1.ne'
    have s2 : (k0 * ((1 : ℝ) - (1.5e-4 : ℝ) * (TS.temperature T - Tst))).val ≠ 0 := by simpa using ⟨hk0.ne', hk1.ne'⟩
    have hkap : 0 < k0 * (1 - 1.5e-4 * (T - Tst)) := mul_pos hk0 hk1
    have hpk : 0 < P / 1e5 / 1000 := by positivity
    have s3 : (k0 * ((1 : ℝ) - (1.5e-4 : ℝ) * (TS.temperature T - Tst)) + (4 : ℝ) * (pbar P / (1000 : ℝ))).val ≠ 0 := by
      simp only [TS.op_val_add, TS.op_val_mulL, TS.op_val_subL, TS.op_val_subR, TS.val_temperature, TS.op_val_divR, val_pbar]
      positivity
    have s4 : ((1 : ℝ) + (4 : ℝ) * (pbar P / (1000 : ℝ)) / (k0 * ((1 : ℝ) - (1.5e-4 : ℝ) * (TS.temperature T - Tst)))).val ≠ 0 := by
      simp only [TS.op_val_addL, TS.op_val_div, TS.op_val_mulL, TS.op_val_subL, TS.op_val_subR, TS.val_temperature, TS.op_val_divR, val_pbar]
      positivity
    have s5 : ((1 : ℝ) - (4 : ℝ) * (pbar P / (1000 : ℝ)) / (k0 * ((1 : ℝ) - (1.5e-4 : ℝ) * (TS.temperature T - Tst))
        + (4 : ℝ) * (pbar P / (1000 : ℝ)))).val ≠ 0 := by
      simp only [TS.op_val_addL, TS.op_val_add, TS.op_val_div, TS.op_val_mulL, TS.op_val_subL, TS.op_val_subR, TS.val_temperature, TS.op_val_divR, val_pbar]
      have : k0 * (1 - 1.5e-4 * (T - Tst)) + 4 * (P / 1e5 / 1000) ≠ 0 := by positivity
      rw [one_sub_div this]
      have e : k0 * (1 - 1.5e-4 * (T - Tst)) + 4 * (P / 1e5 / 1000) - 4 * (P / 1e5 / 1000) = k0 * (1 - 1.5e-4 * (T - Tst)) := by ring
      rw [e]
      positivity
    constructor <;> dsimp only
    all_goals carries
    all_goals first
      | assumption
      | exact Or.inl hT0
      | exact Or.inl s1
      | exact Or.inl s4
      | exact Or.inl s5
      | exact Or.inr (by norm_num)
      | (simp only [TS.val_powR, TS.op_val_mulR, TS.val_temperature]; positivity)
      | (simp only [TS.val_powR, TS.op_val_mulR, TS.val_temperature, TS.op_val_subL, TS.op_val_mulL, TS.op_val_subR]; positivity)
  · apply CarriesS.ite_neg
    swap
    · exact ⟨fun h => hc h.2, .of_forall fun _ h => hc h.2, .of_forall fun _ h => hc h.2⟩
    constructor <;> dsimp only
    all_goals carries

/-- The hypotheses of `C98_murnaghan_partial` hold for the mineral of the examples at 300 K and 1 kbar. -/
example : CarriesS (fun t p => murnaghan (TS.temperature t) (pbar p) 298.15 1e5 exRef 750 1e-5
    (okOr (empCpIntegration (twoIntervals.data 298.15 exRef exRef) t))) 300 1e8 :=
  C98_murnaghan_partial 298.15 1e5 750 1e-5 exRef exRef_const _ 300 1e8
    (C98_empCp_partial _ twoIntervals_ok 298.15 (by norm_num) exRef exRef exRef_const exRef_const 300 1e8 (by norm_num)
      ⟨by decide, Or.inl (by norm_num [twoIntervals])⟩)
    (by norm_num) (by norm_num) (by norm_num) (by norm_num) (Or.inl (Or.inl (by norm_num)))

/-! ### Aqueous species -/

/-- The Born functions of the solvent carry their derivatives. -/
structure CarriesE (e : ℝ → ℝ → ESolv) (T P : ℝ) : Prop where
  hZ : Carries (fun t p => (e t p).bornZ) T P
  hY : Carries (fun t p => (e t p).bornY) T P
  hQ : Carries (fun t p => (e t p).bornQ) T P
  hX : Carries (fun t p => (e t p).bornX) T P

/-- The Born coefficient of a species carries its derivatives. -/
structure CarriesB (e : ℝ → ℝ → ESub) (T P : ℝ) : Prop where
  hw : Carries (fun t p => (e t p).w) T P
  hwT : Carries (fun t p => (e t p).wT) T P
  hwP : Carries (fun t p => (e t p).wP) T P
  hwTT : Carries (fun t p => (e t p).wTT) T P

lemma hkf_side (T P : ℝ) (hT : 0 < T) (hP : 0 < P) (hθ : HKF.theta < T) :
    T ≠ 0 ∧ (TS.temperature T - HKF.theta).val ≠ 0 ∧ (HKF.psi + pbar P).val ≠ 0 ∧ ((HKF.psi + pbar P) / (HKF.psi + HKF.Pr)).val ≠ 0 ∧
    (TS.temperature T / HKF.Tr).val ≠ 0 ∧
    (HKF.Tr / TS.temperature T * (TS.temperature T - HKF.theta) / (HKF.Tr - HKF.theta)).val ≠ 0 ∧
    (HKF.Tr * (TS.temperature T - HKF.theta) / TS.temperature T / (HKF.Tr - HKF.theta)).val ≠ 0 ∧
    ((HKF.Tr * (TS.temperature T - HKF.theta)) / (TS.temperature T * (HKF.Tr - HKF.theta))).val ≠ 0 ∧
    (TS.temperature T * (HKF.Tr - HKF.theta)).val ≠ 0 := by
  have h1 : 0 < T - HKF.theta := sub_pos.mpr hθ
  have h2 : 0 < HKF.Tr - HKF.theta := by norm_num [HKF.Tr, HKF.theta]
  have h3 : 0 < HKF.psi := by norm_num [HKF.psi]
  have h4 : 0 < HKF.Pr := by norm_num [HKF.Pr]
  have h5 : 0 < HKF.Tr := by norm_num [HKF.Tr]
  refine ⟨hT.ne', ?_, ?_, ?_, ?_, ?_, ?_, ?_, ?_⟩ <;>
    simp only [TS.op_val_addL, TS.op_val_div, TS.op_val_mulL, TS.op_val_mulR, TS.op_val_mul, TS.op_val_subL, TS.op_val_subR, TS.val_temperature,
      TS.op_val_divR, TS.op_val_divL, val_pbar] <;> positivity

/-- **C98, Helgeson-Kirkham-Flowers (Reaktoro implementation).** -/
theorem C98_hkfReaktoro (hkf : List ℝ) (ref : TPS) (hr : ConstS ref) (aes : ℝ → ℝ → ESub) (wes : ℝ → ℝ → ESolv) (T P : ℝ)
    (hP : 0 < P) (hθ : 228 < T) (ha : CarriesB aes T P) (hw : CarriesE wes T P) (f : ℝ → ℝ → TPS)
    (hf : ∀ t p, hkfReaktoro (TS.temperature t) (pbar p) hkf ref (aes t p) (wes t p) = .ok (f t p)) : CarriesS f T P := by
  obtain ⟨b1, b2, b3, b4⟩ := ha
  obtain ⟨w1, w2, w3, w4⟩ := hw
  have hT : 0 < T := by linarith
  obtain ⟨s1, s2, s3, s4, s5, s6, s7, s8, s9⟩ := hkf_side T P hT hP (by norm_num [HKF.theta]; exact hθ)
  have r1 := Carries.const' hr.hG (T := T) (P := P)
  have r2 := Carries.const' hr.hH (T := T) (P := P)
  have r3 := Carries.const' hr.hS (T := T) (P := P)
  have p2 : ∀ c : ℝ, (TS.powR (TS.temperature T - HKF.theta) c).val ≠ 0 := by
    intro c
    have : 0 < T - HKF.theta := by norm_num [HKF.theta]; exact hθ
    simp only [TS.val_powR, TS.op_val_subR, TS.val_temperature]
    positivity
  match hkf, hf with
  | [], hf => exact absurd (hf T P) (by simp [hkfReaktoro])
  | [_], hf => exact absurd (hf T P) (by simp [hkfReaktoro])
  | [_, _], hf => exact absurd (hf T P) (by simp [hkfReaktoro])
  | [_, _, _], hf => exact absurd (hf T P) (by simp [hkfReaktoro])
  | [_, _, _, _], hf => exact absurd (hf T P) (by simp [hkfReaktoro])
  | [_, _, _, _, _], hf => exact absurd (hf T P) (by simp [hkfReaktoro])
  | [_, _, _, _, _, _], hf => exact absurd (hf T P) (by simp [hkfReaktoro])
  | a1 :: a2 :: a3 :: a4 :: c1 :: c2 :: wr :: rest, hf =>
    obtain rfl : f = fun t p => _ := by
      funext t p
      exact (Res.ok.inj (hf t p)).symm
    clear hf
    constructor <;> dsimp only
    all_goals carries
    all_goals first
      | assumption
      | exact p2 _
      | exact Or.inl s2

/-- **C98, Helgeson-Kirkham-Flowers (GEMS implementation).**  `t - 273.15` is the temperature in °C the implementation is given. -/
theorem C98_hkfGems (hkf : List ℝ) (ref : TPS) (hr : ConstS ref) (aes : ℝ → ℝ → ESub) (wes : ℝ → ℝ → ESolv) (T P : ℝ)
    (hP : 0 < P) (hθ : 228 < T) (ha : CarriesB aes T P) (hw : CarriesE wes T P) (f : ℝ → ℝ → TPS)
    (hf : ∀ t p, hkfGems (TS.temperature t - (273.15 : ℝ)) (pbar p) hkf ref (aes t p) (wes t p) = .ok (f t p)) : CarriesS f T P := by
  obtain ⟨b1, b2, b3, b4⟩ := ha
  obtain ⟨w1, w2, w3, w4⟩ := hw
  have hT : 0 < T := by linarith
  obtain ⟨s1, s2, s3, s4, s5, s6, s7, s8, s9⟩ := hkf_side T P hT hP (by norm_num [HKF.theta]; exact hθ)
  have r1 := Carries.const' hr.hG (T := T) (P := P)
  have r2 := Carries.const' hr.hH (T := T) (P := P)
  have r3 := Carries.const' hr.hS (T := T) (P := P)
  have p2 : ∀ c : ℝ, (TS.powR (TS.temperature T - HKF.theta) c).val ≠ 0 := by
    intro c
    have : 0 < T - HKF.theta := by norm_num [HKF.theta]; exact hθ
    simp only [TS.val_powR, TS.op_val_subR, TS.val_temperature]
    positivity
  have p3 : ((1 : ℝ) / (TS.temperature T - HKF.theta)).val ≠ 0 := by
    simpa using s2
  have eT : ∀ t : ℝ, TS.temperature ((TS.temperature t - (273.15 : ℝ)).val + 273.15) = TS.temperature t := by
    intro t; simp
  match hkf, hf with
  | [], hf => exact absurd (hf T P) (by simp [hkfGems])
  | [_], hf => exact absurd (hf T P) (by simp [hkfGems])
  | [_, _], hf => exact absurd (hf T P) (by simp [hkfGems])
  | [_, _, _], hf => exact absurd (hf T P) (by simp [hkfGems])
  | [_, _, _, _], hf => exact absurd (hf T P) (by simp [hkfGems])
  | [_, _, _, _, _], hf => exact absurd (hf T P) (by simp [hkfGems])
  | [_, _, _, _, _, _], hf => exact absurd (hf T P) (by simp [hkfGems])
  | a1 :: a2 :: a3 :: a4 :: c1 :: c2 :: wr :: rest, hf =>
    simp only [hkfGems, eT] at hf
    obtain rfl : f = fun t p => _ := by
      funext t p
      exact (Res.ok.inj (hf t p)).symm
    clear hf
    constructor <;> dsimp only
    all_goals carries
    all_goals first
      | assumption
      | exact p2 _
      | exact Or.inl s2
      | exact Or.inl p3

/-- **C98, Anderson et al.** -/
theorem C98_an91 (T298 : ℝ) (ref : TPS) (wpr : Solv) (wp : ℝ → ℝ → Solv) (T P : ℝ) (hρ : 0 < (wp T P).density.val) (hr : 0 < wpr.density.val)
    (hw : CarriesW wp T P) : CarriesS (fun t p => anderson91Entry t p T298 ref wpr (wp t p)) T P := by
  obtain ⟨h1, h2, h3, h4⟩ := hw
  have s1 : ((wp T P).density / (1000 : ℝ) / (wpr.density.val / 1000 : ℝ)).val ≠ 0 := by
    simp only [TS.op_val_divR]; positivity
  constructor <;> dsimp only [anderson91Entry, anderson91, TPS.default]
  all_goals carries
  all_goals assumption

/-- The hypotheses of the theorems of this section hold at 400 K and 100 bar. -/
example : CarriesS (fun t p => anderson91Entry t p 298.15 exRef (exSolv3 298.15 1e5) (exSolv3 t p)) 400 1e7 :=
  C98_an91 298.15 exRef _ _ 400 1e7 (by simp [exSolv3]; positivity) (by simp [exSolv3]; positivity) (exSolv3_ok _ _)

/-- A neutral species in a solvent whose Born functions change with T and P satisfies the hypotheses of the two theorems. -/
example :
    let aes : ℝ → ℝ → ESub := fun _ _ => ⟨TS.assign TS.default 3000, TS.default, TS.default, TS.default, TS.default, TS.default⟩
    let wes : ℝ → ℝ → ESolv := fun t p => ⟨(-0.01 : ℝ) * TS.temperature t, (-1e-5 : ℝ) * TS.temperature t, (1e-7 : ℝ) * pbar p, TS.default⟩
    ∃ f g : ℝ → ℝ → TPS, (∀ t p, hkfReaktoro (TS.temperature t) (pbar p) [1, 2, 3, 4, 5, 6, 7] exRef (aes t p) (wes t p) = .ok (f t p)) ∧
      (∀ t p, hkfGems (TS.temperature t - (273.15 : ℝ)) (pbar p) [1, 2, 3, 4, 5, 6, 7] exRef (aes t p) (wes t p) = .ok (g t p)) ∧
      CarriesS f 400 1e7 ∧ CarriesS g 400 1e7 := by
  intro aes wes
  have h1 : CarriesB aes 400 1e7 := ⟨.assign _, .default, .default, .default⟩
  have h2 : CarriesE wes 400 1e7 := by constructor <;> dsimp only [wes] <;> carries
  exact ⟨fun t p => _, fun t p => _, fun t p => rfl, fun t p => rfl,
    C98_hkfReaktoro [1, 2, 3, 4, 5, 6, 7] exRef exRef_const aes wes 400 1e7 (by norm_num) (by norm_num) h1 h2 _ fun t p => rfl,
    C98_hkfGems [1, 2, 3, 4, 5, 6, 7] exRef exRef_const aes wes 400 1e7 (by norm_num) (by norm_num) h1 h2 _ fun t p => rfl⟩

end ThermoFun
