import Verif.Props.VantHoff
import Verif.Props.EmpCp
import Verif.Props.SubstanceP
import Verif.Model.EngineReal

/-!
# Minerals, from the record to the equilibrium constant

Theorems about the engine (Model/Engine.lean) with the numeric models of the other files plugged in (Model/EngineReal.lean): reactions between
minerals whose heat capacity is integrated over intervals of temperature and whose volume is constant (C110).
-/

namespace ThermoFun.Engine

open Filter Topology

/-- A record of a mineral: calculated by its own methods, `cp_ft_equation` for the temperature and constant volume for the pressure. -/
structure Mineral (x : Subst) : Prop where
  notH : x.symbol ≠ "H+"
  own : x.reacdc = false
  solute : x.cls ≠ .AQSOLVENT
  gen : x.gen = .CPT
  noLandau : x.mT ≠ .CHP
  vol : x.mP = .CON
  hasV : x.ref.V.has

/-- The record states a table of heat capacities. -/
def HasTable (x : Subst) (t : CpTable) : Prop :=
  x.params.cpCoeffs = (List.range t.n).map t.c ∧ x.params.intervals = ((List.range t.n).map fun j => [t.b j, t.b (j + 1)]) ∧
    x.params.transitions = ((List.range (t.n - 1)).map fun j => [t.b (j + 1), t.dS j, t.dH j, t.dV j])

lemma HasTable.data {x : Subst} {t : CpTable} (h : HasTable x t) : x.cpData = t.data x.refT x.ref TPS.default := by
  simp [Subst.cpData, CpTable.data, h.1, h.2.1, h.2.2]

/-- Along the table, G - H + T S keeps the value of the reference state, if each transition is at equilibrium (dH = T dS). -/
lemma table_gibbs {t : CpTable} (ht : t.Ok) {Tr : ℝ} (hTr : 0 < Tr) (x0 : Tot) {k : ℕ} (hk : ∀ j < k, t.dH j = t.b (j + 1) * t.dS j) :
    let e := t.entry Tr x0 k
    e.G - e.H + t.start Tr k * e.S = x0.G - x0.H + Tr * x0.S := by
  induction k with
  | zero => simp [CpTable.entry, CpTable.start]
  | succ k ih =>
    have h1 := ih fun j hj => hk j (by omega)
    have h2 := hk k (by omega)
    have h3 := emp_val_G (t.coefs k) (t.b (k + 1)) (t.start Tr k) (ht.bpos _) (start_pos ht hTr k)
    simp only [CpTable.entry, CpTable.run] at h1 ⊢
    rw [show t.start Tr (k + 1) = t.b (k + 1) by simp [CpTable.start], h2, h3, ← h1]
    ring

lemma run_gibbs {t : CpTable} (ht : t.Ok) {Tr : ℝ} (hTr : 0 < Tr) {T : ℝ} (hT : 0 < T) (ref : TPS) {k : ℕ} (h : t.At T k)
    (hk : ∀ j < k, t.dH j = t.b (j + 1) * t.dS j) :
    let r := okOr (empCpIntegration (t.data Tr ref TPS.default) T)
    r.G.val - r.H.val + T * r.S.val = ref.G.val - ref.H.val + Tr * ref.S.val := by
  obtain ⟨-, -, g1, g2, g3, -⟩ := okOr_vals t ht Tr ref TPS.default T k h
  have e := table_gibbs ht hTr (refTot ref) hk
  have h3 := emp_val_G (t.coefs k) T (t.start Tr k) hT (start_pos ht hTr k)
  simp only [refTot] at e ⊢
  simp only [refTot] at g1 g2 g3
  rw [g1, g2, g3, h3, ← e]
  ring

/-- The convention of the engine is that of Berman and Brown. -/
def bermanBrown {PS EPS : Type} (env : Env PS EPS) : Bool := iequals env.apparentProperties.toList "BERMAN_BROWN".toList

/-- What the models give for a mineral. -/
noncomputable def mineralTPS {PS EPS : Type} (env : Env PS EPS) (x : Subst) (T P : ℝ) : TPS :=
  let t := conMolVol T P x.ref x.refP (okOr (empCpIntegration x.cpData T))
  if bermanBrown env then toBermanBrown t x env.db.elemEntropy else t

variable {base : Models PSolv ESolv} {env : Env PSolv ESolv} {N : Nat}

/-- What the engine answers for a mineral. -/
lemma answer_mineral (hm : env.mods = real base) (h : Regular env N) (hfb : env.fallback = false) {y : String} {x : Subst}
    (hy : env.db.subs.lookup y = some x) (hx : Mineral x) {T P : ℝ} (ht : ∃ r, empCpIntegration x.cpData T = .ok r) :
    answer env N (.sub T P y) = .ok (.sub (mineralTPS env x T P)) := by
  obtain ⟨r, hr⟩ := ht
  have hN : 4 ≤ N := by obtain ⟨-, R, -, -, hN⟩ := h.ranked; omega
  obtain ⟨n, rfl⟩ : ∃ n, N = n + 1 := ⟨N - 1, by omega⟩
  have hsub : ∀ s : ESt PSolv ESolv, (substRec env (run env n) T P x s).1 = .ok (mineralTPS env x T P) := by
    intro s
    have hown : x.isReacDC = false := by simp [Subst.isReacDC, Subst.noMethods, hx.own, hx.gen]
    have hsolv : x.isSolvent = false := by simp [Subst.isSolvent, hx.solute]
    have hvap : x.isVapor = false := by simp [Subst.isVapor, hx.gen]
    have e1 : ∀ s : ESt PSolv ESolv, eosStep env T P x s = (.ok r, s) := by
      intro s
      unfold eosStep
      rw [hx.gen]
      simp only [hm, real, EM.lift, hr]
    have e2 : ∀ s : ESt PSolv ESolv, tStep env T P x r s = (.ok r, s) := by
      intro s
      have := hx.noLandau
      have hg := hx.gen
      unfold tStep
      cases hT : x.mT <;> first | exact absurd hT this | simp only [hg, ne_eq, not_true_eq_false, if_false] <;> rfl
    have e3 : ∀ s : ESt PSolv ESolv, pStep env (run env n) T P x r s = (.ok (conMolVol T P x.ref x.refP r), s) := by
      intro s
      unfold pStep
      have e0 : EM.read (·.pcorr) s = (.ok s.pcorr, s) := rfl
      rw [bind_run e0, if_neg (by simp [hx.gen]), hx.vol]
      simp only [hm, real, EM.lift]
    have e4 : ∀ s : ESt PSolv ESolv, methodsStep env (run env n) T P x s = (.ok (mineralTPS env x T P), s) := by
      intro s
      unfold methodsStep
      rw [if_pos ⟨hsolv, hvap⟩]
      have : (do
          let a ← eosStep env T P x
          let b ← tStep env T P x a
          pStep env (run env n) T P x b : EM PSolv ESolv TPS) s = (.ok (conMolVol T P x.ref x.refP r), s) := by
        rw [bind_run (e1 s), bind_run (e2 s), e3 s]
      rw [bind_run this]
      unfold convStep mineralTPS bermanBrown
      rw [hsolv, hr, okOr]
      simp only [Bool.false_eq_true, if_false]
      split <;> rfl
    unfold substRec
    have e5 : setPrefs env x s = (.ok (), (setPrefs env x s).2) := rfl
    rw [bind_run e5, if_neg hx.notH, hown]
    have e6 : (if (false : Bool) then reacDC env (run env n) T P x else methodsStep env (run env n) T P x) = methodsStep env (run env n) T P x := rfl
    rw [e6, bind_run (e4 _), hfb]
    rfl
  refine ((h.sub_coh T P y (s := ESt.init) (cohSt_init env)).2 _).1 ?_
  have hc : ∀ s : ESt PSolv ESolv, ((getSub env y >>= fun v => substRec env (run env n) T P v : EM PSolv ESolv TPS) s).1 = .ok (mineralTPS env x T P) := by
    intro s
    have e1 : getSub env y s = (.ok x, s) := by unfold getSub; rw [hy]; rfl
    rw [bind_run e1]
    exact hsub s
  show (cached env ESt.subC (fun c s => { s with subC := c }) _ _ _).1 = _
  unfold cached
  split
  · have hs := hc { (ESt.init : ESt PSolv ESolv) with subC := Cache.evict env.maxCache (ESt.init : ESt PSolv ESolv).subC }
    have hf : (Cache.evict env.maxCache (ESt.init : ESt PSolv ESolv).subC).find ⟨T, P, y⟩ = none := by
      unfold Cache.evict Cache.find ESt.init
      split <;> rfl
    simp only [hf]
    split
    · rename_i v s' e
      rw [e] at hs
      exact hs
    · exact hs
  · exact hc _

/-- The data of a mineral hang together: a table of heat capacities without tenth coefficient in the interval of `T0`, transitions at equilibrium
(dH = T dS), and G = H - Tr (S - S of the elements) at the reference temperature `Tr`. -/
structure Sound (env : Env PSolv ESolv) (Tr T0 : ℝ) (x : Subst) : Prop where
  refT : x.refT = Tr
  table : ∃ (t : CpTable) (k : ℕ), HasTable x t ∧ t.Ok ∧ t.Inside T0 k ∧ t.coefs k 9 = 0 ∧ ∀ j < k, t.dH j = t.b (j + 1) * t.dS j
  gibbs : x.ref.G.val = x.ref.H.val - Tr * (x.ref.S.val - env.db.elemEntropy x.formula)

lemma mineral_ev {Tr T0 : ℝ} {x : Subst} (hs : Sound env Tr T0 x) : ∀ᶠ T in 𝓝 T0, ∃ r, empCpIntegration x.cpData T = .ok r := by
  obtain ⟨t, k, h1, h2, h3, -, -⟩ := hs.table
  filter_upwards [inside_ev t T0 k h3] with T hT
  rw [h1.data]
  exact ⟨_, (okOr_vals t h2 x.refT x.ref TPS.default T k hT).1⟩

/-- The properties of one mineral belong together. -/
lemma mineral_facts {Tr T0 : ℝ} (hT0 : 0 < T0) (hTr : 0 < Tr) {x : Subst} (hx : Mineral x) (hs : Sound env Tr T0 x) (P : ℝ) :
    let f := mineralTPS env x
    HasDerivAt (fun T => (f T P).G.val) (-(f T0 P).S.val) T0 ∧ HasDerivAt (fun T => (f T P).H.val) (f T0 P).Cp.val T0 ∧
      (f T0 P).G.val = (f T0 P).H.val - T0 * (f T0 P).S.val + (if bermanBrown env then 0 else Tr * env.db.elemEntropy x.formula) ∧
      HasDerivAt (fun P => (f T0 P).G.val) ((f T0 P).V.val / 1e5) P := by
  intro f
  obtain ⟨t, k, h1, h2, h3, h4, h5⟩ := hs.table
  obtain ⟨d1, d2, d3⟩ := C29_reported_partial t h2 x.refT (by rw [hs.refT]; exact hTr) x.ref TPS.default T0 hT0 k h3 h4
  have g := run_gibbs h2 (Tr := x.refT) (by rw [hs.refT]; exact hTr) hT0 x.ref (inside_ev t T0 k h3).self_of_nhds h5
  rw [← h1.data] at d1 d2 d3 g
  have c := fun T P => (C33_constant_volume T P x.refP x.ref (okOr (empCpIntegration x.cpData T))).1 hx.hasV
  have eG : ∀ T P, (f T P).G.val = (okOr (empCpIntegration x.cpData T)).G.val + x.ref.V.val * (P - x.refP) / 1e5 -
      (if bermanBrown env then Tr * env.db.elemEntropy x.formula else 0) := by
    intro T P
    rw [← (c T P).1]
    simp only [f, mineralTPS]
    split
    · simp [toBermanBrown, TS.subAssignD, hs.refT]
    · simp
  have eH : ∀ T P, (f T P).H.val = (okOr (empCpIntegration x.cpData T)).H.val + x.ref.V.val * (P - x.refP) / 1e5 := by
    intro T P
    rw [← (c T P).2.1]
    simp only [f, mineralTPS]
    split <;> rfl
  have eV : ∀ T P, (f T P).V.val = x.ref.V.val := by
    intro T P
    rw [← (c T P).2.2.1]
    simp only [f, mineralTPS]
    split <;> rfl
  have eS : ∀ T P, (f T P).S.val = (okOr (empCpIntegration x.cpData T)).S.val := by
    intro T P
    rw [← (c T P).2.2.2.1]
    simp only [f, mineralTPS]
    split <;> rfl
  have eC : ∀ T P, (f T P).Cp.val = (okOr (empCpIntegration x.cpData T)).Cp.val := by
    intro T P
    rw [← (c T P).2.2.2.2.1]
    simp only [f, mineralTPS]
    split <;> rfl
  refine ⟨?_, ?_, ?_, ?_⟩
  · simp only [eG, eS]
    exact (d3.add_const _).sub_const _
  · simp only [eH, eC]
    exact d1.add_const _
  · have hg := hs.gibbs
    rw [eG, eH, eS]
    rw [hs.refT] at g
    split <;> linarith
  · simp only [eG, eV]
    exact (((((hasDerivAt_id' P).sub_const x.refP).const_mul x.ref.V.val).div_const 1e5).const_add _ |>.sub_const _).congr_deriv (by ring)

/-- **C110** From the records to the equilibrium constant: for a reaction between minerals whose data hang together, balanced in the elements,
the engine gives an answer near `T0` for all pressures, after any histories; in the answers dG/dT = -S, dH/dT = Cp, G = H - T S,
dG/dP = V, d ln K/dT = H/(R T²) and d ln K/dP = -V/(R T), in both conventions for the Gibbs energy. -/
theorem C110_minerals (hm : env.mods = real base) (h : Regular env N) (hfb : env.fallback = false) {x : Reac} {Tr T0 : ℝ} (hTr : 0 < Tr)
    (hT0 : 0 < T0) {v : String → Subst} (hv : ∀ e ∈ x.reactants, env.db.subs.lookup e.1 = some (v e.1) ∧ Mineral (v e.1) ∧ Sound env Tr T0 (v e.1))
    (hb : (x.reactants.map fun e => e.2 * env.db.elemEntropy (v e.1).formula).sum = 0)
    {q : ℝ → ℝ → Query} (hq : ∀ T P, FromSpecies env T P x (q T P)) {K : Nat} {qs : ℝ → ℝ → List Query}
    (hqs : ∀ T P, ∀ q ∈ qs T P, NoGasQuery q) :
    ∃ t : ℝ → ℝ → TPR, (∀ᶠ T in 𝓝 T0, ∀ P, (ask env N (q T P) (after env K ESt.init (qs T P))).1 = .ok (.reac (t T P))) ∧ ∀ P,
      HasDerivAt (fun T => (t T P).G.val) (-(t T0 P).S.val) T0 ∧ HasDerivAt (fun T => (t T P).H.val) (t T0 P).Cp.val T0 ∧
      (t T0 P).G.val = (t T0 P).H.val - T0 * (t T0 P).S.val ∧
      HasDerivAt (fun T => (t T P).lnK.val) ((t T0 P).H.val / (8.31451 * T0 ^ 2)) T0 ∧
      HasDerivAt (fun P => (t T0 P).G.val) ((t T0 P).V.val / 1e5) P ∧
      HasDerivAt (fun P => (t T0 P).lnK.val) (-((t T0 P).V.val / 1e5) / (8.31451 * T0)) P := by
  classical
  have hf : ∀ l : List (String × ℝ), (∀ e ∈ l, e ∈ x.reactants) → ∀ᶠ T in 𝓝 T0, ∀ e ∈ l, ∀ P,
      answer env N (.sub T P e.1) = .ok (.sub (mineralTPS env (v e.1) T P)) := by
    intro l hl
    induction l with
    | nil => exact Eventually.of_forall fun T e he => by cases he
    | cons e l ih =>
      obtain ⟨h1, h2, h3⟩ := hv e (hl e List.mem_cons_self)
      filter_upwards [mineral_ev h3, ih fun e he => hl e (List.mem_cons_of_mem _ he)] with T a b e' he' P
      rcases List.mem_cons.mp he' with rfl | he'
      · exact answer_mineral hm h hfb h1 h2 a
      · exact b _ he' P
  have hf := hf x.reactants fun e he => he
  have hex : ∀ᶠ T in 𝓝 T0, ∀ P, ∃ t, (ask env N (q T P) (after env K ESt.init (qs T P))).1 = .ok (.reac t) := by
    filter_upwards [hf] with T hT P
    refine C109_answers h (hq T P) (hqs T P) (f := fun y => mineralTPS env (v y) T P) fun e he => ⟨⟨v e.1, (hv e he).1, ?_⟩, hT e he P⟩
    simp [Subst.noMethods, (hv e he).2.1.gen]
  let t : ℝ → ℝ → TPR := fun T P => if h : ∃ t, (ask env N (q T P) (after env K ESt.init (qs T P))).1 = .ok (.reac t) then h.choose else TPR.default
  have ht : ∀ᶠ T in 𝓝 T0, ∀ P, (ask env N (q T P) (after env K ESt.init (qs T P))).1 = .ok (.reac (t T P)) := by
    filter_upwards [hex] with T hT P
    simp only [t, dif_pos (hT P)]
    exact (hT P).choose_spec
  refine ⟨t, ht, fun P => ?_⟩
  have facts := fun e he P => mineral_facts hT0 hTr (hv e he).2.1 (hv e he).2.2 P
  obtain ⟨r1, r2, r3, r4⟩ := C109_vantHoff h hT0 (hq := fun T => hq T P) (qs := fun T => qs T P) (fun T => hqs T P) (t := fun T => t T P)
    (ht.mono fun T h => h P) (f := fun y T => mineralTPS env (v y) T P) (fun e he => hf.mono fun T h => h e he P)
    (fun e he => (facts e he P).1) (fun e he => (facts e he P).2.1)
    (c := fun y => if bermanBrown env then 0 else Tr * env.db.elemEntropy (v y).formula) (fun e he => (facts e he P).2.2.1) (by
      split
      · simp
      · have : (x.reactants.map fun e => e.2 * (Tr * env.db.elemEntropy (v e.1).formula)) =
            (x.reactants.map fun e => e.2 * env.db.elemEntropy (v e.1).formula).map (Tr * ·) := by
          rw [List.map_map]; exact List.map_congr_left fun e _ => by simp only [Function.comp]; ring
        rw [this, List.sum_map_mul_left, List.map_id', hb, mul_zero])
  obtain ⟨p1, p2⟩ := C109_planck h (T := T0) (P0 := P) (hq T0) (hqs T0) (t := t T0) (Eventually.of_forall ht.self_of_nhds)
    (f := fun y P => mineralTPS env (v y) T0 P) (Eventually.of_forall fun P e he => hf.self_of_nhds e he P) (fun e he => (facts e he P).2.2.2)
  exact ⟨r1, r2, r3, r4, p1, p2⟩

/-! ### An example -/

/-- No definition by reactions and no Akinfiev-Diamond solutes: the conditions are met. -/
lemma regular_of_own {PS EPS : Type} {env : Env PS EPS} (hw : (env.db.subs.lookup "H2O@").isSome)
    (hv : ∀ y v, env.db.subs.lookup y = some v → NoGasModel v ∧ v.isReacDC = false ∧ v.mP ≠ .AKI) {N : Nat} (hN : 4 ≤ N) : Regular env N where
  water := hw
  noGas y v h := (hv y v h).1
  ranked := by
    refine ⟨fun _ => 0, 0, ⟨fun y z hz => ?_, fun y v hy hd => ?_⟩, fun _ => le_rfl, hN⟩
    · cases hz with
      | other v re hy _ hd => rw [(hv y v hy).2.1] at hd; cases hd
      | species v re hy _ hd => rw [(hv y v hy).2.1] at hd; cases hd
      | solvent v hy _ _ ha => exact absurd ha (hv y v hy).2.2
    · have := (hv y v hy).2.1
      simp [Subst.isReacDC, hd] at this

/-- Water models that are never called. -/
noncomputable def noWater : Models PSolv ESolv where
  ps0 := ⟨⟨TS.default, TS.default, TS.default, TS.default⟩, TS.default, TS.default, TS.default, TS.default, TS.default⟩
  eps0 := ⟨TS.default, TS.default, TS.default, TS.default⟩
  cpt _ _ _ := .throw
  hkf _ _ _ _ _ := .throw
  hkfr _ _ _ _ _ := .throw
  hp98 _ _ _ _ _ := .throw
  an91 _ _ _ _ _ := .throw
  chp _ _ _ _ := .throw
  cst _ _ _ := .throw
  aki _ _ _ _ _ _ _ _ _ _ := .throw
  woolley _ _ _ := .throw
  ceh _ _ _ _ := .throw
  vbe _ _ _ _ := .throw
  vbm _ _ _ _ := .throw
  cork _ _ _ _ _ := .throw
  prsv _ _ _ _ _ := .throw
  emp _ _ _ _ _ := .throw
  srk _ _ _ _ _ := .throw
  pr78 _ _ _ _ _ := .throw
  stp _ _ _ _ _ := .throw
  off _ _ _ _ _ := .throw
  con _ _ _ _ := .throw
  wat _ _ _ _ _ := .throw
  war _ _ _ _ _ := .throw
  wwp _ _ _ _ _ := .throw
  wzd _ _ _ _ := .throw
  watPS _ _ _ _ := .throw
  warPS _ _ _ _ := .throw
  wwpPS _ _ _ _ := .throw
  wzdPS _ _ _ _ := .throw
  wjnr _ _ _ _ _ := .throw
  wjng _ _ _ _ := .throw
  wsv14 _ _ _ _ := .throw
  wf97 _ _ _ _ := .throw
  logk _ _ _ _ := .throw
  dmd _ _ _ _ := .throw
  dkr _ _ _ _ := .throw
  mrb _ _ _ _ := .throw
  volft _ _ _ := .throw

/-- A mineral with the two intervals of Props/EmpCp.lean, a transition at 800 K and the reference properties H, S, V. -/
noncomputable def exMineral (sym : String) (Sel H S V : ℝ) : Subst :=
  ⟨sym, sym, "", 298.15, 1e5, .CPT, .unset, .CON, .other, false, false,
    { TPS.default with G := asg (H - 298.15 * (S - Sel)), H := asg H, S := asg S, V := asg V }, 0,
    { cpCoeffs := (List.range 2).map twoIntervals.c, intervals := (List.range 2).map fun j => [twoIntervals.b j, twoIntervals.b (j + 1)],
      transitions := (List.range 1).map fun j => [twoIntervals.b (j + 1), twoIntervals.dS j, twoIntervals.dH j, twoIntervals.dV j] }⟩

/-- Two minerals, "A" and "B", the second of twice the composition of the first, and the reaction 2 A = B. -/
noncomputable def exMin (conv : String) : Env PSolv ESolv :=
  let A := exMineral "A" 10 (-1000) 40 2
  let B := exMineral "B" 20 (-3000) 90 3
  ⟨⟨[("H2O@", conSub "H2O@" 1), ("A", A), ("B", B)], [("r", fromR "r" [("A", -2), ("B", 1)])], fun f => if f = "A" then 10 else if f = "B" then 20 else 0,
    "NEA_HGK"⟩, real noWater, "GEOCHEMICAL", conv, false, true, 1000000⟩

lemma exMin_regular (conv : String) : Regular (exMin conv) 4 := by
  refine regular_of_own rfl (fun y v h => ?_) le_rfl
  have := mem_of_lookup h
  simp only [exMin, List.mem_cons, Prod.mk.injEq, List.not_mem_nil, or_false] at this
  rcases this with ⟨-, rfl⟩ | ⟨-, rfl⟩ | ⟨-, rfl⟩ <;> simp [NoGasModel, conSub, exMineral, Subst.isReacDC, Subst.noMethods]

lemma exMineral_ok (conv sym : String) (hs : sym ≠ "H+") (Sel H S V T0 : ℝ) (hSel : (exMin conv).db.elemEntropy sym = Sel) (hT : 800 < T0 ∧ T0 < 1400) :
    Mineral (exMineral sym Sel H S V) ∧ Sound (exMin conv) 298.15 T0 (exMineral sym Sel H S V) := by
  refine ⟨⟨hs, rfl, by simp [exMineral], rfl, by simp [exMineral], rfl, by simp [exMineral, asg, TS.has]⟩, rfl, ?_, ?_⟩
  · refine ⟨twoIntervals, 1, ⟨rfl, rfl, rfl⟩, twoIntervals_ok, ⟨by decide, Or.inl ?_⟩, ?_, ?_⟩
    · norm_num [twoIntervals]; exact hT
    · simp [twoIntervals, CpTable.coefs]
    · intro j hj
      obtain rfl : j = 0 := by omega
      norm_num [twoIntervals]
  · simp only [exMineral, asg, hSel]

/-- The example meets the conditions of `C110_minerals` at 1000 K, above the transitions, in both conventions. -/
example (conv : String) : ∃ t : ℝ → ℝ → TPR,
    (∀ᶠ T in 𝓝 (1000 : ℝ), ∀ P, (ask (exMin conv) 4 (.fromR T P "r") (after (exMin conv) 4 ESt.init [.sub T P "A", .sub T P "none"])).1 =
      .ok (.reac (t T P))) ∧
    HasDerivAt (fun T => (t T 1e8).lnK.val) ((t 1000 1e8).H.val / (8.31451 * 1000 ^ 2)) 1000 := by
  obtain ⟨t, h1, h2⟩ := C110_minerals (env := exMin conv) rfl (exMin_regular conv) rfl (x := fromR "r" [("A", -2), ("B", 1)]) (Tr := 298.15) (T0 := 1000)
    (by norm_num) (by norm_num) (v := fun y => if y = "A" then exMineral "A" 10 (-1000) 40 2 else exMineral "B" 20 (-3000) 90 3)
    (fun e he => by
      simp only [fromR, List.mem_cons, List.not_mem_nil, or_false] at he
      rcases he with rfl | rfl
      · exact ⟨rfl, exMineral_ok conv "A" (by decide) 10 _ _ _ 1000 rfl (by norm_num)⟩
      · exact ⟨rfl, exMineral_ok conv "B" (by decide) 20 _ _ _ 1000 rfl (by norm_num)⟩)
    (by simp [fromR, exMin, exMineral]; norm_num)
    (q := fun T P => .fromR T P "r") (fun T P => .name "r" rfl) (K := 4) (qs := fun T P => [.sub T P "A", .sub T P "none"])
    (fun T P q hq => by
      simp only [List.mem_cons, List.not_mem_nil, or_false] at hq
      rcases hq with rfl | rfl <;> trivial)
  exact ⟨t, h1, (h2 1e8).2.2.2.1⟩

/-! ### C111 Volume functions of reactions -/

/-- A pressure step that keeps the properties at the reference pressure. -/
def keepsAtRef : List CorrP := [.unset, .OFF, .NUL, .CON]

/-- The codes of volume functions of a reaction. -/
def volumeCodes : List CorrP := [.VKE, .VBE]

/-- A reaction with a logK(T) function: the function, then the pressure step. -/
lemma reacRec_step {PS EPS : Type} {env : Env PS EPS} {r : Rec PS EPS} {T P : ℝ} {x : Reac} {s : ESt PS EPS} {u : TPR} (hg : x.gen ≠ .CON)
    (hm : x.effT ∈ logKCodes) (hu : env.mods.logk x T P x.effT = .ok u) : reacRec env r T P x s = reacPStep env T P x u s := by
  have hfr : ¬ x.fromReactants = true := by
    intro h
    simp only [Reac.fromReactants, decide_eq_true_eq] at h
    have : x.effT = .unset := by simp [Reac.effT, h.1, h.2.2]
    rw [this] at hm
    simp [logKCodes] at hm
  unfold reacRec
  rw [if_neg hfr, if_neg hg]
  generalize x.effT = m at hm hu ⊢
  simp only [logKCodes, List.mem_cons, List.not_mem_nil, or_false] at hm
  rcases hm with rfl | rfl | rfl | rfl | rfl | rfl <;>
  · simp only [hu]
    exact bind_run (s := s) (s' := s) rfl

/-- **C111 (partial)** At the reference pressure a reaction with a logK(T) function has the log K, G and H of that function, if its pressure step is
none or constant volume.  Missing: the volume functions, see `C111_volume_refuted`. -/
theorem C111_reference_partial {PS EPS : Type} {env : Env PS EPS} {x : Reac} (hg : x.gen ≠ .CON) (hm : x.effT ∈ logKCodes) (hP : x.mP ∈ keepsAtRef) {n : Nat}
    {T : ℝ} {s : ESt PS EPS} {u : TPR} (hu : env.mods.logk x T x.refP x.effT = .ok u) :
    ∃ t, (ask env n (.reacRec T x.refP x) s).1 = .ok (.reac t) ∧ t.logK.val = u.logK.val ∧ t.lnK.val = u.lnK.val ∧ t.G.val = u.G.val ∧
      t.H.val = u.H.val := by
  have e := reacRec_step (r := run env n) (s := s) hg hm hu
  have key : ∃ t, reacPStep env T x.refP x u s = (.ok t, s) ∧ t.logK.val = u.logK.val ∧ t.lnK.val = u.lnK.val ∧ t.G.val = u.G.val ∧
      t.H.val = u.H.val := by
    simp only [keepsAtRef, List.mem_cons, List.not_mem_nil, or_false] at hP
    have hc : (reacCon T x.refP x u).logK.val = u.logK.val ∧ (reacCon T x.refP x u).lnK.val = u.lnK.val ∧
        (reacCon T x.refP x u).G.val = u.G.val ∧ (reacCon T x.refP x u).H.val = u.H.val := by
      refine ⟨?_, rfl, ?_, ?_⟩ <;> simp [reacCon, TS.addAssign, TS.subAssign]
    rcases hP with hP | hP | hP | hP <;> (unfold reacPStep; rw [hP])
    · exact ⟨u, rfl, rfl, rfl, rfl, rfl⟩
    · exact ⟨u, rfl, rfl, rfl, rfl, rfl⟩
    · exact ⟨_, rfl, hc⟩
    · exact ⟨_, rfl, hc⟩
  obtain ⟨t, ht, h1⟩ := key
  rw [ht] at e
  exact ⟨t, congrArg Prod.fst (bind_run (m := reacRec env (run env n) T x.refP x) e), h1⟩

/-- The constant-volume reaction of Props/EngineReac.lean. -/
example : exCon.gen ≠ .CON ∧ exCon.effT ∈ logKCodes ∧ exCon.mP ∈ keepsAtRef ∧ ∃ u, (real noWater).logk exCon 300 exCon.refP exCon.effT = .ok u := by
  refine ⟨by decide, by decide, by decide, exConU 300 1e5, ?_⟩
  simp [real, logKfTEntry, logKfT, switchT, logK7, exCon, exConU, resize, logKToCp, logKFun, Reac.effT]

/-- **C111** is violated: a reaction with a logK(T) function and a volume function as pressure step loses the properties computed from the former.
Whatever they are, at all T and P and in particular at the reference pressure, the engine reports log K = ln K = 0 and G = H = 0, with the status
"not defined"; the volume function is never evaluated.  The example has log K = 1. -/
theorem C111_volume_refuted :
    (∀ (base : Models PSolv ESolv) (env : Env PSolv ESolv), env.mods = real base → ∀ (x : Reac) (n : Nat) (T P : ℝ) (s : ESt PSolv ESolv) (u : TPR),
      x.gen ≠ .CON → x.effT ∈ logKCodes → x.mP ∈ volumeCodes → env.mods.logk x T P x.effT = .ok u →
      ∃ t, (ask env n (.reacRec T P x) s).1 = .ok (.reac t) ∧ t.logK.val = 0 ∧ t.lnK.val = 0 ∧ t.G.val = 0 ∧ t.H.val = 0 ∧ ¬ t.logK.has) ∧
    ∃ (x : Reac) (u : TPR), x.gen ≠ .CON ∧ x.effT ∈ logKCodes ∧ x.mP ∈ volumeCodes ∧ (real noWater).logk x 300 x.refP x.effT = .ok u ∧ u.logK.val = 1 := by
  constructor
  · intro base env hb x n T P s u hg hm hP hu
    have e := reacRec_step (r := run env n) (s := s) hg hm hu
    have key : reacPStep env T P x u s = (.ok TPR.default, s) := by
      simp only [volumeCodes, List.mem_cons, List.not_mem_nil, or_false] at hP
      rcases hP with hP | hP <;> (unfold reacPStep; rw [hP]; simp only [hb, real]; rfl)
    rw [key] at e
    exact ⟨TPR.default, congrArg Prod.fst (bind_run (m := reacRec env (run env n) T P x) e), rfl, rfl, rfl, rfl, by simp [TPR.default, TS.has, TS.default, TS.ofVal]⟩
  · refine ⟨{ exCon with mP := .VKE }, exConU 300 1e5, by decide, by decide, by decide, ?_, ?_⟩
    · simp [real, logKfTEntry, logKfT, switchT, logK7, exCon, exConU, resize, logKToCp, logKFun, Reac.effT]
    · simp [exConU, finishLogK, mid7, at']

end ThermoFun.Engine
