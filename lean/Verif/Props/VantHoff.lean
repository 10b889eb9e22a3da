import Verif.Props.EngineReac
import Mathlib.Analysis.Calculus.Deriv.Inv
import Mathlib.Analysis.Calculus.Deriv.Mul
import Mathlib.Analysis.Calculus.Deriv.Add
import Mathlib.Analysis.Calculus.Deriv.Comp

/-!
# Equilibrium constants as functions of temperature and pressure

Theorems about /repo/ThermoFun/ThermoEngine.cpp as modelled in Model/Engine.lean: the answers for a reaction computed from its species are, as
functions of temperature and pressure, the sums of the answers for the species, whatever was asked before; hence the equations of van 't Hoff
and Planck hold for the reaction if the properties of every species belong together (C109).
-/

namespace ThermoFun.Engine

open Filter Topology

variable {PS EPS : Type}

/-- The conditions under which answers do not depend on the history (C45): the default solvent is present, no record uses a model of gases,
and the definitions by reactions are not circular. -/
structure Regular (env : Env PS EPS) (N : Nat) : Prop where
  water : (env.db.subs.lookup "H2O@").isSome
  noGas : ∀ y v, env.db.subs.lookup y = some v → NoGasModel v
  ranked : ∃ (rk : String → Nat) (R : Nat), Ranked env rk ∧ (∀ y, rk y ≤ R) ∧ 2 * R + 4 ≤ N

/-- What the engine answers when `q` is its first query. -/
noncomputable def answer (env : Env PS EPS) (N : Nat) (q : Query) : Out (Answer PS EPS) := (ask env N q ESt.init).1

lemma Regular.cohSt {env : Env PS EPS} {N : Nat} (h : Regular env N) {K : Nat} {qs : List Query} (hqs : ∀ q ∈ qs, NoGasQuery q) :
    CohSt env "H2O@" (after env K ESt.init qs) :=
  cohSt_after h.water (fun y v hv => (h.noGas y v hv).flagFree env.mods) K qs (fun q hq => (hqs q hq).flagFree _) _ (cohSt_init env)

lemma Regular.ask_coh {env : Env PS EPS} {N : Nat} (h : Regular env N) {q : Query} (hq : NoGasQuery q) (hq' : QNamed q) {s : ESt PS EPS}
    (hs : CohSt env "H2O@" s) : (ask env N q s).1 = answer env N q := by
  obtain ⟨rk, R, hrk, hR, hN⟩ := h.ranked
  have hfi' : (ask (off env) (2 * R + 4) q ESt.init).1.fine := by
    have := C46_terminates_partial hrk.noMemo hR (K := 0) le_rfl q hq' []
    show (ask { env with memo := false } (2 * R + 4) q ESt.init).1.fine
    cases h : (ask { env with memo := false } (2 * R + 4) q ESt.init).1 with
    | deep => exact absurd h this
    | _ => trivial
  have hf' : DbFlagFree env := fun y v hv => (h.noGas y v hv).flagFree env.mods
  exact (ask_eq h.water hf' hN q (hq.flagFree _) _ ESt.init hs rfl hfi').trans
    (ask_eq h.water hf' hN q (hq.flagFree _) _ ESt.init (cohSt_init env) rfl hfi').symm

lemma Regular.sub_coh {env : Env PS EPS} {N : Nat} (h : Regular env N) (T P : ℝ) (y : String) {s : ESt PS EPS} (hs : CohSt env "H2O@" s) :
    CohSt env "H2O@" ((run env N).sub T P y s).2 ∧ ∀ t, ((run env N).sub T P y s).1 = .ok t ↔ answer env N (.sub T P y) = .ok (.sub t) := by
  have hc : CohSt env "H2O@" ((run env N).sub T P y s).2 :=
    ((memo_run h.water (fun y v hv => (h.noGas y v hv).flagFree env.mods) N).sub T P y s hs trivial).1
  refine ⟨hc, fun t => ?_⟩
  rw [← h.ask_coh (q := .sub T P y) trivial trivial hs]
  show _ ↔ (EM.bind ((run env N).sub T P y) (fun t => pure (Answer.sub t)) s).1 = _
  unfold EM.bind
  rcases (run env N).sub T P y s with ⟨a | _ | _ | _, s1⟩
  · show Out.ok a = .ok t ↔ Out.ok (Answer.sub a) = .ok (.sub t)
    simp
  all_goals simp

lemma Regular.asked {env : Env PS EPS} {N : Nat} (h : Regular env N) {T P : ℝ} {s s' : ESt PS EPS} {l : List (String × ℝ)} {ts : List TPS}
    (hs : CohSt env "H2O@" s) (ha : Asked env N T P s l ts s') :
    List.Forall₂ (fun e t => answer env N (.sub T P e.1) = .ok (.sub t)) l ts := by
  induction ha with
  | nil => exact .nil
  | @cons s s1 s2 y c l t ts h1 _ ih =>
    have := h.sub_coh T P y hs
    rw [h1] at this
    exact .cons ((this.2 t).1 rfl) (ih this.1)

/-- The properties of a reaction that are sums over its species. -/
def summed : List ((TPR → TS) × (TPS → TS)) := [(TPR.Cp, TPS.Cp), (TPR.G, TPS.G), (TPR.H, TPS.H), (TPR.S, TPS.S), (TPR.V, TPS.V)]

/-- **C109** The properties the engine reports for a reaction computed from its species, after any history of queries, are the sums over what
it answers when it is asked for the species one by one, each time as the first query. -/
theorem C109_sum {env : Env PS EPS} {N K : Nat} (h : Regular env N) {T P : ℝ} {x : Reac} {q : Query} (hq : FromSpecies env T P x q)
    {qs : List Query} (hqs : ∀ q ∈ qs, NoGasQuery q) {t : TPR} (ht : (ask env N q (after env K ESt.init qs)).1 = .ok (.reac t))
    {f : String → TPS} (hf : ∀ e ∈ x.reactants, answer env N (.sub T P e.1) = .ok (.sub (f e.1))) :
    (∀ p ∈ summed, (p.1 t).val = (x.reactants.map fun e => e.2 * (p.2 (f e.1)).val).sum) ∧ t.lnK.val = -t.G.val / (8.31451 * T) := by
  obtain ⟨ts, s', ha, h1, h2, -⟩ := C42_hess hq ht
  have hs : CohSt env "H2O@" { after env K (ESt.init : ESt PS EPS) qs with pcorr := true } :=
    (fixes_cohSt (env := env) h.water).flag true _ (h.cohSt hqs)
  have hfa := h.asked hs ha
  have key : ∀ (l : List (String × ℝ)) (ts : List TPS), (∀ e ∈ l, answer env N (.sub T P e.1) = .ok (.sub (f e.1))) →
      List.Forall₂ (fun e t => answer env N (.sub T P e.1) = .ok (.sub t)) l ts → ∀ p : TPS → ℝ,
      stoich l ts p = (l.map fun e => e.2 * p (f e.1)).sum := by
    intro l ts hl hfa p
    induction hfa with
    | nil => rfl
    | @cons e t l ts h _ ih =>
      have e1 : t = f e.1 := by
        have := h.symm.trans (hl e List.mem_cons_self)
        injection this with this; injection this
      have e2 := ih fun e he => hl e (List.mem_cons_of_mem _ he)
      unfold stoich at e2 ⊢
      simp only [List.zip_cons_cons, List.map_cons, List.sum_cons, e2, e1]
  refine ⟨fun p hp => ?_, h2⟩
  rw [(h1 p hp).1]
  exact key _ _ hf hfa _

/-- The reaction has an answer if its species have one and none of them is defined by this reaction. -/
lemma Regular.sum_total {env : Env PS EPS} {N : Nat} (h : Regular env N) {T P : ℝ} {sym : String} {f : String → TPS} (l : List (String × ℝ))
    (hl : ∀ e ∈ l, (∃ v, env.db.subs.lookup e.1 = some v ∧ ¬ (v.noMethods ∧ v.reactionSymbol = sym)) ∧
      answer env N (.sub T P e.1) = .ok (.sub (f e.1))) (t : TPR) (s : ESt PS EPS) (hs : CohSt env "H2O@" s) :
    ∃ u, (sumReactants env (run env N) T P sym l t s).1 = .ok u := by
  induction l generalizing t s with
  | nil => exact ⟨t, rfl⟩
  | cons e l ih =>
    obtain ⟨y, c⟩ := e
    obtain ⟨⟨v, hv, hn⟩, ha⟩ := hl (y, c) List.mem_cons_self
    obtain ⟨h1, h2⟩ := h.sub_coh T P y hs
    obtain ⟨u, hu⟩ := ih (fun e he => hl e (List.mem_cons_of_mem _ he)) (addScaled T t (f y) c) _ h1
    refine ⟨u, ?_⟩
    have e1 : getSub env y s = (.ok v, s) := by unfold getSub; rw [hv]; rfl
    have e2 : (run env N).sub T P y s = (.ok (f y), ((run env N).sub T P y s).2) := Prod.ext ((h2 _).2 ha) rfl
    unfold sumReactants
    rw [bind_run e1, if_neg hn, bind_run e2]
    exact hu

/-- **C109** (answers): if every species of a reaction has an answer and none is defined by that same reaction, the reaction has one. -/
theorem C109_answers {env : Env PS EPS} {N K : Nat} (h : Regular env N) {T P : ℝ} {x : Reac} {q : Query} (hq : FromSpecies env T P x q)
    {qs : List Query} (hqs : ∀ q ∈ qs, NoGasQuery q) {f : String → TPS}
    (hf : ∀ e ∈ x.reactants, (∃ v, env.db.subs.lookup e.1 = some v ∧ ¬ (v.noMethods ∧ v.reactionSymbol = x.symbol)) ∧
      answer env N (.sub T P e.1) = .ok (.sub (f e.1))) :
    ∃ t, (ask env N q (after env K ESt.init qs)).1 = .ok (.reac t) := by
  have hs : CohSt env "H2O@" { after env K (ESt.init : ESt PS EPS) qs with pcorr := true } :=
    (fixes_cohSt (env := env) h.water).flag true _ (h.cohSt hqs)
  obtain ⟨u, hu⟩ := h.sum_total x.reactants hf zeroTPR _ hs
  have key : ((reacFromReactants env (run env N) T P x >>= fun t => pure (Answer.reac t) : EM PS EPS (Answer PS EPS))
      (after env K ESt.init qs)).1 = .ok (.reac u) := by
    have e1 : setFlag true (after env K (ESt.init : ESt PS EPS) qs) = (.ok (), { after env K (ESt.init : ESt PS EPS) qs with pcorr := true }) := rfl
    have e2 : sumReactants env (run env N) T P x.symbol x.reactants zeroTPR { after env K (ESt.init : ESt PS EPS) qs with pcorr := true } =
      (.ok u, (sumReactants env (run env N) T P x.symbol x.reactants zeroTPR { after env K (ESt.init : ESt PS EPS) qs with pcorr := true }).2) :=
      Prod.ext hu rfl
    have e3 : reacFromReactants env (run env N) T P x (after env K (ESt.init : ESt PS EPS) qs) = (.ok u, (setFlag false
        (sumReactants env (run env N) T P x.symbol x.reactants zeroTPR { after env K (ESt.init : ESt PS EPS) qs with pcorr := true }).2).2) := by
      unfold reacFromReactants
      rw [bind_run e1, bind_run e2]
      rfl
    rw [bind_run e3]
    rfl
  refine ⟨u, ?_⟩
  cases hq with
  | record => exact key
  | name y hy =>
    have e : ask env N (.fromR T P y) = (reacFromReactants env (run env N) T P x >>= fun t => pure (.reac t)) := by
      simp only [ask, getReac, hy]; rfl
    rw [e]; exact key
  | noMethods hm =>
    have e : ask env N (.reacRec T P x) = (reacFromReactants env (run env N) T P x >>= fun t => pure (.reac t)) := by
      simp only [ask, reacRec]
      rw [if_pos (by simp [Reac.fromReactants, hm])]
    rw [e]; exact key

/-- The database with water, a mineral and a substance defined by a reaction of Props/EngineHist.lean meets the conditions.
`C110_minerals` (Props/Minerals.lean) applies all theorems of this file. -/
example : Regular exHist 6 := by
  refine ⟨rfl, ?_, _, 1, exClosure_ranked false [conSub "H2O@" 1] (by simp [conSub]), fun y => ?_, by omega⟩
  · intro y v h
    have := mem_of_lookup h
    simp only [exHist, exEnv, exDb, List.map_cons, List.map_nil, List.mem_cons, Prod.mk.injEq, List.not_mem_nil, or_false] at this
    rcases this with ⟨_, rfl⟩ | ⟨_, rfl⟩ | ⟨_, rfl⟩ <;> simp [NoGasModel, conSub, exDC, dcSub]
  · show (if y = "X" then 1 else 0) ≤ 1
    split <;> omega

lemma hasDerivAt_list_sum {l : List (String × ℝ)} {f : String → ℝ → ℝ} {f' : String → ℝ} {z : ℝ} (h : ∀ e ∈ l, HasDerivAt (f e.1) (f' e.1) z) :
    HasDerivAt (fun z => (l.map fun e => e.2 * f e.1 z).sum) (l.map fun e => e.2 * f' e.1).sum z := by
  induction l with
  | nil => simpa using hasDerivAt_const z (0 : ℝ)
  | cons e l ih =>
    simp only [List.map_cons, List.sum_cons]
    exact ((h e List.mem_cons_self).const_mul e.2).fun_add (ih fun e he => h e (List.mem_cons_of_mem _ he))

lemma sum_neg_map (l : List (String × ℝ)) (f : String → ℝ) : (l.map fun e => e.2 * -f e.1).sum = -(l.map fun e => e.2 * f e.1).sum := by
  induction l with
  | nil => simp
  | cons e l ih => simp only [List.map_cons, List.sum_cons, ih]; ring

lemma sum_gibbs (l : List (String × ℝ)) (g h s c : String → ℝ) (T : ℝ) (hg : ∀ e ∈ l, g e.1 = h e.1 - T * s e.1 + c e.1) :
    (l.map fun e => e.2 * g e.1).sum =
      (l.map fun e => e.2 * h e.1).sum - T * (l.map fun e => e.2 * s e.1).sum + (l.map fun e => e.2 * c e.1).sum := by
  induction l with
  | nil => simp
  | cons e l ih =>
    simp only [List.map_cons, List.sum_cons]
    rw [ih fun e he => hg e (List.mem_cons_of_mem _ he), hg e List.mem_cons_self]
    ring

/-- **C109** (temperature): van 't Hoff's equation.  If the properties of each species, as the engine reports them, belong together, that is
dG/dT = -S, dH/dT = Cp and G = H - T S + c, with constants `c` that cancel in the reaction (in the convention of apparent properties c is
Tr times the entropy of the elements), then so do those of the reaction, with G = H - T S, and d ln K/dT = H/(R T²), at every temperature,
whatever was asked before each query. -/
theorem C109_vantHoff {env : Env PS EPS} {N K : Nat} (h : Regular env N) {P T0 : ℝ} (hT0 : 0 < T0) {x : Reac} {q : ℝ → Query}
    (hq : ∀ T, FromSpecies env T P x (q T)) {qs : ℝ → List Query} (hqs : ∀ T, ∀ q ∈ qs T, NoGasQuery q) {t : ℝ → TPR}
    (ht : ∀ᶠ T in 𝓝 T0, (ask env N (q T) (after env K ESt.init (qs T))).1 = .ok (.reac (t T)))
    {f : String → ℝ → TPS} (hf : ∀ e ∈ x.reactants, ∀ᶠ T in 𝓝 T0, answer env N (.sub T P e.1) = .ok (.sub (f e.1 T)))
    (hS : ∀ e ∈ x.reactants, HasDerivAt (fun T => (f e.1 T).G.val) (-(f e.1 T0).S.val) T0)
    (hC : ∀ e ∈ x.reactants, HasDerivAt (fun T => (f e.1 T).H.val) (f e.1 T0).Cp.val T0)
    {c : String → ℝ} (hG : ∀ e ∈ x.reactants, (f e.1 T0).G.val = (f e.1 T0).H.val - T0 * (f e.1 T0).S.val + c e.1)
    (hc : (x.reactants.map fun e => e.2 * c e.1).sum = 0) :
    HasDerivAt (fun T => (t T).G.val) (-(t T0).S.val) T0 ∧ HasDerivAt (fun T => (t T).H.val) (t T0).Cp.val T0 ∧
      (t T0).G.val = (t T0).H.val - T0 * (t T0).S.val ∧ HasDerivAt (fun T => (t T).lnK.val) ((t T0).H.val / (8.31451 * T0 ^ 2)) T0 := by
  have hf' : ∀ᶠ T in 𝓝 T0, ∀ e ∈ x.reactants, answer env N (.sub T P e.1) = .ok (.sub (f e.1 T)) := by
    have : ∀ l : List (String × ℝ), (∀ e ∈ l, ∀ᶠ T in 𝓝 T0, answer env N (.sub T P e.1) = .ok (.sub (f e.1 T))) →
        ∀ᶠ T in 𝓝 T0, ∀ e ∈ l, answer env N (.sub T P e.1) = .ok (.sub (f e.1 T)) := by
      intro l
      induction l with
      | nil => exact fun _ => Eventually.of_forall fun T e he => by cases he
      | cons e l ih =>
        intro h
        filter_upwards [h e List.mem_cons_self, ih fun e he => h e (List.mem_cons_of_mem _ he)] with T h1 h2 e' he'
        rcases List.mem_cons.mp he' with rfl | he'
        · exact h1
        · exact h2 _ he'
    exact this _ hf
  have hev : ∀ᶠ T in 𝓝 T0, (∀ p ∈ summed, (p.1 (t T)).val = (x.reactants.map fun e => e.2 * (p.2 (f e.1 T)).val).sum) ∧
      (t T).lnK.val = -(t T).G.val / (8.31451 * T) := by
    filter_upwards [ht, hf'] with T h1 h2
    exact C109_sum h (hq T) (hqs T) h1 (f := fun y => f y T) h2
  have h0 := hev.self_of_nhds
  have hp : ∀ p ∈ summed, (fun T => (p.1 (t T)).val) =ᶠ[𝓝 T0] fun T => (x.reactants.map fun e => e.2 * (p.2 (f e.1 T)).val).sum := by
    intro p hp
    filter_upwards [hev] with T h
    exact h.1 p hp
  have mG : (TPR.G, TPS.G) ∈ summed := by simp [summed]
  have mH : (TPR.H, TPS.H) ∈ summed := by simp [summed]
  have mS : (TPR.S, TPS.S) ∈ summed := by simp [summed]
  have mC : (TPR.Cp, TPS.Cp) ∈ summed := by simp [summed]
  have dG : HasDerivAt (fun T => (t T).G.val) (-(t T0).S.val) T0 := by
    refine ((hasDerivAt_list_sum (f := fun y T => (f y T).G.val) (f' := fun y => -(f y T0).S.val) hS).congr_of_eventuallyEq (hp _ mG)).congr_deriv ?_
    rw [sum_neg_map x.reactants fun y => (f y T0).S.val, h0.1 _ mS]
  have dH : HasDerivAt (fun T => (t T).H.val) (t T0).Cp.val T0 := by
    refine ((hasDerivAt_list_sum (f := fun y T => (f y T).H.val) (f' := fun y => (f y T0).Cp.val) hC).congr_of_eventuallyEq (hp _ mH)).congr_deriv ?_
    rw [h0.1 _ mC]
  have gibbs : (t T0).G.val = (t T0).H.val - T0 * (t T0).S.val := by
    rw [h0.1 _ mG, h0.1 _ mH, h0.1 _ mS]
    rw [sum_gibbs _ (fun y => (f y T0).G.val) (fun y => (f y T0).H.val) (fun y => (f y T0).S.val) c T0 hG, hc, add_zero]
  refine ⟨dG, dH, gibbs, ?_⟩
  have e : (fun T => (t T).lnK.val) =ᶠ[𝓝 T0] fun T => -(t T).G.val / (8.31451 * T) := by
    filter_upwards [hev] with T h
    exact h.2
  refine ((dG.fun_neg.fun_div ((hasDerivAt_id' T0).const_mul (8.31451 : ℝ)) (by positivity)).congr_of_eventuallyEq e).congr_deriv ?_
  rw [gibbs]
  field_simp
  ring

/-- **C109** (pressure): Planck's equation.  If dG/dP = V for each species (V in J/bar, P in Pa), then d ln K/dP = -V/(R T) for the
reaction. -/
theorem C109_planck {env : Env PS EPS} {N K : Nat} (h : Regular env N) {T P0 : ℝ} {x : Reac} {q : ℝ → Query}
    (hq : ∀ P, FromSpecies env T P x (q P)) {qs : ℝ → List Query} (hqs : ∀ P, ∀ q ∈ qs P, NoGasQuery q) {t : ℝ → TPR}
    (ht : ∀ᶠ P in 𝓝 P0, (ask env N (q P) (after env K ESt.init (qs P))).1 = .ok (.reac (t P)))
    {f : String → ℝ → TPS} (hf : ∀ᶠ P in 𝓝 P0, ∀ e ∈ x.reactants, answer env N (.sub T P e.1) = .ok (.sub (f e.1 P)))
    (hV : ∀ e ∈ x.reactants, HasDerivAt (fun P => (f e.1 P).G.val) ((f e.1 P0).V.val / 1e5) P0) :
    HasDerivAt (fun P => (t P).G.val) ((t P0).V.val / 1e5) P0 ∧
      HasDerivAt (fun P => (t P).lnK.val) (-((t P0).V.val / 1e5) / (8.31451 * T)) P0 := by
  have hev : ∀ᶠ P in 𝓝 P0, (∀ p ∈ summed, (p.1 (t P)).val = (x.reactants.map fun e => e.2 * (p.2 (f e.1 P)).val).sum) ∧
      (t P).lnK.val = -(t P).G.val / (8.31451 * T) := by
    filter_upwards [ht, hf] with P h1 h2
    exact C109_sum h (hq P) (hqs P) h1 (f := fun y => f y P) h2
  have h0 := hev.self_of_nhds
  have mG : (TPR.G, TPS.G) ∈ summed := by simp [summed]
  have mV : (TPR.V, TPS.V) ∈ summed := by simp [summed]
  have dG : HasDerivAt (fun P => (t P).G.val) ((t P0).V.val / 1e5) P0 := by
    have e : (fun P => (t P).G.val) =ᶠ[𝓝 P0] fun P => (x.reactants.map fun e => e.2 * (f e.1 P).G.val).sum := by
      filter_upwards [hev] with P h
      exact h.1 _ mG
    refine ((hasDerivAt_list_sum (f := fun y P => (f y P).G.val) (f' := fun y => (f y P0).V.val / 1e5) hV).congr_of_eventuallyEq e).congr_deriv ?_
    rw [h0.1 _ mV]
    induction x.reactants with
    | nil => simp
    | cons e l ih => simp only [List.map_cons, List.sum_cons, add_div]; rw [ih]; ring
  refine ⟨dG, ?_⟩
  have e : (fun P => (t P).lnK.val) =ᶠ[𝓝 P0] fun P => -(t P).G.val / (8.31451 * T) := by
    filter_upwards [hev] with P h
    exact h.2
  exact (dG.fun_neg.div_const (8.31451 * T)).congr_of_eventuallyEq e

end ThermoFun.Engine
