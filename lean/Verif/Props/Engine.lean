import Verif.Lemmas.EngineEx
import Verif.Lemmas.TSOps

/-!
# Values the engine reports

Theorems about /repo/ThermoFun/ThermoEngine.cpp as modelled in Model/Engine.lean: the hydrogen ion (C41), Hess's law (C42, C43), closure of
formation reactions (C44).
-/

namespace ThermoFun.Engine

variable {PS EPS : Type}

/-! ### C41 The hydrogen ion -/

/-- Value and derivatives are 0. -/
def IsZero (a : TS) : Prop := a.val = 0 ∧ a.ddt = 0 ∧ a.ddp = 0

/-- All properties of the record are 0. -/
def AllZero (t : TPS) : Prop :=
  IsZero t.V ∧ IsZero t.G ∧ IsZero t.H ∧ IsZero t.S ∧ IsZero t.Cp ∧ IsZero t.Cv ∧ IsZero t.U ∧ IsZero t.A

lemma allZero_zeroTPS : AllZero zeroTPS := by
  simp [AllZero, IsZero, zeroTPS, zeroTS, TS.assign]

/-- The cache holds nothing but zeros for the hydrogen ion. -/
def HZero (s : ESt PS EPS) : Prop := ∀ e ∈ s.subC.entries, e.1.sym = "H+" → e.2 = zeroTPS

lemma stable_hZero (env : Env PS EPS) : Stable env (HZero : ESt PS EPS → Prop) where
  prefs x s h := by
    have : (setPrefs env x s).2.subC = s.subC := by
      simp only [setPrefs, EM.change]
      split
      · split <;> rfl
      · rfl
    unfold HZero; rw [this]; exact h
  state _ _ h := h
  flag _ _ h := h
  ps _ _ h := h
  el _ _ h := h

lemma substRec_H {env : Env PS EPS} (r : Rec PS EPS) (T P : ℝ) (x : Subst) (hx : x.symbol = "H+") (s : ESt PS EPS) :
    (substRec env r T P x s).1 = .ok zeroTPS := by
  have e : substRec env r T P x s = (if x.symbol = "H+" then pure zeroTPS else do
    let t ← (if x.isReacDC then reacDC env r T P x else methodsStep env r T P x)
    pure (fallback env.fallback t x) : EM PS EPS TPS) (setPrefs env x s).2 := rfl
  rw [e, if_pos hx]
  rfl

lemma subBody_H {env : Env PS EPS} {v : Subst} (hv : env.db.subs.lookup "H+" = some v) (hs : v.symbol = "H+") (n : Nat) (T P : ℝ)
    (s : ESt PS EPS) : (subBody env n T P "H+" s).1 = .ok zeroTPS := by
  have e : subBody env n T P "H+" = substRec env (run env n) T P v := by
    unfold subBody getSub
    rw [hv]; rfl
  rw [e]
  exact substRec_H _ T P v hs s

lemma hZero_run {env : Env PS EPS} {v : Subst} (hv : env.db.subs.lookup "H+" = some v) (hs : v.symbol = "H+") (n : Nat) :
    (∀ T P y, U HZero False ((run env n).sub T P y)) ∧ (∀ T P y, U HZero False ((run env n).reac T P y)) ∧
      (∀ T P x, U HZero False ((run env n).direct T P x)) :=
  u_run (stable_hZero env) (fun s h => fun e he => h e (evict_entries_subset _ _ e he)) (fun _ _ h => h)
    (fun n T P y s w s' h h' hb e he hy => by
      simp only [Cache.insert, List.mem_cons] at he
      rcases he with rfl | he
      · simp only at hy
        subst hy
        rw [subBody_H hv hs] at hb
        injection hb with hb
        exact hb.symm
      · exact h' e (erase_subset _ _ e he) hy) n

/-- **C41** Every property of the hydrogen ion, and every derivative, is reported as 0, whatever its record, the models, the preferences
and the queries asked before (failing ones included): by symbol, ... -/
theorem C41_hydrogen {env : Env PS EPS} {v : Subst} (hv : env.db.subs.lookup "H+" = some v) (hs : v.symbol = "H+") (n m : Nat)
    (qs : List Query) (T P : ℝ) :
    ∃ t, (ask env (m + 1) (.sub T P "H+") (after env n ESt.init qs)).1 = .ok (.sub t) ∧ AllZero t := by
  have hI : HZero (after env n (ESt.init : ESt PS EPS) qs) :=
    after_keeps n (fun q => u_ask (stable_hZero env) (fun n => hZero_run hv hs n) n q) qs _ (by simp [HZero, ESt.init])
  generalize after env n (ESt.init : ESt PS EPS) qs = s at hI
  refine ⟨zeroTPS, ?_, allZero_zeroTPS⟩
  have key : ((run env (m + 1)).sub T P "H+" s).1 = .ok zeroTPS := by
    have e : (run env (m + 1)).sub T P "H+" = cached env (·.subC) (fun c s => { s with subC := c }) ⟨T, P, "H+"⟩ (subBody env m T P "H+") := rfl
    rw [e]
    unfold cached
    split
    · simp only
      split
      · rename_i w hw
        have := mem_of_lookup hw
        exact congrArg Out.ok (hI _ (evict_entries_subset _ _ _ this) rfl)
      · have := subBody_H hv hs m T P { s with subC := Cache.evict env.maxCache s.subC }
        split
        · rename_i he
          rw [he] at this
          exact this
        · exact this
    · exact subBody_H hv hs m T P s
  exact congrArg Prod.fst (EM.bind_of_ok key)

/-- ... and by record. -/
theorem C41_hydrogen_record (env : Env PS EPS) (x : Subst) (hx : x.symbol = "H+") (n m : Nat) (qs : List Query) (T P : ℝ) :
    ∃ t, (ask env (m + 1) (.subRec T P x) (after env n ESt.init qs)).1 = .ok (.sub t) ∧ AllZero t := by
  refine ⟨zeroTPS, ?_, allZero_zeroTPS⟩
  have key := substRec_H (env := env) (run env m) T P x hx (after env n ESt.init qs)
  exact congrArg Prod.fst (EM.bind_of_ok (m := substRec env (run env m) T P x) key)

/-- A database with a hydrogen record whose own values are not 0, after a failing and a repeated query. -/
example : (exEnv [conSub "H+" 7, conSub "Na+" 3] []).db.subs.lookup "H+" = some (conSub "H+" 7) ∧ (conSub "H+" 7).symbol = "H+" := by
  constructor <;> rfl
example : ∃ t, (ask (exEnv [conSub "H+" 7, conSub "Na+" 3] []) 5 (.sub 300 2e5 "H+")
    (after (exEnv [conSub "H+" 7, conSub "Na+" 3] []) 5 ESt.init [.sub 300 2e5 "none", .sub 300 2e5 "H+", .sub 298.15 1e5 "Na+"])).1
      = .ok (.sub t) ∧ AllZero t := C41_hydrogen (v := conSub "H+" 7) rfl rfl _ _ _ _ _

/-! ### C42, C43 Hess's law

`Asked env n T P s l ts s'` (Lemmas/EngineEx.lean) says: asked for the species of `l` one after another, starting in the state `s`, the
engine gives the answers `ts`. -/

/-- Sum of coefficient times property. -/
noncomputable def stoich (l : List (String × ℝ)) (ts : List TPS) (p : TPS → ℝ) : ℝ := ((l.zip ts).map fun e => e.1.2 * p e.2).sum

/-- The queries that compute the reaction `x` from its species. -/
inductive FromSpecies (env : Env PS EPS) (T P : ℝ) (x : Reac) : Query → Prop
  | record : FromSpecies env T P x (.fromRRec T P x)
  | name (y : String) (h : env.db.reacs.lookup y = some x) : FromSpecies env T P x (.fromR T P y)
  | noMethods (h : x.gen = .unset ∧ x.mT = .unset ∧ x.mP = .unset) : FromSpecies env T P x (.reacRec T P x)

lemma mulR_ddt (a : TS) (c : ℝ) : (a * c).ddt = c * a.ddt := by
  show (TS.mulL c a).ddt = _
  unfold TS.mulL; split <;> rfl
lemma mulR_ddp (a : TS) (c : ℝ) : (a * c).ddp = c * a.ddp := by
  show (TS.mulL c a).ddp = _
  unfold TS.mulL; split <;> rfl

/-- One property of the sum: value and both derivatives. -/
def SumOf (l : List (String × ℝ)) (ts : List TPS) (p : TPS → TS) (a b : TS) : Prop :=
  b.val = a.val + stoich l ts (fun t => (p t).val) ∧ b.ddt = a.ddt + stoich l ts (fun t => (p t).ddt) ∧
    b.ddp = a.ddp + stoich l ts (fun t => (p t).ddp)

lemma SumOf.nil {p : TPS → TS} {a : TS} : SumOf [] [] p a a := by simp [SumOf, stoich]

lemma SumOf.cons {l : List (String × ℝ)} {ts : List TPS} {p : TPS → TS} {a b : TS} {y : String} {c : ℝ} {t : TPS}
    (h : SumOf l ts p (TS.addAssign a (p t * c)) b) : SumOf ((y, c) :: l) (t :: ts) p a b := by
  obtain ⟨h1, h2, h3⟩ := h
  refine ⟨?_, ?_, ?_⟩
  · rw [h1]; simp [stoich, add_assoc, mul_comm]
  · rw [h2]; simp [stoich, add_assoc, TS.addAssign, mulR_ddt]
  · rw [h3]; simp [stoich, add_assoc, TS.addAssign, mulR_ddp]

lemma getSub_state {env : Env PS EPS} (y : String) (s : ESt PS EPS) : (getSub env y s).2 = s := by
  unfold getSub; cases env.db.subs.lookup y <;> rfl

/-- What the loop over the reactants computes. -/
lemma sumReactants_ok {env : Env PS EPS} {n : Nat} {T P : ℝ} {sym : String} (l : List (String × ℝ)) (t u : TPR) (s : ESt PS EPS)
    (h : (sumReactants env (run env n) T P sym l t s).1 = .ok u) :
    ∃ ts s', Asked env n T P s l ts s' ∧ SumOf l ts (·.Cp) t.Cp u.Cp ∧ SumOf l ts (·.G) t.G u.G ∧ SumOf l ts (·.H) t.H u.H ∧
      SumOf l ts (·.S) t.S u.S ∧ SumOf l ts (·.V) t.V u.V ∧
      (t.lnK.val = -t.G.val / (Rgas * T) → u.lnK.val = -u.G.val / (Rgas * T)) ∧
      (t.logK.val = t.lnK.val * lnToLg → u.logK.val = u.lnK.val * lnToLg) ∧
      (∀ e t', l.getLast? = some e → ts.getLast? = some t' →
        u.Cv.val = e.2 * t'.Cv.val ∧ u.U.val = e.2 * t'.U.val ∧ u.A.val = e.2 * t'.A.val) ∧
      (l = [] → u = t) := by
  induction l generalizing t s with
  | nil =>
    have hu : t = u := by injection h
    subst hu
    exact ⟨[], s, .nil s, .nil, .nil, .nil, .nil, .nil, id, id, fun _ _ h => by simp at h, fun _ => rfl⟩
  | cons e l ih =>
    obtain ⟨y, c⟩ := e
    unfold sumReactants at h
    obtain ⟨v, hv, h⟩ := EM.of_bind_ok h
    split at h
    · cases h
    · obtain ⟨ty, hty, h⟩ := EM.of_bind_ok h
      have hs : (getSub env y s).2 = s := getSub_state y s
      rw [hs] at h hty
      obtain ⟨ts, s', h0, h1, h2, h3, h4, h5, h6, h7, h8, h9⟩ := ih _ _ h
      refine ⟨ty :: ts, s', .cons (Prod.ext hty rfl) h0, h1.cons, h2.cons, h3.cons, h4.cons, h5.cons, fun _ => h6 ?_, fun _ => h7 ?_, ?_, fun h => ?_⟩
      · simp only [addScaled, TS.op_val_divR]
        rw [div_neg, neg_div]
      · simp [addScaled]
      · intro e t' he ht
        cases l with
        | nil =>
          cases h0
          simp only [List.getLast?_singleton, Option.some.injEq] at he ht
          subst he ht
          rw [h9 rfl]
          simp [addScaled, mul_comm]
        | cons a l =>
          cases h0 with
          | cons ha h0 =>
            rw [List.getLast?_cons_cons] at he ht
            exact h8 e t' he ht
      · cases h

lemma reacFromReactants_ok {env : Env PS EPS} {n : Nat} {T P : ℝ} {x : Reac} {u : TPR} {s : ESt PS EPS}
    (h : (reacFromReactants env (run env n) T P x s).1 = .ok u) :
    (sumReactants env (run env n) T P x.symbol x.reactants zeroTPR { s with pcorr := true }).1 = .ok u := by
  obtain ⟨_, _, h⟩ := EM.of_bind_ok h
  obtain ⟨t, ht, h⟩ := EM.of_bind_ok h
  obtain ⟨_, _, h⟩ := EM.of_bind_ok h
  have : t = u := by injection h
  exact this ▸ ht

lemma FromSpecies.sum {env : Env PS EPS} {n : Nat} {T P : ℝ} {x : Reac} {q : Query} (hq : FromSpecies env T P x q) {t : TPR}
    {s : ESt PS EPS} (h : (ask env n q s).1 = .ok (.reac t)) :
    (sumReactants env (run env n) T P x.symbol x.reactants zeroTPR { s with pcorr := true }).1 = .ok t := by
  cases hq with
  | record =>
    obtain ⟨u, hu, h⟩ := EM.of_bind_ok h
    have : u = t := by injection h with h; injection h
    exact this ▸ reacFromReactants_ok hu
  | name y hy =>
    have e : ask env n (.fromR T P y) = (reacFromReactants env (run env n) T P x >>= fun t => pure (.reac t)) := by
      simp only [ask, getReac, hy]; rfl
    rw [e] at h
    obtain ⟨u, hu, h⟩ := EM.of_bind_ok h
    have : u = t := by injection h with h; injection h
    exact this ▸ reacFromReactants_ok hu
  | noMethods hm =>
    have e : ask env n (.reacRec T P x) = (reacFromReactants env (run env n) T P x >>= fun t => pure (.reac t)) := by
      simp only [ask, reacRec]
      rw [if_pos (by simp [Reac.fromReactants, hm])]
    rw [e] at h
    obtain ⟨u, hu, h⟩ := EM.of_bind_ok h
    have : u = t := by injection h with h; injection h
    exact this ▸ reacFromReactants_ok hu

/-- **C42** Cp, G, H, S and V of a reaction computed from its species are the sums of coefficient times the property the engine gives for
the species, with their temperature and pressure derivatives; ln K = -G/(R T) with R = 8.31451, and log K is that times 0.434294481.  The
species are asked one after another, with the pressure correction of gases switched on. -/
theorem C42_hess {env : Env PS EPS} {n : Nat} {T P : ℝ} {x : Reac} {q : Query} (hq : FromSpecies env T P x q) {t : TPR} {s : ESt PS EPS}
    (h : (ask env n q s).1 = .ok (.reac t)) :
    ∃ ts s', Asked env n T P { s with pcorr := true } x.reactants ts s' ∧
      (∀ p ∈ [(TPR.Cp, TPS.Cp), (TPR.G, TPS.G), (TPR.H, TPS.H), (TPR.S, TPS.S), (TPR.V, TPS.V)],
        (p.1 t).val = stoich x.reactants ts (fun y => (p.2 y).val) ∧ (p.1 t).ddt = stoich x.reactants ts (fun y => (p.2 y).ddt) ∧
          (p.1 t).ddp = stoich x.reactants ts (fun y => (p.2 y).ddp)) ∧
      t.lnK.val = -t.G.val / (8.31451 * T) ∧ t.logK.val = 0.434294481 * t.lnK.val := by
  have h := hq.sum h
  obtain ⟨ts, s', h0, h1, h2, h3, h4, h5, h6, h7, -, -⟩ := sumReactants_ok _ _ _ _ h
  refine ⟨ts, s', h0, ?_, ?_, ?_⟩
  · intro p hp
    have e : ∀ {p : TPS → TS} {b : TS}, SumOf x.reactants ts p zeroTS b → b.val = stoich x.reactants ts (fun y => (p y).val) ∧
        b.ddt = stoich x.reactants ts (fun y => (p y).ddt) ∧ b.ddp = stoich x.reactants ts (fun y => (p y).ddp) := by
      intro p b hb
      simpa [SumOf, zeroTS, TS.assign] using hb
    simp only [List.mem_cons, List.not_mem_nil, or_false] at hp
    rcases hp with rfl | rfl | rfl | rfl | rfl
    · exact e h1
    · exact e h2
    · exact e h3
    · exact e h4
    · exact e h5
  · exact h6 (by simp [zeroTPR, zeroTS, TS.assign])
  · rw [h7 (by simp [zeroTPR, zeroTS, TS.assign])]
    simp [lnToLg, mul_comm]

/-- B + B = A from two records: the query gives a result. -/
example : FromSpecies exTwo 300 1e5 (fromR "r" [("A", -1), ("B", 2)]) (.fromR 300 1e5 "r") ∧
    ∃ t, (ask exTwo 1 (.fromR 300 1e5 "r") ESt.init).1 = .ok (.reac t) ∧ t.G.val = 8 := by
  refine ⟨.name "r" rfl, _, exTwo_ask 0 300 1e5, ?_⟩
  simp [addScaled, zeroTPR, zeroTS, TS.assign, refGV, asg]
  norm_num

/-- **C42** Reversing the reaction negates its properties, ln K and log K, when the engine gives the same answers for the species. -/
theorem C42_reverse {env : Env PS EPS} {n : Nat} {T P : ℝ} {x y : Reac} (hy : y.reactants = x.reactants.map fun e => (e.1, -e.2))
    {q q' : Query} (hq : FromSpecies env T P x q) (hq' : FromSpecies env T P y q') {s s' : ESt PS EPS}
    (hsame : ∀ ts ts' u u', Asked env n T P { s with pcorr := true } x.reactants ts u →
      Asked env n T P { s' with pcorr := true } y.reactants ts' u' → ts = ts')
    {t t' : TPR} (h : (ask env n q s).1 = .ok (.reac t)) (h' : (ask env n q' s').1 = .ok (.reac t')) :
    t'.Cp.val = -t.Cp.val ∧ t'.G.val = -t.G.val ∧ t'.H.val = -t.H.val ∧ t'.S.val = -t.S.val ∧ t'.V.val = -t.V.val ∧
      t'.lnK.val = -t.lnK.val ∧ t'.logK.val = -t.logK.val := by
  obtain ⟨ts, u, hs, h1, h2, h3⟩ := C42_hess hq h
  obtain ⟨ts', u', hs', h1', h2', h3'⟩ := C42_hess hq' h'
  have e := hsame _ _ _ _ hs hs'
  subst e
  have hneg : ∀ p : TPS → ℝ, stoich y.reactants ts p = -stoich x.reactants ts p := by
    intro p
    rw [hy]
    clear hs hs' h1 h2 h3 h1' h2' h3' hsame hq hq' hy
    induction x.reactants generalizing ts with
    | nil => simp [stoich]
    | cons e l ih =>
      cases ts with
      | nil => simp [stoich]
      | cons a ts =>
        have := ih ts
        simp only [stoich, List.map_cons, List.zip_cons_cons, List.sum_cons] at this ⊢
        rw [this]; ring
  have hG : t'.G.val = -t.G.val := by
    rw [(h1' (TPR.G, TPS.G) (by simp)).1, (h1 (TPR.G, TPS.G) (by simp)).1]; exact hneg _
  have hK : t'.lnK.val = -t.lnK.val := by rw [h2', h2, hG]; ring
  refine ⟨?_, hG, ?_, ?_, ?_, hK, by rw [h3', h3, hK]; ring⟩
  · rw [(h1' (TPR.Cp, TPS.Cp) (by simp)).1, (h1 (TPR.Cp, TPS.Cp) (by simp)).1]; exact hneg _
  · rw [(h1' (TPR.H, TPS.H) (by simp)).1, (h1 (TPR.H, TPS.H) (by simp)).1]; exact hneg _
  · rw [(h1' (TPR.S, TPS.S) (by simp)).1, (h1 (TPR.S, TPS.S) (by simp)).1]; exact hneg _
  · rw [(h1' (TPR.V, TPS.V) (by simp)).1, (h1 (TPR.V, TPS.V) (by simp)).1]; exact hneg _

/-- The reaction above and its reverse, both on a new engine. -/
example : (fromR "b" [("A", 1), ("B", -2)]).reactants = (fromR "r" [("A", -1), ("B", 2)]).reactants.map (fun e => (e.1, -e.2)) ∧
    ∀ ts ts' u u', Asked exTwo 1 300 1e5 { (ESt.init : ESt Unit Unit) with pcorr := true } (fromR "r" [("A", -1), ("B", 2)]).reactants ts u →
      Asked exTwo 1 300 1e5 { (ESt.init : ESt Unit Unit) with pcorr := true } (fromR "b" [("A", 1), ("B", -2)]).reactants ts' u' → ts = ts' := by
  refine ⟨by simp [fromR], fun ts ts' u u' h h' => ?_⟩
  obtain ⟨_, e⟩ := exTwo_asked 0 300 1e5 (-1) 2 { (ESt.init : ESt Unit Unit) with pcorr := true } rfl
  obtain ⟨_, e'⟩ := exTwo_asked 0 300 1e5 1 (-2) { (ESt.init : ESt Unit Unit) with pcorr := true } rfl
  exact (h.unique e).trans (h'.unique e').symm

/-- **C43** (full statement: U, A and Cv of a reaction computed from its species are the sums of coefficient times species property.)
The code overwrites them in every round of the loop; for `B + B = A` with U = 2, 5 it reports 10 instead of 8. -/
theorem C43_hess_refuted : ∃ (x : Reac) (q : Query) (t : TPR), FromSpecies exTwo 300 1e5 x q ∧
    (ask exTwo 1 q ESt.init).1 = .ok (.reac t) ∧ ∀ ts s', Asked exTwo 1 300 1e5 { ESt.init with pcorr := true } x.reactants ts s' →
      t.U.val ≠ stoich x.reactants ts (fun y => y.U.val) ∧ t.A.val ≠ stoich x.reactants ts (fun y => y.A.val) ∧
        t.Cv.val ≠ stoich x.reactants ts (fun y => y.Cv.val) := by
  refine ⟨fromR "r" [("A", -1), ("B", 2)], .fromR 300 1e5 "r", _, .name "r" rfl, exTwo_ask 0 300 1e5, fun ts s' hts => ?_⟩
  obtain ⟨_, e⟩ := exTwo_asked 0 300 1e5 (-1) 2 { (ESt.init : ESt Unit Unit) with pcorr := true } rfl
  have := hts.unique e
  subst this
  simp [stoich, addScaled, zeroTPR, zeroTS, TS.assign, refGV, asg, fromR]
  norm_num

/-- **C43 (partial)** What is reported is the contribution of the last species; it is the sum exactly when the other contributions cancel. -/
theorem C43_hess_partial {env : Env PS EPS} {n : Nat} {T P : ℝ} {x : Reac} {q : Query} (hq : FromSpecies env T P x q) {t : TPR}
    {s : ESt PS EPS} (h : (ask env n q s).1 = .ok (.reac t)) {l : List (String × ℝ)} {e : String × ℝ} (hx : x.reactants = l ++ [e]) :
    ∃ ts t' s', Asked env n T P { s with pcorr := true } x.reactants (ts ++ [t']) s' ∧
      (t.U.val = stoich x.reactants (ts ++ [t']) (fun y => y.U.val) ↔ stoich l ts (fun y => y.U.val) = 0) ∧
      (t.A.val = stoich x.reactants (ts ++ [t']) (fun y => y.A.val) ↔ stoich l ts (fun y => y.A.val) = 0) ∧
      (t.Cv.val = stoich x.reactants (ts ++ [t']) (fun y => y.Cv.val) ↔ stoich l ts (fun y => y.Cv.val) = 0) := by
  have h := hq.sum h
  obtain ⟨ts, s', h0, -, -, -, -, -, -, -, h8, -⟩ := sumReactants_ok _ _ _ _ h
  have hlen := h0.length
  have hne : ts ≠ [] := by rintro rfl; rw [hx] at hlen; simp at hlen
  obtain ⟨us, t', rfl⟩ : ∃ us t', ts = us ++ [t'] := ⟨ts.dropLast, ts.getLast hne, (List.dropLast_append_getLast hne).symm⟩
  refine ⟨us, t', s', h0, ?_⟩
  obtain ⟨h1, h2, h3⟩ := h8 e t' (by rw [hx]; simp) (by simp)
  have hl : l.length = us.length := by rw [hx] at hlen; simpa using hlen
  have hst : ∀ p : TPS → ℝ, stoich x.reactants (us ++ [t']) p = stoich l us p + e.2 * p t' := by
    intro p
    rw [hx]
    simp only [stoich]
    rw [List.zip_append hl]
    simp
  simp only [hst, h1, h2, h3]
  refine ⟨⟨fun h => by linarith, fun h => by linarith⟩, ⟨fun h => by linarith, fun h => by linarith⟩, ⟨fun h => by linarith, fun h => by linarith⟩⟩

/-- The two species above. -/
example : FromSpecies exTwo 300 1e5 (fromR "r" [("A", -1), ("B", 2)]) (.fromR 300 1e5 "r") ∧
    (∃ t, (ask exTwo 1 (.fromR 300 1e5 "r") ESt.init).1 = .ok (.reac t)) ∧
    (fromR "r" [("A", -1), ("B", 2)]).reactants = [("A", -1)] ++ [("B", 2)] := ⟨.name "r" rfl, ⟨_, exTwo_ask 0 300 1e5⟩, rfl⟩

/-! ### C44 Substances defined by a reaction -/

/-- The queries that compute the substance `x` in the state `s`: by record, or by a name for which there is nothing in the cache. -/
inductive ComputesSub (env : Env PS EPS) (s : ESt PS EPS) (T P : ℝ) (x : Subst) : Query → Prop
  | record : ComputesSub env s T P x (.subRec T P x)
  | name (y : String) (h : env.db.subs.lookup y = some x) (hm : s.subC.find ⟨T, P, y⟩ = none) (hl : s.subC.entries.length < env.maxCache) :
      ComputesSub env s T P x (.sub T P y)

lemma ComputesSub.val {env : Env PS EPS} {n : Nat} {T P : ℝ} {x : Subst} {q : Query} {s : ESt PS EPS} (hq : ComputesSub env s T P x q)
    {t : TPS} (h : (ask env (n + 1) q s).1 = .ok (.sub t)) : (substRec env (run env n) T P x s).1 = .ok t := by
  cases hq with
  | record =>
    obtain ⟨u, hu, h⟩ := EM.of_bind_ok h
    have : u = t := by injection h with h; injection h
    exact this ▸ hu
  | name y hy hm hl =>
    obtain ⟨u, hu, h⟩ := EM.of_bind_ok h
    have : u = t := by injection h with h; injection h
    subst this
    have e1 : getSub env y s = (.ok x, s) := by unfold getSub; rw [hy]; rfl
    have e : (getSub env y >>= fun v => substRec env (run env n) T P v) s = substRec env (run env n) T P x s := by
      rw [EM.bind_of_ok (congrArg Prod.fst e1), congrArg Prod.snd e1]
    have ev : Cache.evict env.maxCache s.subC = s.subC := by unfold Cache.evict; rw [if_neg (by omega)]
    simp only [run] at hu
    unfold cached at hu
    split at hu
    · simp only [ev, hm] at hu
      rw [e] at hu
      split at hu
      · rename_i v s' he
        rw [he]; exact hu
      · exact hu
    · rw [e] at hu; exact hu

/-- The other species of a reaction. -/
def others (own : String) (l : List (String × ℝ)) : List (String × ℝ) := l.filter fun e => e.1 ≠ own

/-- The pairs of reaction property and substance property. -/
def allProps : List ((TPR → TS) × (TPS → TS)) :=
  [(TPR.Cp, TPS.Cp), (TPR.G, TPS.G), (TPR.H, TPS.H), (TPR.S, TPS.S), (TPR.V, TPS.V), (TPR.Cv, TPS.Cv), (TPR.U, TPS.U), (TPR.A, TPS.A)]

lemma subScaled_val {p : (TPR → TS) × (TPS → TS)} (hp : p ∈ allProps) (t y : TPS) (c : ℝ) :
    (p.2 (subScaled t y c)).val = (p.2 t).val - c * (p.2 y).val := by
  simp only [allProps, List.mem_cons, List.not_mem_nil, or_false] at hp
  rcases hp with rfl | rfl | rfl | rfl | rfl | rfl | rfl | rfl <;> simp [subScaled, mul_comm]

lemma divAll_val {p : (TPR → TS) × (TPS → TS)} (hp : p ∈ allProps) (t : TPS) (c : ℝ) : (p.2 (divAll t c)).val = (p.2 t).val / c := by
  simp only [allProps, List.mem_cons, List.not_mem_nil, or_false] at hp
  rcases hp with rfl | rfl | rfl | rfl | rfl | rfl | rfl | rfl <;> simp [divAll]

lemma ofReaction_val {p : (TPR → TS) × (TPS → TS)} (hp : p ∈ allProps) (t : TPR) : (p.2 (ofReaction t)).val = (p.1 t).val := by
  simp only [allProps, List.mem_cons, List.not_mem_nil, or_false] at hp
  rcases hp with rfl | rfl | rfl | rfl | rfl | rfl | rfl | rfl <;> rfl

lemma subtractOthers_ok {env : Env PS EPS} {n : Nat} {T P : ℝ} {own : String} (l : List (String × ℝ)) (t u : TPS) (s : ESt PS EPS)
    (h : (subtractOthers (run env n) T P own l t s).1 = .ok u) :
    ∃ ts s', Asked env n T P s (others own l) ts s' ∧
      ∀ p ∈ allProps, stoich (others own l) ts (fun y => (p.2 y).val) = (p.2 t).val - (p.2 u).val := by
  induction l generalizing t s with
  | nil =>
    have hu : t = u := by injection h
    subst hu
    exact ⟨[], s, .nil s, fun p _ => by simp [stoich, others]⟩
  | cons e l ih =>
    obtain ⟨y, c⟩ := e
    unfold subtractOthers at h
    split at h
    · rename_i hy
      obtain ⟨ty, hty, h⟩ := EM.of_bind_ok h
      obtain ⟨ts, s', h1, h2⟩ := ih _ _ h
      have e1 : others own ((y, c) :: l) = (y, c) :: others own l := by simp [others, hy]
      rw [e1]
      refine ⟨ty :: ts, s', .cons (Prod.ext hty rfl) h1, fun p hp => ?_⟩
      have e2 : stoich ((y, c) :: others own l) (ty :: ts) (fun y => (p.2 y).val) =
        c * (p.2 ty).val + stoich (others own l) ts (fun y => (p.2 y).val) := by simp [stoich]
      rw [e2, h2 p hp, subScaled_val hp]
      ring
    · rename_i hy
      have hy := not_not.mp hy
      have e1 : others own ((y, c) :: l) = others own l := by simp [others, hy]
      rw [e1]
      exact ih _ _ h

/-- The engine has such a definition for `x`: a record computed from the reaction `re`. -/
structure DefinedBy (env : Env PS EPS) (x : Subst) (re : Reac) : Prop where
  notH : x.symbol ≠ "H+"
  dc : x.reacdc = true ∨ (x.gen = .unset ∧ x.mT = .unset ∧ x.mP = .unset)
  name : x.reactionSymbol ≠ ""
  found : env.db.reacs.lookup x.reactionSymbol = some re

/-- **C44 (partial)** (full statement: without the conditions on the pressure correction and on the fallback.)  With the substance's own
result, the stoichiometric sum over its reaction of every property is the property of the reaction, when no constant-volume correction is
applied after the reaction and undefined properties are not replaced.  The reaction is asked first, then the other species, with the
pressure correction of gases switched on. -/
theorem C44_closure_partial {env : Env PS EPS} {n : Nat} {T P c : ℝ} {x : Subst} {re : Reac} (hd : DefinedBy env x re)
    (hx : re.reactants.lookup x.symbol = some c) (hc0 : c ≠ 0)
    (hc : x.mP ≠ .CON ∨ (re.mP ≠ .OFF ∧ re.mP ≠ .unset)) (hfb : env.fallback = false) {s : ESt PS EPS} {q : Query}
    (hq : ComputesSub env s T P x q) {t : TPS} (h : (ask env (n + 1) q s).1 = .ok (.sub t)) :
    ∃ s0 s1 s2 tpr ts, s0.pcorr = true ∧ s0.subC = s.subC ∧ s0.reacC = s.reacC ∧
      (run env n).reac T P x.reactionSymbol s0 = (.ok tpr, s1) ∧ Asked env n T P s1 (others x.symbol re.reactants) ts s2 ∧
      ∀ p ∈ [(TPR.Cp, TPS.Cp), (TPR.G, TPS.G), (TPR.H, TPS.H), (TPR.S, TPS.S), (TPR.V, TPS.V), (TPR.Cv, TPS.Cv), (TPR.U, TPS.U),
        (TPR.A, TPS.A)], c * (p.2 t).val + stoich (others x.symbol re.reactants) ts (fun y => (p.2 y).val) = (p.1 tpr).val := by
  have h := hq.val h
  have hdc : x.isReacDC = true := by
    rcases hd.dc with h | h <;> simp [Subst.isReacDC, Subst.noMethods, h]
  obtain ⟨_, _, h⟩ := EM.of_bind_ok h
  have hs1 : (setPrefs env x s).2.subC = s.subC := by
    simp only [setPrefs, EM.change]
    split
    · split <;> rfl
    · rfl
  have hs2 : (setPrefs env x s).2.reacC = s.reacC := by
    simp only [setPrefs, EM.change]
    split
    · split <;> rfl
    · rfl
  generalize (setPrefs env x s).2 = s0 at h hs1 hs2
  rw [if_neg hd.notH] at h
  obtain ⟨t1, ht1, h⟩ := EM.of_bind_ok h
  have e0 : fallback env.fallback t1 x = t := by injection h
  rw [hfb] at e0
  have e0 : t1 = t := e0
  subst e0
  rw [if_pos hdc] at ht1
  obtain ⟨_, _, h⟩ := EM.of_bind_ok ht1
  rw [if_pos hd.name] at h
  obtain ⟨re', hre, h⟩ := EM.of_bind_ok h
  have e1 : re = re' := by
    unfold getReac at hre
    rw [hd.found] at hre
    injection hre
  subst e1
  have hs : ∀ s, (getReac env x.reactionSymbol s).2 = s := fun s => by unfold getReac; rw [hd.found]; rfl
  rw [hs] at h
  obtain ⟨tpr, htpr, h⟩ := EM.of_bind_ok h
  obtain ⟨u, hu, h⟩ := EM.of_bind_ok h
  obtain ⟨_, _, h⟩ := EM.of_bind_ok h
  simp only at h
  rw [if_neg (by rintro ⟨h1, h2⟩; rcases hc with h | ⟨h, h'⟩; exacts [h h1, h2.elim h h'])] at h
  have e2 : divAll u ((re.reactants.lookup x.symbol).getD 0) = t1 := by injection h
  rw [hx] at e2
  obtain ⟨ts, s2, h1, h2⟩ := subtractOthers_ok _ _ _ _ hu
  refine ⟨{ s0 with pcorr := true }, _, s2, tpr, ts, rfl, hs1, hs2, Prod.ext htpr rfl, h1, fun p hp => ?_⟩
  rw [h2 p hp, ofReaction_val hp, ← e2, divAll_val hp]
  simp only [Option.getD_some]
  field_simp
  ring

/-- Properties of a reaction: G is `g`, the rest 0. -/
noncomputable def refR (g : ℝ) : TPR := { zeroTPR with G := asg g }

/-- X = A with a reaction that carries its own properties (`GenEoS.CON`), and a constant-volume correction for X if `con`. -/
noncomputable def exDC (con : Bool) : Subst := { dcSub "X" "r" with mP := if con then .CON else .unset }

/-- The reaction of the example. -/
noncomputable def exDCR : Reac := ⟨"r", [("A", -1), ("X", 1)], 298.15, 1e5, .CON, .unset, .unset, refR 3, {}⟩

/-- The engine of the example. -/
noncomputable def exClosure (con : Bool) : Env Unit Unit := exEnv [conSub "A" 2, exDC con] [exDCR]

lemma exClosure_reac (con : Bool) (P : ℝ) (s : ESt Unit Unit) (hr : s.reacC = ⟨[], []⟩) : ∃ s1, s1.subC = s.subC ∧
    (run (exClosure con) 1).reac 300 P "r" s = (.ok (refR 3), s1) := by
  have e := cached_miss (env := exClosure con) (get := ESt.reacC) (set := fun c s => { s with reacC := c }) (k := ⟨300, P, "r"⟩) (s := s)
    (s' := s) (m := reacSym (exClosure con) (run (exClosure con) 0) 300 P "r") (v := refR 3) (fun _ => rfl) (by rw [hr]; simp [exClosure, exEnv])
    rfl (by rw [hr]; rfl) rfl
  refine ⟨_, ?_, e⟩
  rfl

lemma exClosure_asked (con : Bool) (P c : ℝ) (s : ESt Unit Unit) (hs : s.subC = ⟨[], []⟩) : ∃ s2,
    Asked (exClosure con) 1 300 P s [("A", c)] [refGV 2 1] s2 := by
  refine ⟨_, .cons (run_miss (v := conSub "A" 2) rfl ?_ ?_ (substRec_con _ _ _ 300 P "A" 2 (by decide) s)) (.nil _)⟩
  · rw [hs]; simp
  · rw [hs]; rfl

lemma exClosure_ask (con : Bool) (P : ℝ) : (ask (exClosure con) 2 (.subRec 300 P (exDC con)) ESt.init).1 =
    .ok (.sub (if con then conMolVol 300 P (refGV 0 1) 1e5 (divAll (subScaled (ofReaction (refR 3)) (refGV 2 1) (-1)) 1)
      else divAll (subScaled (ofReaction (refR 3)) (refGV 2 1) (-1)) 1)) := by
  obtain ⟨s1, h1, h2⟩ := exClosure_reac con P { (setPrefs (exClosure con) (exDC con) ESt.init).2 with pcorr := true } rfl
  obtain ⟨s2, h3⟩ := exClosure_asked con P (-1) s1 (h1.trans rfl)
  have ef : (exDCR.reactants.filter fun e => e.1 ≠ (exDC con).symbol) = [("A", -1)] := by simp [exDCR, exDC, dcSub]
  have e := substRec_dc_run (env := exClosure con) (n := 1) (T := 300) (P := P) (x := exDC con) (s := ESt.init)
    (re := exDCR) (tpr := refR 3) (ts := [refGV 2 1]) (s1 := s1) (s2 := s2)
    (by show "X" ≠ "H+"; decide) (by cases con <;> rfl) (by show "r" ≠ ""; decide) rfl h2 (by rw [ef]; exact h3) rfl (fun t => rfl)
  rw [ef] at e
  have e2 : ask (exClosure con) 2 (.subRec 300 P (exDC con)) =
    (substRec (exClosure con) (run (exClosure con) 1) 300 P (exDC con) >>= fun t => pure (.sub t)) := rfl
  rw [e2, EM.bind_of_ok (congrArg Prod.fst e)]
  cases con <;> simp [exDC, dcSub, exDCR] <;> rfl

lemma exClosure_defined (con : Bool) : DefinedBy (exClosure con) (exDC con) exDCR :=
  ⟨by show "X" ≠ "H+"; decide, Or.inl rfl, by show "r" ≠ ""; decide, rfl⟩

/-- X = A: the definition, and a result. -/
example : DefinedBy (exClosure false) (exDC false) exDCR ∧ exDCR.reactants.lookup (exDC false).symbol = some 1 ∧
    (exDC false).mP ≠ .CON ∧ (exClosure false).fallback = false ∧ ComputesSub (exClosure false) ESt.init 300 2e5 (exDC false) (.sub 300 2e5 "X") ∧
    ∃ t, (ask (exClosure false) 2 (.subRec 300 2e5 (exDC false)) ESt.init).1 = .ok (.sub t) ∧ t.G.val = 5 := by
  refine ⟨exClosure_defined false, rfl, by simp [exDC], rfl, .name "X" rfl rfl (by simp [exClosure, exEnv, ESt.init]), _,
    exClosure_ask false 2e5, ?_⟩
  simp [divAll, subScaled, ofReaction, refR, refGV, asg]
  norm_num

/-- **C44** is violated when the record asks for the constant-volume pressure correction and the reaction has none: X = A with reaction
G = 3, G(A) = 2 gives G(X) = 6 at 2 bar, so that G(X) - G(A) = 4. -/
theorem C44_closure_refuted : ∃ (env : Env Unit Unit) (x : Subst) (re : Reac) (c : ℝ) (q : Query) (t : TPS), DefinedBy env x re ∧
    re.reactants.lookup x.symbol = some c ∧ c ≠ 0 ∧
    env.fallback = false ∧ ComputesSub env ESt.init 300 2e5 x q ∧ (ask env 2 q ESt.init).1 = .ok (.sub t) ∧
    ∀ s0 s1 s2 tpr ts, s0.pcorr = true → s0.subC = (ESt.init : ESt Unit Unit).subC → s0.reacC = (ESt.init : ESt Unit Unit).reacC →
      (run env 1).reac 300 2e5 x.reactionSymbol s0 = (.ok tpr, s1) → Asked env 1 300 2e5 s1 (others x.symbol re.reactants) ts s2 →
      c * t.G.val + stoich (others x.symbol re.reactants) ts (fun y => y.G.val) ≠ tpr.G.val := by
  refine ⟨exClosure true, exDC true, exDCR, 1, .subRec 300 2e5 (exDC true), _, exClosure_defined true, rfl, one_ne_zero, rfl, .record,
    exClosure_ask true 2e5, ?_⟩
  intro s0 s1 s2 tpr ts _ hs hr h1 h2
  obtain ⟨s1', e1, e2⟩ := exClosure_reac true 2e5 s0 hr
  have e3 : (Out.ok tpr, s1) = (Out.ok (refR 3), s1') := h1.symm.trans e2
  injection e3 with e3 e4
  injection e3 with e3
  subst e3 e4
  have ef : others (exDC true).symbol exDCR.reactants = [("A", -1)] := by simp [others, exDCR, exDC, dcSub]
  rw [ef] at h2 ⊢
  obtain ⟨_, e5⟩ := exClosure_asked true 2e5 (-1) s1 (e1.trans hs)
  have := h2.unique e5
  subst this
  simp [stoich, conMolVol, divAll, subScaled, ofReaction, refR, refGV, asg, TS.has, pbar]
  norm_num

end ThermoFun.Engine
