import Verif.Props.Engine

/-!
# Termination of the engine's queries (C46)

The model runs with a bound on the recursion depth; `deep` says that the bound was reached.
-/

namespace ThermoFun.Engine

variable {PS EPS : Type}

/-- The definition of the substance `y` refers to the substance `z`: `y` comes from a reaction in which `z` takes part, or `y` uses the
Akinfiev-Diamond model and `z` is the solvent.  A species without methods of its own that names the reaction is refused when the reaction is
computed from its species, so it does not count. -/
inductive Refers (env : Env PS EPS) (y z : String) : Prop
  | other (v : Subst) (re : Reac) (hy : env.db.subs.lookup y = some v) (hH : v.symbol ≠ "H+") (hd : v.isReacDC = true)
      (hn : v.reactionSymbol ≠ "") (hr : env.db.reacs.lookup v.reactionSymbol = some re) (hz : z ∈ re.reactants.map Prod.fst)
      (hne : z ≠ v.symbol)
  | species (v : Subst) (re : Reac) (hy : env.db.subs.lookup y = some v) (hH : v.symbol ≠ "H+") (hd : v.isReacDC = true)
      (hn : v.reactionSymbol ≠ "") (hr : env.db.reacs.lookup v.reactionSymbol = some re) (hz : z ∈ re.reactants.map Prod.fst)
      (hre : re.gen = .unset ∧ re.mT = .unset ∧ re.mP = .unset)
      (hok : ∀ u, env.db.subs.lookup z = some u → ¬ (u.noMethods = true ∧ u.reactionSymbol = re.symbol))
  | solvent (v : Subst) (hy : env.db.subs.lookup y = some v) (hH : v.symbol ≠ "H+") (hd : v.isReacDC = false) (ha : v.mP = .AKI)
      (hz : z = "H2O@" ∨ ∃ u, (z, u) ∈ env.db.subs ∧ u.cls = .AQSOLVENT)

/-- The definitions are not circular: `rk` falls along them; and records marked as computed from a reaction name one. -/
structure Ranked (env : Env PS EPS) (rk : String → Nat) : Prop where
  falls : ∀ y z, Refers env y z → rk z < rk y
  named : ∀ y v, env.db.subs.lookup y = some v → v.reacdc = true → v.reactionSymbol ≠ ""

/-- The same for a record handed in from outside. -/
def QNamed : Query → Prop
  | .subRec _ _ x => x.reacdc = true → x.reactionSymbol ≠ ""
  | _ => True

/-- The solvent symbol is the default one or that of a solvent of the database. -/
def SolvOk (env : Env PS EPS) (s : ESt PS EPS) : Prop :=
  s.solventSymbol = "H2O@" ∨ ∃ u, (s.solventSymbol, u) ∈ env.db.subs ∧ u.cls = .AQSOLVENT

lemma stable_solvOk (env : Env PS EPS) : Stable env (SolvOk env) where
  prefs x s h := by
    simp only [setPrefs, EM.change]
    split
    · split
      · rename_i y hy
        right
        unfold lastSolvent at hy
        obtain ⟨e, he, rfl⟩ := Option.map_eq_some_iff.mp hy
        have := List.mem_of_getLast? he
        rw [List.mem_filter] at this
        exact ⟨e.2, this.1, by simpa [Subst.isSolvent] using this.2⟩
      · exact h
    · exact h
  state _ _ h := h
  flag _ _ h := h
  ps _ _ h := h
  el _ _ h := h

lemma keeps_solvOk (env : Env PS EPS) (n : Nat) (q : Query) : U (SolvOk env) False (ask env n q) :=
  u_ask (stable_solvOk env) (fun n => u_run (stable_solvOk env) (fun _ h => h) (fun _ _ h => h) (fun _ _ _ _ _ _ _ _ h _ => h) n) n q

/-- Depth that is enough for the substance `y`. -/
def need (rk : String → Nat) (y : String) : Nat := 2 * rk y + 2

lemma isReacDC_con (x : Subst) : ({ x with gen := .CON } : Subst).isReacDC = x.reacdc := by
  cases h : x.reacdc <;> simp [Subst.isReacDC, Subst.noMethods, h]

section Ranked

variable {env : Env PS EPS} {rk : String → Nat} (h : Ranked env rk)

include h

/-- Enough depth for substances, for reactions and for the reference record. -/
lemma rk_run (F : Nat) :
    (∀ y, need rk y ≤ F → ∀ T P, U (SolvOk env) True ((run env F).sub T P y)) ∧
    (∀ x, 1 ≤ F → (∀ re, Denotes env x re → re.fromReactants = true → ∀ e ∈ re.reactants,
        (∀ v, env.db.subs.lookup e.1 = some v → ¬ (v.noMethods = true ∧ v.reactionSymbol = re.symbol)) → need rk e.1 + 1 ≤ F) →
      ∀ T P, U (SolvOk env) True ((run env F).reac T P x)) ∧
    (∀ x : Subst, x.isReacDC = false → x.gen = .CON → 1 ≤ F → ∀ T P, U (SolvOk env) True ((run env F).direct T P x)) := by
  induction F with
  | zero =>
    refine ⟨fun y hy => ?_, fun x hx => ?_, fun x _ _ hx => ?_⟩
    · unfold need at hy; omega
    · omega
    · omega
  | succ F ih =>
    obtain ⟨ih1, ih2, ih3⟩ := ih
    have hI := stable_solvOk env
    refine ⟨fun y hy T P => ?_, fun x _ hx T P => ?_, fun x hd hg _ T P => ?_⟩
    · have hb : U (SolvOk env) True (getSub env y >>= fun v => substRec env (run env F) T P v) := by
        refine u_bind_getSub _ fun v hv => u_substRec hI T P v (fun hH hd => ⟨?_, ?_, ?_⟩) ?_
        · intro hn re hre
          refine ih2 _ (by unfold need at hy; omega) (fun re' hre' hf e he hok => ?_) T P
          have hee : re = re' := by
            cases hre' with
            | record _ h => rw [hre] at h; injection h
            | text m hno => rw [hre] at hno; cases hno
          subst hee
          have := h.falls y e.1 (.species v re hv hH hd hn hre (List.mem_map_of_mem he) (by
            simp only [Reac.fromReactants, decide_eq_true_eq] at hf; exact ⟨hf.1, hf.2.2, hf.2.1⟩) hok)
          unfold need at hy ⊢; omega
        · intro hn re hre e he hne
          have := h.falls y e.1 (.other v re hv hH hd hn hre (List.mem_map_of_mem he) hne)
          exact ih1 e.1 (by unfold need at hy ⊢; omega) T P
        · intro hn
          have hnd : v.reacdc = false := by
            cases hv' : v.reacdc with
            | false => rfl
            | true => exact absurd hn (h.named y v hv hv')
          exact ih3 _ (by rw [isReacDC_con, hnd]) rfl (by unfold need at hy; omega) T P
        · intro hH hd _ ha s hs T P
          have := h.falls y s.solventSymbol (.solvent v hv hH hd ha hs)
          exact ih1 _ (by unfold need at hy ⊢; omega) T P
      exact U.cached env (fun _ _ => rfl) hb (fun _ h => h) (fun s v h _ => (hb s h).1)
    · have hb : U (SolvOk env) True (reacSym env (run env F) T P x) :=
        u_reacSym hI T P x fun re hre hf e he hok => ih1 e.1 (by have := hx re hre hf e he hok; omega) T P
      exact U.cached env (fun _ _ => rfl) hb (fun _ h => h) (fun s v h _ => (hb s h).1)
    · refine u_substRec hI T P x (fun _ hd' => ?_) (fun _ _ hg' => absurd hg hg')
      rw [hd] at hd'; cases hd'

/-- **C46 (partial)** (full statement: for every database and every query there is such a bound.)  If the definitions of substances by
reactions are not circular, every query, after any history, comes to its end within a recursion depth given by the length of the longest
chain of definitions. -/
theorem C46_terminates_partial {R : Nat} (hR : ∀ y, rk y ≤ R) {N K : Nat} (hN : 2 * R + 4 ≤ N) (q : Query) (hq : QNamed q) (qs : List Query) :
    (ask env N q (after env K ESt.init qs)).1 ≠ .deep := by
  have hs : SolvOk env (after env K ESt.init qs) := after_keeps K (fun q => keeps_solvOk env K q) qs _ (Or.inl rfl)
  generalize after env K ESt.init qs = s at hs
  suffices hU : U (SolvOk env) True (ask env N q) by
    have := (hU s hs).2 trivial
    intro hd
    rw [hd] at this
    exact this
  obtain ⟨N, rfl⟩ : ∃ n, N = n + 1 := ⟨N - 1, by omega⟩
  have hI := stable_solvOk env
  have hs1 : ∀ y T P, U (SolvOk env) True ((run env (N + 1)).sub T P y) := fun y T P =>
    (rk_run h (N + 1)).1 y (by have := hR y; unfold need; omega) T P
  have hs2 : ∀ y T P, U (SolvOk env) True ((run env N).sub T P y) := fun y T P =>
    (rk_run h N).1 y (by have := hR y; unfold need; omega) T P
  have hr1 : ∀ x T P, U (SolvOk env) True ((run env (N + 1)).reac T P x) := fun x T P =>
    (rk_run h (N + 1)).2.1 x (by omega) (fun _ _ _ e _ _ => by have := hR e.1; unfold need; omega) T P
  have hr2 : ∀ x T P, U (SolvOk env) True ((run env N).reac T P x) := fun x T P =>
    (rk_run h N).2.1 x (by omega) (fun _ _ _ e _ _ => by have := hR e.1; unfold need; omega) T P
  cases q <;> unfold ask
  · exact (hs1 _ _ _).bind fun _ => U.pure _
  · rename_i T P x
    refine U.bind (u_substRec hI T P x (fun hH hd => ⟨fun _ _ _ => hr2 _ _ _, fun _ _ _ e _ _ => hs2 _ _ _, fun hn => ?_⟩)
      fun _ _ _ _ _ _ => hs2 _) fun _ => U.pure _
    have hnd : x.reacdc = false := by
      cases hv' : x.reacdc with
      | false => rfl
      | true => exact absurd hn (hq hv')
    exact (rk_run h N).2.2 _ (by rw [isReacDC_con, hnd]) rfl (by omega) T P
  · exact (hr1 _ _ _).bind fun _ => U.pure _
  · exact (u_reacRec hI _ _ _ fun _ _ _ _ => hs1 _ _ _).bind fun _ => U.pure _
  · exact (u_getReac _).bind fun _ => (u_reacFromReactants hI _ _ _ fun _ _ _ => hs1 _ _ _).bind fun _ => U.pure _
  · exact (u_reacFromReactants hI _ _ _ fun _ _ _ => hs1 _ _ _).bind fun _ => U.pure _
  · exact (u_propsSolvent hI.toQuiet _ _ _ _).bind fun _ => U.pure _
  · exact (u_propsSolventRec hI.toQuiet _ _ _ _).bind fun _ => U.pure _
  · exact (u_electro hI.toQuiet _ _ _ _).bind fun _ => U.pure _
  · exact (u_electroRec hI.toQuiet _ _ _ _).bind fun _ => U.pure _

end Ranked

/-- X = A, where X is defined by the reaction (Props/Engine.lean): X refers to A. -/
lemma exClosure_ranked (con : Bool) (more : List Subst) (hm : ∀ x ∈ more, x.gen = .CON ∧ x.reacdc = false ∧ x.mP ≠ .AKI) :
    Ranked (exEnv (more ++ [conSub "A" 2, exDC con]) [exDCR]) (fun y => if y = "X" then 1 else 0) := by
  have hsub : ∀ y v, (exEnv (more ++ [conSub "A" 2, exDC con]) [exDCR]).db.subs.lookup y = some v →
      (v.isReacDC = false ∧ v.mP ≠ .AKI ∧ v.reacdc = false) ∨ (y = "X" ∧ v = exDC con) := by
    intro y v hy
    have := mem_of_lookup hy
    simp only [exEnv, exDb, List.map_append, List.map_cons, List.map_nil, List.mem_append, List.mem_cons, Prod.mk.injEq, List.not_mem_nil,
      or_false, List.mem_map] at this
    rcases this with ⟨x, hx, _, rfl⟩ | ⟨_, rfl⟩ | ⟨h1, rfl⟩
    · obtain ⟨h1, h2, h3⟩ := hm x hx
      exact Or.inl ⟨by simp [Subst.isReacDC, Subst.noMethods, h1, h2], h3, h2⟩
    · exact Or.inl ⟨by simp [Subst.isReacDC, Subst.noMethods, conSub], by simp [conSub], rfl⟩
    · exact Or.inr ⟨h1, rfl⟩
  constructor
  · intro y z hz
    cases hz with
    | other v re hy _ hd _ hr hz hne =>
      rcases hsub y v hy with ⟨h1, -⟩ | ⟨rfl, rfl⟩
      · rw [h1] at hd; cases hd
      · simp only [if_pos rfl]
        have : z ≠ "X" := hne
        simp [this]
    | species v re hy _ hd _ hr hz hre =>
      rcases hsub y v hy with ⟨h1, -⟩ | ⟨rfl, rfl⟩
      · rw [h1] at hd; cases hd
      · have : exDCR = re := by
          have e : (exEnv (more ++ [conSub "A" 2, exDC con]) [exDCR]).db.reacs.lookup (exDC con).reactionSymbol = some exDCR := rfl
          rw [e] at hr; injection hr
        subst this
        cases hre.1
    | solvent v hy _ hd ha =>
      rcases hsub y v hy with ⟨_, h1, -⟩ | ⟨rfl, rfl⟩
      · exact absurd ha h1
      · cases con <;> cases hd
  · intro y v hy hv
    rcases hsub y v hy with ⟨_, _, h1⟩ | ⟨rfl, rfl⟩
    · rw [h1] at hv; cases hv
    · show "r" ≠ ""; decide

example : Ranked (exClosure true) (fun y => if y = "X" then 1 else 0) ∧ Refers (exClosure true) "X" "A" ∧
    (∀ y : String, (if y = "X" then 1 else 0) ≤ 1) :=
  ⟨exClosure_ranked true [] (by simp), .other (exDC true) exDCR rfl (by show "X" ≠ "H+"; decide) rfl (by show "r" ≠ ""; decide) rfl
    (by simp [exDCR]) (by show "A" ≠ "X"; decide), fun y => by split <;> omega⟩

/-- A record marked as computed from a reaction that names none. -/
noncomputable def exLoop : Env Unit Unit := exEnv [dcSub "X" ""] []

lemma exLoop_direct (n : Nat) (T P : ℝ) (x : Subst) (hx : x.symbol ≠ "H+") (hd : x.reacdc = true) (hr : x.reactionSymbol = "")
    (s : ESt Unit Unit) : ((run exLoop n).direct T P x s).1 = .deep := by
  induction n generalizing x s with
  | zero => rfl
  | succ n ih =>
    have hdc : x.isReacDC = true := by simp [Subst.isReacDC, hd]
    have e : (run exLoop (n + 1)).direct T P x s = (if x.symbol = "H+" then pure zeroTPS else do
      let t ← (if x.isReacDC then reacDC exLoop (run exLoop n) T P x else methodsStep exLoop (run exLoop n) T P x)
      pure (fallback false t x) : EM Unit Unit TPS) (setPrefs exLoop x s).2 := rfl
    rw [e, if_neg hx, if_pos hdc]
    have e2 : reacDC exLoop (run exLoop n) T P x (setPrefs exLoop x s).2 =
        (run exLoop n).direct T P { x with gen := .CON } { (setPrefs exLoop x s).2 with pcorr := true } := by
      unfold reacDC
      have h1 : ∀ s : ESt Unit Unit, setFlag true s = (.ok (), { s with pcorr := true }) := fun s => rfl
      rw [EM.bind_of_ok (congrArg Prod.fst (h1 _)), if_neg (by simp [hr])]
      rfl
    have e3 := ih { x with gen := .CON } hx hd hr { (setPrefs exLoop x s).2 with pcorr := true }
    rw [← e2] at e3
    generalize reacDC exLoop (run exLoop n) T P x = m at e3
    show (EM.bind m _ (setPrefs exLoop x s).2).1 = .deep
    unfold EM.bind
    rcases hm : m (setPrefs exLoop x s).2 with ⟨o, t⟩
    rw [hm] at e3
    simp only at e3
    subst e3
    rfl

/-- **C46** is violated: a query for a substance marked as computed from a reaction, whose record names no reaction, calls itself without
end, although there is no circular definition. -/
theorem C46_terminates_refuted : ∃ (env : Env Unit Unit) (q : Query), (∀ y z, ¬ Refers env y z) ∧
    ∀ n, (ask env n q ESt.init).1 = .deep := by
  refine ⟨exLoop, .sub 300 1e5 "X", ?_, ?_⟩
  · have hsub : ∀ y v, exLoop.db.subs.lookup y = some v → v = dcSub "X" "" := by
      intro y v hy
      have := mem_of_lookup hy
      simp only [exLoop, exEnv, exDb, List.map_cons, List.map_nil, List.mem_cons, Prod.mk.injEq, List.not_mem_nil, or_false] at this
      exact this.2
    intro y z hz
    cases hz with
    | other v re hy _ _ hn => rw [hsub y v hy] at hn; exact hn rfl
    | species v re hy _ _ hn => rw [hsub y v hy] at hn; exact hn rfl
    | solvent v hy _ hd => rw [hsub y v hy] at hd; cases hd
  · intro n
    have key : ((run exLoop n).sub 300 1e5 "X" (ESt.init : ESt Unit Unit)).1 = .deep := by
      cases n with
      | zero => rfl
      | succ n =>
        have e : (getSub exLoop "X" >>= fun v => substRec exLoop (run exLoop n) 300 1e5 v) (ESt.init : ESt Unit Unit) =
          (run exLoop (n + 1)).direct 300 1e5 (dcSub "X" "") ESt.init := rfl
        have e2 := exLoop_direct (n + 1) 300 1e5 (dcSub "X" "") (by show "X" ≠ "H+"; decide) rfl rfl ESt.init
        rw [← e] at e2
        have ev : Cache.evict exLoop.maxCache (ESt.init : ESt Unit Unit).subC = (ESt.init : ESt Unit Unit).subC := by
          unfold Cache.evict; rw [if_neg (by simp [exLoop, exEnv, ESt.init])]
        have hm : exLoop.memo = true := rfl
        have hf : (ESt.init : ESt Unit Unit).subC.find ⟨300, 1e5, "X"⟩ = none := rfl
        simp only [run, cached, hm, if_true, ev, hf]
        generalize (getSub exLoop "X" >>= fun v => substRec exLoop (run exLoop n) 300 1e5 v) = m at e2
        rcases hm : m (ESt.init : ESt Unit Unit) with ⟨o, t⟩
        rw [hm] at e2
        simp only at e2
        subst e2
        simp [hm]
    show (EM.bind _ _ _).1 = _
    unfold EM.bind
    rcases hm : (run exLoop n).sub 300 1e5 "X" (ESt.init : ESt Unit Unit) with ⟨o, t⟩
    rw [hm] at key
    simp only at key
    subst key
    rfl

end ThermoFun.Engine
