import Verif.Lemmas.EngineEx

/-!
Calculations that neither look at nor change the caches of substances and reactions.
-/

namespace ThermoFun.Engine

variable {PS EPS : Type}

/-- The calculation does not use the cache of substances. -/
def Obl {α : Type} (m : EM PS EPS α) : Prop := ∀ s c, m { s with subC := c } = ((m s).1, { (m s).2 with subC := c })

namespace Obl

variable {α β : Type}

lemma pure (a : α) : Obl (Pure.pure a : EM PS EPS α) := fun _ _ => rfl
lemma raise : Obl (EM.raise : EM PS EPS α) := fun _ _ => rfl
lemma lift (o : Res α) : Obl (EM.lift o : EM PS EPS α) := fun _ _ => by cases o <;> rfl
lemma read {f : ESt PS EPS → α} (hf : ∀ s c, f { s with subC := c } = f s) : Obl (EM.read f) := fun s c => by
  show (Out.ok (f { s with subC := c }), _) = _
  rw [hf]; rfl
lemma change {f : ESt PS EPS → ESt PS EPS} (hf : ∀ s c, f { s with subC := c } = { f s with subC := c }) : Obl (EM.change f) := fun s c => by
  show (Out.ok (), f { s with subC := c }) = _
  rw [hf]; rfl

lemma bind {m : EM PS EPS α} {f : α → EM PS EPS β} (hm : Obl m) (hf : ∀ a, Obl (f a)) : Obl (m >>= f) := by
  intro s c
  show EM.bind m f _ = ((EM.bind m f s).1, { (EM.bind m f s).2 with subC := c })
  unfold EM.bind
  rw [hm s c]
  rcases m s with ⟨o, t⟩
  cases o with
  | ok a => exact hf a t c
  | throw => rfl
  | ub => rfl
  | deep => rfl

lemma cached {K V : Type} [DecidableEq K] (env : Env PS EPS) {get : ESt PS EPS → Cache K V} {set : Cache K V → ESt PS EPS → ESt PS EPS}
    (hget : ∀ s c, get { s with subC := c } = get s) (hset : ∀ s c d, set d { s with subC := c } = { set d s with subC := c }) {k : K}
    {m : EM PS EPS V} (hm : Obl m) : Obl (cached env get set k m) := by
  intro s c
  unfold Engine.cached
  split
  · simp only
    rw [hget s c, hset s c, hget (set (Cache.evict env.maxCache (get s)) s) c]
    cases (get (set (Cache.evict env.maxCache (get s)) s)).find k with
    | some v => rfl
    | none =>
      simp only
      rw [hm]
      rcases m (set (Cache.evict env.maxCache (get s)) s) with ⟨o, t⟩
      cases o with
      | ok a =>
        simp only
        rw [hget t c, hset t c]
      | throw => rfl
      | ub => rfl
      | deep => rfl
  · exact hm s c

end Obl

variable (env : Env PS EPS)

lemma obl_setPrefs (x : Subst) : Obl (setPrefs env x) := Obl.change fun s c => by
  simp only
  split
  · split <;> rfl
  · rfl
lemma obl_setState (n : Int) : Obl (setState n : EM PS EPS Unit) := Obl.change fun s c => by
  split <;> rfl
lemma obl_getSub (x : String) : Obl (getSub env x) := by
  unfold getSub; split
  · exact Obl.pure _
  · exact Obl.raise

lemma obl_propsSolventRec (T P : ℝ) (x : Subst) (n : Int) : Obl (propsSolventRec env T P x n) := by
  unfold propsSolventRec
  refine (obl_setPrefs env x).bind fun _ => (obl_setState n).bind fun _ => (Obl.read fun _ _ => rfl).bind fun st => ?_
  split
  · split <;> first | exact Obl.lift _ | exact Obl.pure _
  · exact Obl.pure _

lemma obl_propsSolvent (T P : ℝ) (x : String) (n : Int) : Obl (propsSolvent env T P x n) :=
  Obl.cached env (fun _ _ => rfl) (fun _ _ _ => rfl) ((obl_getSub env x).bind fun v => obl_propsSolventRec env T P v n)

lemma obl_electroRec (T P : ℝ) (x : Subst) (n : Int) : Obl (electroRec env T P x n) := by
  unfold electroRec
  refine (obl_setPrefs env x).bind fun _ => (obl_setState n).bind fun _ => (Obl.read fun _ _ => rfl).bind fun st =>
    (obl_propsSolventRec env T P x st).bind fun ps => (Obl.read fun _ _ => rfl).bind fun st => ?_
  split
  · split <;> first | exact Obl.lift _ | exact Obl.pure _
  · exact Obl.pure _

lemma obl_electro (T P : ℝ) (x : String) (n : Int) : Obl (electro env T P x n) :=
  Obl.cached env (fun _ _ => rfl) (fun _ _ _ => rfl) ((obl_getSub env x).bind fun v => obl_electroRec env T P v n)

lemma obl_solventPS (T P : ℝ) : Obl (solventPS env T P) := (Obl.read fun _ _ => rfl).bind fun y => obl_propsSolvent env T P y _
lemma obl_solventEPS (T P : ℝ) : Obl (solventEPS env T P) := (Obl.read fun _ _ => rfl).bind fun y => obl_electro env T P y _
lemma obl_solventRec : Obl (solventRec env) := (Obl.read fun _ _ => rfl).bind fun y => obl_getSub env y

lemma obl_eosStep (T P : ℝ) (x : Subst) : Obl (eosStep env T P x) := by
  unfold eosStep
  split
  · exact Obl.pure _
  · exact Obl.lift _
  · exact (obl_solventPS env T P).bind fun _ => (obl_solventEPS env T P).bind fun _ => Obl.lift _
  · exact (obl_solventPS env T P).bind fun _ => (obl_solventEPS env T P).bind fun _ => Obl.lift _
  · exact (obl_solventRec env).bind fun _ => (obl_solventPS env _ _).bind fun _ => (obl_solventPS env T P).bind fun _ => Obl.lift _
  · exact (obl_solventRec env).bind fun _ => (obl_solventPS env _ _).bind fun _ => (obl_solventPS env T P).bind fun _ => Obl.lift _
  · exact Obl.pure _

lemma obl_tStep (T P : ℝ) (x : Subst) (t : TPS) : Obl (tStep env T P x t) := by
  unfold tStep
  split
  · exact Obl.pure _
  · split
    · exact Obl.lift _
    · split
      · exact Obl.lift _
      · exact Obl.pure _
    · exact Obl.pure _

lemma obl_pStep {r : Rec PS EPS} (T P : ℝ) (x : Subst) (h : x.mP ≠ .AKI) (t : TPS) : Obl (pStep env r T P x t) := by
  unfold pStep
  refine (Obl.read fun _ _ => rfl).bind fun fl => ?_
  split
  · exact Obl.pure _
  · split <;> first | exact Obl.lift _ | exact Obl.pure _ | (rename_i h'; exact absurd h' h)

lemma obl_waterStep (T P : ℝ) (x : Subst) : Obl (waterStep env T P x) := by
  unfold waterStep
  refine (Obl.read fun _ _ => rfl).bind fun st => ?_
  split
  · exact Obl.pure _
  · split <;> first | exact Obl.lift _ | (split <;> first | exact Obl.lift _ | exact Obl.pure _)

lemma obl_convStep (x : Subst) (t : TPS) : Obl (convStep env x t) := by
  unfold convStep
  split
  · split
    · split
      · exact Obl.pure _
      · exact Obl.raise
    · exact Obl.pure _
  · split <;> exact Obl.pure _

lemma obl_methodsStep {r : Rec PS EPS} (T P : ℝ) (x : Subst) (h : x.mP ≠ .AKI) : Obl (methodsStep env r T P x) := by
  unfold methodsStep
  refine Obl.bind ?_ fun t => obl_convStep env x t
  split
  · exact (obl_eosStep env T P x).bind fun a => (obl_tStep env T P x a).bind fun b => obl_pStep env T P x h b
  · exact obl_waterStep env T P x

end ThermoFun.Engine

namespace ThermoFun.Engine

variable {PS EPS : Type}

/-- The calculation does not use the cache of reactions. -/
def OblR {α : Type} (m : EM PS EPS α) : Prop := ∀ s c, m { s with reacC := c } = ((m s).1, { (m s).2 with reacC := c })

namespace OblR

variable {α β : Type}

lemma pure (a : α) : OblR (Pure.pure a : EM PS EPS α) := fun _ _ => rfl
lemma raise : OblR (EM.raise : EM PS EPS α) := fun _ _ => rfl
lemma lift (o : Res α) : OblR (EM.lift o : EM PS EPS α) := fun _ _ => by cases o <;> rfl
lemma read {f : ESt PS EPS → α} (hf : ∀ s c, f { s with reacC := c } = f s) : OblR (EM.read f) := fun s c => by
  show (Out.ok (f { s with reacC := c }), _) = _
  rw [hf]; rfl
lemma change {f : ESt PS EPS → ESt PS EPS} (hf : ∀ s c, f { s with reacC := c } = { f s with reacC := c }) : OblR (EM.change f) := fun s c => by
  show (Out.ok (), f { s with reacC := c }) = _
  rw [hf]; rfl

lemma bind {m : EM PS EPS α} {f : α → EM PS EPS β} (hm : OblR m) (hf : ∀ a, OblR (f a)) : OblR (m >>= f) := by
  intro s c
  show EM.bind m f _ = ((EM.bind m f s).1, { (EM.bind m f s).2 with reacC := c })
  unfold EM.bind
  rw [hm s c]
  rcases m s with ⟨o, t⟩
  cases o with
  | ok a => exact hf a t c
  | throw => rfl
  | ub => rfl
  | deep => rfl

lemma cached {K V : Type} [DecidableEq K] (env : Env PS EPS) {get : ESt PS EPS → Cache K V} {set : Cache K V → ESt PS EPS → ESt PS EPS}
    (hget : ∀ s c, get { s with reacC := c } = get s) (hset : ∀ s c d, set d { s with reacC := c } = { set d s with reacC := c }) {k : K}
    {m : EM PS EPS V} (hm : OblR m) : OblR (cached env get set k m) := by
  intro s c
  unfold Engine.cached
  split
  · simp only
    rw [hget s c, hset s c, hget (set (Cache.evict env.maxCache (get s)) s) c]
    cases (get (set (Cache.evict env.maxCache (get s)) s)).find k with
    | some v => rfl
    | none =>
      simp only
      rw [hm]
      rcases m (set (Cache.evict env.maxCache (get s)) s) with ⟨o, t⟩
      cases o with
      | ok a =>
        simp only
        rw [hget t c, hset t c]
      | throw => rfl
      | ub => rfl
      | deep => rfl
  · exact hm s c

end OblR

variable (env : Env PS EPS)

lemma oblR_setPrefs (x : Subst) : OblR (setPrefs env x) := OblR.change fun s c => by
  simp only
  split
  · split <;> rfl
  · rfl
lemma oblR_setState (n : Int) : OblR (setState n : EM PS EPS Unit) := OblR.change fun s c => by
  split <;> rfl
lemma oblR_getSub (x : String) : OblR (getSub env x) := by
  unfold getSub; split
  · exact OblR.pure _
  · exact OblR.raise

lemma oblR_propsSolventRec (T P : ℝ) (x : Subst) (n : Int) : OblR (propsSolventRec env T P x n) := by
  unfold propsSolventRec
  refine (oblR_setPrefs env x).bind fun _ => (oblR_setState n).bind fun _ => (OblR.read fun _ _ => rfl).bind fun st => ?_
  split
  · split <;> first | exact OblR.lift _ | exact OblR.pure _
  · exact OblR.pure _

lemma oblR_propsSolvent (T P : ℝ) (x : String) (n : Int) : OblR (propsSolvent env T P x n) :=
  OblR.cached env (fun _ _ => rfl) (fun _ _ _ => rfl) ((oblR_getSub env x).bind fun v => oblR_propsSolventRec env T P v n)

lemma oblR_electroRec (T P : ℝ) (x : Subst) (n : Int) : OblR (electroRec env T P x n) := by
  unfold electroRec
  refine (oblR_setPrefs env x).bind fun _ => (oblR_setState n).bind fun _ => (OblR.read fun _ _ => rfl).bind fun st =>
    (oblR_propsSolventRec env T P x st).bind fun ps => (OblR.read fun _ _ => rfl).bind fun st => ?_
  split
  · split <;> first | exact OblR.lift _ | exact OblR.pure _
  · exact OblR.pure _

lemma oblR_electro (T P : ℝ) (x : String) (n : Int) : OblR (electro env T P x n) :=
  OblR.cached env (fun _ _ => rfl) (fun _ _ _ => rfl) ((oblR_getSub env x).bind fun v => oblR_electroRec env T P v n)

lemma oblR_solventPS (T P : ℝ) : OblR (solventPS env T P) := (OblR.read fun _ _ => rfl).bind fun y => oblR_propsSolvent env T P y _
lemma oblR_solventEPS (T P : ℝ) : OblR (solventEPS env T P) := (OblR.read fun _ _ => rfl).bind fun y => oblR_electro env T P y _
lemma oblR_solventRec : OblR (solventRec env) := (OblR.read fun _ _ => rfl).bind fun y => oblR_getSub env y

lemma oblR_eosStep (T P : ℝ) (x : Subst) : OblR (eosStep env T P x) := by
  unfold eosStep
  split
  · exact OblR.pure _
  · exact OblR.lift _
  · exact (oblR_solventPS env T P).bind fun _ => (oblR_solventEPS env T P).bind fun _ => OblR.lift _
  · exact (oblR_solventPS env T P).bind fun _ => (oblR_solventEPS env T P).bind fun _ => OblR.lift _
  · exact (oblR_solventRec env).bind fun _ => (oblR_solventPS env _ _).bind fun _ => (oblR_solventPS env T P).bind fun _ => OblR.lift _
  · exact (oblR_solventRec env).bind fun _ => (oblR_solventPS env _ _).bind fun _ => (oblR_solventPS env T P).bind fun _ => OblR.lift _
  · exact OblR.pure _

lemma oblR_tStep (T P : ℝ) (x : Subst) (t : TPS) : OblR (tStep env T P x t) := by
  unfold tStep
  split
  · exact OblR.pure _
  · split
    · exact OblR.lift _
    · split
      · exact OblR.lift _
      · exact OblR.pure _
    · exact OblR.pure _

lemma oblR_pStep {r : Rec PS EPS} (T P : ℝ) (x : Subst) (h : x.mP ≠ .AKI) (t : TPS) : OblR (pStep env r T P x t) := by
  unfold pStep
  refine (OblR.read fun _ _ => rfl).bind fun fl => ?_
  split
  · exact OblR.pure _
  · split <;> first | exact OblR.lift _ | exact OblR.pure _ | (rename_i h'; exact absurd h' h)

lemma oblR_waterStep (T P : ℝ) (x : Subst) : OblR (waterStep env T P x) := by
  unfold waterStep
  refine (OblR.read fun _ _ => rfl).bind fun st => ?_
  split
  · exact OblR.pure _
  · split <;> first | exact OblR.lift _ | (split <;> first | exact OblR.lift _ | exact OblR.pure _)

lemma oblR_convStep (x : Subst) (t : TPS) : OblR (convStep env x t) := by
  unfold convStep
  split
  · split
    · split
      · exact OblR.pure _
      · exact OblR.raise
    · exact OblR.pure _
  · split <;> exact OblR.pure _

lemma oblR_methodsStep {r : Rec PS EPS} (T P : ℝ) (x : Subst) (h : x.mP ≠ .AKI) : OblR (methodsStep env r T P x) := by
  unfold methodsStep
  refine OblR.bind ?_ fun t => oblR_convStep env x t
  split
  · exact (oblR_eosStep env T P x).bind fun a => (oblR_tStep env T P x a).bind fun b => oblR_pStep env T P x h b
  · exact oblR_waterStep env T P x

/-- The record is not the hydrogen ion, has methods of its own, and does not ask for another substance. -/
structure Own (x : Subst) : Prop where
  notH : x.symbol ≠ "H+"
  dc : x.isReacDC = false
  aki : x.mP ≠ .AKI

variable {env}

lemma substRec_own {x : Subst} (h : Own x) (r : Rec PS EPS) (T P : ℝ) (s : ESt PS EPS) :
    substRec env r T P x s = (methodsStep env r T P x >>= fun t => pure (fallback env.fallback t x)) (setPrefs env x s).2 := by
  have e : substRec env r T P x s = (if x.symbol = "H+" then pure zeroTPS else do
    let t ← (if x.isReacDC then reacDC env r T P x else methodsStep env r T P x)
    pure (fallback env.fallback t x) : EM PS EPS TPS) (setPrefs env x s).2 := rfl
  rw [e, if_neg h.notH, h.dc]
  rfl

lemma obl_substRec {x : Subst} (h : Own x) (r : Rec PS EPS) (T P : ℝ) : Obl (substRec env r T P x) := by
  unfold substRec
  refine (obl_setPrefs env x).bind fun _ => ?_
  rw [if_neg h.notH, h.dc]
  exact (obl_methodsStep env T P x h.aki).bind fun _ => Obl.pure _

lemma oblR_substRec {x : Subst} (h : Own x) (r : Rec PS EPS) (T P : ℝ) : OblR (substRec env r T P x) := by
  unfold substRec
  refine (oblR_setPrefs env x).bind fun _ => ?_
  rw [if_neg h.notH, h.dc]
  exact (oblR_methodsStep env T P x h.aki).bind fun _ => OblR.pure _

/-- The recursive functions are not used. -/
lemma methodsStep_rec {x : Subst} (h : x.mP ≠ .AKI) (r r' : Rec PS EPS) (T P : ℝ) :
    methodsStep env r T P x = methodsStep env r' T P x := by
  have : ∀ t, pStep env r T P x t = pStep env r' T P x t := by
    intro t
    unfold pStep
    cases hm : x.mP <;> simp_all
  unfold methodsStep
  simp only [this]

lemma bind_pure_fst {α β : Type} (m : EM PS EPS α) (f : α → β) (s : ESt PS EPS) :
    ((m >>= fun a => (pure (f a) : EM PS EPS β)) s) = (match (m s).1 with
      | .ok a => (.ok (f a), (m s).2)
      | .throw => (.throw, (m s).2)
      | .ub => (.ub, (m s).2)
      | .deep => (.deep, (m s).2)) := by
  show EM.bind m _ s = _
  unfold EM.bind
  rcases m s with ⟨o, t⟩
  cases o <;> rfl

lemma bind_run {α β : Type} {m : EM PS EPS α} {f : α → EM PS EPS β} {s s' : ESt PS EPS} {a : α} (h : m s = (.ok a, s')) :
    (m >>= f) s = f a s' := by
  rw [EM.bind_of_ok (congrArg Prod.fst h), congrArg Prod.snd h]

lemma of_bind_run {α β : Type} {m : EM PS EPS α} {f : α → EM PS EPS β} {s s' : ESt PS EPS} {b : β} (h : (m >>= f) s = (.ok b, s')) :
    ∃ a s1, m s = (.ok a, s1) ∧ f a s1 = (.ok b, s') := by
  obtain ⟨a, ha, -⟩ := EM.of_bind_ok (congrArg Prod.fst h)
  have e : m s = (.ok a, (m s).2) := Prod.ext ha rfl
  exact ⟨a, _, e, by rw [← h, bind_run e]⟩

/-- The same calculation in two engines that differ in their conventions only. -/
lemma conv_rec {w a : String} {x : Subst} (h : Own x) (hfb : env.fallback = false) {f : TPS → TPS}
    (h0 : ∀ t, convStep env x t = pure t)
    (h1 : ∀ t, convStep { env with waterProperties := w, apparentProperties := a } x t = pure (f t)) (r r' : Rec PS EPS) (T P : ℝ)
    (s s1 : ESt PS EPS) (t : TPS) (ht : substRec env r T P x s = (.ok t, s1)) :
    substRec { env with waterProperties := w, apparentProperties := a } r' T P x s = (.ok (f t), s1) := by
  rw [substRec_own h] at ht ⊢
  rw [methodsStep_rec h.aki _ r]
  obtain ⟨v, s2, hv, h3⟩ := of_bind_run ht
  obtain ⟨rfl, rfl⟩ : v = t ∧ s2 = s1 := by
    rw [hfb] at h3
    injection h3 with h3 h4
    injection h3 with h3
    exact ⟨h3, h4⟩
  set m : EM PS EPS TPS := (if x.isSolvent = false ∧ x.isVapor = false then do
      let a ← eosStep env T P x
      let b ← tStep env T P x a
      pStep env r T P x b
    else waterStep env T P x) with hm
  have e2 : methodsStep env r T P x = m >>= fun t => convStep env x t := rfl
  have e3 : methodsStep { env with waterProperties := w, apparentProperties := a } r T P x =
    m >>= fun t => convStep { env with waterProperties := w, apparentProperties := a } x t := rfl
  rw [e2] at hv
  obtain ⟨z, s3, hz, hz2⟩ := of_bind_run hv
  rw [h0] at hz2
  obtain ⟨rfl, rfl⟩ : z = v ∧ s3 = s2 := by
    injection hz2 with h3 h4
    injection h3 with h3
    exact ⟨h3, h4⟩
  rw [e3]
  have e4 : (setPrefs { env with waterProperties := w, apparentProperties := a } x s).2 = (setPrefs env x s).2 := rfl
  rw [e4]
  refine (bind_run (a := f z) (s' := s3) ?_).trans ?_
  · rw [bind_run hz, h1]; rfl
  · simp only [hfb]
    rfl

lemma run_sub_own {n : Nat} {T P : ℝ} {y : String} {v : Subst} (hv : env.db.subs.lookup y = some v) (hmemo : env.memo = true)
    {s : ESt PS EPS} (hlen : s.subC.entries.length < env.maxCache) (hk : s.subC.find ⟨T, P, y⟩ = none) {t : TPS} {s' : ESt PS EPS} :
    substRec env (run env n) T P v s = (.ok t, s') → (run env (n + 1)).sub T P y s = (.ok t, remember T P y t s') := by
  intro h
  have e : (getSub env y >>= fun v => substRec env (run env n) T P v) s = (.ok t, s') := by
    have e2 : getSub env y s = (.ok v, s) := by unfold getSub; rw [hv]; rfl
    rw [bind_run e2]
    exact h
  exact cached_miss (env := env) (get := ESt.subC) (set := fun c s => { s with subC := c }) (fun _ => rfl) hlen hmemo hk e

lemma of_run_sub_own {n : Nat} {T P : ℝ} {y : String} {v : Subst} (hv : env.db.subs.lookup y = some v) (hmemo : env.memo = true)
    {s : ESt PS EPS} (hlen : s.subC.entries.length < env.maxCache) (hk : s.subC.find ⟨T, P, y⟩ = none) {t : TPS} {s' : ESt PS EPS}
    (h : (run env (n + 1)).sub T P y s = (.ok t, s')) : ∃ s1, substRec env (run env n) T P v s = (.ok t, s1) ∧ s' = remember T P y t s1 := by
  have e : Cache.evict env.maxCache s.subC = s.subC := by
    unfold Cache.evict; rw [if_neg (by omega)]
  have e0 : (run env (n + 1)).sub T P y = cached env (·.subC) (fun c s => { s with subC := c }) ⟨T, P, y⟩ (getSub env y >>= fun v =>
    substRec env (run env n) T P v) := rfl
  have e2 : getSub env y s = (.ok v, s) := by unfold getSub; rw [hv]; rfl
  rw [e0] at h
  unfold cached at h
  rw [if_pos hmemo] at h
  simp only [e] at h
  have e3 : ({ s with subC := s.subC } : ESt PS EPS) = s := rfl
  rw [e3, hk] at h
  simp only at h
  rw [bind_run e2] at h
  rcases he : substRec env (run env n) T P v s with ⟨o, s1⟩
  rw [he] at h
  cases o with
  | ok a =>
    simp only [Prod.mk.injEq, Out.ok.injEq] at h
    obtain ⟨rfl, rfl⟩ := h
    exact ⟨s1, rfl, rfl⟩
  | throw => simp at h
  | ub => simp at h
  | deep => simp at h

end ThermoFun.Engine
