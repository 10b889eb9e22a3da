import Verif.Lemmas.EngineRel

/-!
Engines for the examples and the counterexamples: the numeric models that are modelled in Model/Substance.lean are used as they are,
the others are not called.
-/

namespace ThermoFun.Engine

/-- Entropy integration, constant volume and the ideal gas law as modelled; the rest is not called in the examples. -/
noncomputable def exModels : Models Unit Unit where
  ps0 := ()
  eps0 := ()
  cpt _ _ _ := .throw
  hkf _ _ _ _ _ := .throw
  hkfr _ _ _ _ _ := .throw
  hp98 _ _ _ _ _ := .throw
  an91 _ _ _ _ _ := .throw
  chp _ _ _ _ := .throw
  cst x T _ := .ok (entropyCpEntry T x.refT TPS.default x.ref)
  aki _ _ _ _ _ _ _ _ _ _ := .throw
  woolley _ _ _ := .throw
  ceh _ _ _ _ := .throw
  vbe _ _ _ _ := .throw
  vbm _ _ _ _ := .throw
  cork _ _ _ _ _ := .throw
  prsv _ _ _ _ _ := .throw
  emp _ _ _ _ _ := .throw
  srk _ _ _ _ _ := .throw
  pr78 _ _ _ _ _ := .throw
  stp _ _ _ _ _ := .throw
  off x T P t b := .ok (idealGasLawVol T P x.gas x.refP t b)
  con x T P t := .ok (conMolVol T P x.ref x.refP t)
  wat _ _ _ _ _ := .throw
  war _ _ _ _ _ := .throw
  wwp _ _ _ _ _ := .throw
  wzd _ _ _ _ := .throw
  watPS _ _ _ _ := .throw
  warPS _ _ _ _ := .throw
  wwpPS _ _ _ _ := .throw
  wzdPS _ _ _ _ := .throw
  wjnr _ _ _ _ _ := .throw
  wjng _ _ _ _ := .throw
  wsv14 _ _ _ _ := .throw
  wf97 _ _ _ _ := .throw
  logk _ _ _ _ := .throw
  dmd _ _ _ _ := .throw
  dkr _ _ _ _ := .throw
  mrb _ _ _ _ := .throw
  volft _ _ _ := .ok TPR.default

/-- An assigned value, as a record's reference property. -/
noncomputable def asg (v : ℝ) : TS := ⟨v, 0, 0, 0, .assigned⟩

/-- Reference properties: G, H, U, A and Cv are `g`, the volume is `v`, the rest is 0. -/
noncomputable def refGV (g v : ℝ) : TPS :=
  { G := asg g, A := asg g, U := asg g, H := asg g, S := asg 0, V := asg v, Cp := asg 0, Cv := asg g }

/-- A record that carries its reference properties only (`GenEoS.CON`). -/
noncomputable def conSub (sym : String) (g : ℝ) : Subst :=
  ⟨sym, sym, "", 298.15, 1e5, .CON, .unset, .unset, .other, false, false, refGV g 1, 0, {}⟩

/-- An ideal gas: entropy integration and `IdealGasLawVol`. -/
noncomputable def gasSub (sym : String) (g : ℝ) : Subst :=
  ⟨sym, sym, "", 298.15, 1e5, .unset, .CST, .OFF, .other, true, false, refGV g 0, 0, {}⟩

/-- A record without methods, defined by the reaction `re`. -/
noncomputable def dcSub (sym re : String) : Subst :=
  ⟨sym, sym, re, 298.15, 1e5, .unset, .unset, .unset, .other, false, true, refGV 0 1, 0, {}⟩

/-- A reaction computed from its species. -/
noncomputable def fromR (sym : String) (l : List (String × ℝ)) : Reac := ⟨sym, l, 298.15, 1e5, .unset, .unset, .unset, TPR.default, {}⟩

/-- Database with these records, keyed by their symbols. -/
noncomputable def exDb (subs : List Subst) (reacs : List Reac) : Db :=
  ⟨subs.map fun x => (x.symbol, x), reacs.map fun x => (x.symbol, x), fun _ => 0, "NEA_HGK"⟩

/-- Engine on such a database, with the settings every engine is built with (ThermoEngine.h:24-39). -/
noncomputable def exEnv (subs : List Subst) (reacs : List Reac) : Env Unit Unit :=
  ⟨exDb subs reacs, exModels, "GEOCHEMICAL", "BENSON_HELGESON", false, true, 1000000⟩

lemma conv_no (subs : List Subst) (reacs : List Reac) (x : Subst) (t : TPS) : convStep (exEnv subs reacs) x t = pure t := by
  have h1 : iequals "GEOCHEMICAL".toList "STEAM_TABLES".toList = false := by decide +kernel
  have h2 : iequals "BENSON_HELGESON".toList "BERMAN_BROWN".toList = false := by decide +kernel
  unfold convStep exEnv
  simp only [h1, h2]
  split <;> rfl

/-- A record with its reference properties only is answered with them. -/
lemma substRec_con (subs : List Subst) (reacs : List Reac) (r : Rec Unit Unit) (T P : ℝ) (y : String) (g : ℝ) (hy : y ≠ "H+")
    (s : ESt Unit Unit) : substRec (exEnv subs reacs) r T P (conSub y g) s = (.ok (refGV g 1), { s with solventState := 0 }) := by
  have e : substRec (exEnv subs reacs) r T P (conSub y g) s = (if y = "H+" then pure zeroTPS else
    (methodsStep (exEnv subs reacs) r T P (conSub y g) >>= fun t => pure (fallback false t (conSub y g))) : EM Unit Unit TPS)
      { s with solventState := 0 } := rfl
  rw [e, if_neg hy]
  have e2 : methodsStep (exEnv subs reacs) r T P (conSub y g) = pure (refGV g 1) := by
    have : methodsStep (exEnv subs reacs) r T P (conSub y g) = (convStep (exEnv subs reacs) (conSub y g) (refGV g 1)) := rfl
    rw [this, conv_no]
  rw [e2]
  rfl

/-- An ideal gas is answered with the entropy integration and the ideal gas law. -/
lemma substRec_gas (subs : List Subst) (reacs : List Reac) (r : Rec Unit Unit) (T P : ℝ) (y : String) (g : ℝ) (hy : y ≠ "H+")
    (s : ESt Unit Unit) : substRec (exEnv subs reacs) r T P (gasSub y g) s =
      (.ok (idealGasLawVol T P true 1e5 (entropyCpEntry T 298.15 TPS.default (refGV g 0)) s.pcorr), { s with solventState := 1 }) := by
  have e : substRec (exEnv subs reacs) r T P (gasSub y g) s = (if y = "H+" then pure zeroTPS else
    (methodsStep (exEnv subs reacs) r T P (gasSub y g) >>= fun t => pure (fallback false t (gasSub y g))) : EM Unit Unit TPS)
      { s with solventState := 1 } := rfl
  rw [e, if_neg hy]
  have e2 : methodsStep (exEnv subs reacs) r T P (gasSub y g) { s with solventState := 1 } = (convStep (exEnv subs reacs) (gasSub y g)
      (idealGasLawVol T P true 1e5 (entropyCpEntry T 298.15 TPS.default (refGV g 0)) s.pcorr)) { s with solventState := 1 } := rfl
  rw [conv_no] at e2
  rw [EM.bind_of_ok (congrArg Prod.fst e2), e2]
  rfl

/-! ### The cache -/

/-- A miss. -/
lemma cached_miss {PS EPS K V : Type} [DecidableEq K] {env : Env PS EPS} {get : ESt PS EPS → Cache K V}
    {set : Cache K V → ESt PS EPS → ESt PS EPS} {k : K} {m : EM PS EPS V} {s s' : ESt PS EPS} {v : V} (hset : ∀ s, set (get s) s = s)
    (hlen : (get s).entries.length < env.maxCache) (hm : env.memo = true) (hk : (get s).find k = none) (h : m s = (.ok v, s')) :
    cached env get set k m s = (.ok v, set ((get s').insert k v) s') := by
  have e : Cache.evict env.maxCache (get s) = get s := by
    unfold Cache.evict; rw [if_neg (by omega)]
  unfold cached
  rw [if_pos hm]
  simp only [e, hset, hk, h]

/-- A hit. -/
lemma cached_hit {PS EPS K V : Type} [DecidableEq K] {env : Env PS EPS} {get : ESt PS EPS → Cache K V}
    {set : Cache K V → ESt PS EPS → ESt PS EPS} {k : K} {m : EM PS EPS V} {s : ESt PS EPS} {v : V} (hset : ∀ s, set (get s) s = s)
    (hlen : (get s).entries.length < env.maxCache) (hm : env.memo = true) (hk : (get s).find k = some v) :
    cached env get set k m s = (.ok v, s) := by
  have e : Cache.evict env.maxCache (get s) = get s := by
    unfold Cache.evict; rw [if_neg (by omega)]
  unfold cached
  rw [if_pos hm]
  simp only [e, hset, hk]

/-- Remember the answer `t` for the substance `y`. -/
noncomputable def remember {PS EPS : Type} (T P : ℝ) (y : String) (t : TPS) (s : ESt PS EPS) : ESt PS EPS :=
  { s with subC := s.subC.insert ⟨T, P, y⟩ t }

/-- A query for a substance that is not in the cache. -/
lemma run_miss {subs : List Subst} {reacs : List Reac} {n : Nat} {T P : ℝ} {y : String} {v : Subst} {t : TPS} {s s' : ESt Unit Unit}
    (hl : (exEnv subs reacs).db.subs.lookup y = some v) (hlen : s.subC.entries.length < 1000000) (hk : s.subC.find ⟨T, P, y⟩ = none)
    (h : substRec (exEnv subs reacs) (run (exEnv subs reacs) n) T P v s = (.ok t, s')) :
    (run (exEnv subs reacs) (n + 1)).sub T P y s = (.ok t, remember T P y t s') := by
  have e : (getSub (exEnv subs reacs) y >>= fun v => substRec (exEnv subs reacs) (run (exEnv subs reacs) n) T P v) s = (.ok t, s') := by
    have e2 : getSub (exEnv subs reacs) y s = (.ok v, s) := by unfold getSub; rw [hl]; rfl
    rw [EM.bind_of_ok (congrArg Prod.fst e2), congrArg Prod.snd e2]
    exact h
  exact cached_miss (env := exEnv subs reacs) (get := ESt.subC) (set := fun c s => { s with subC := c }) (fun _ => rfl) hlen rfl hk e

/-- A query for a substance that is in the cache. -/
lemma run_hit {subs : List Subst} {reacs : List Reac} {n : Nat} {T P : ℝ} {y : String} {t : TPS} {s : ESt Unit Unit}
    (hlen : s.subC.entries.length < 1000000) (hk : s.subC.find ⟨T, P, y⟩ = some t) :
    (run (exEnv subs reacs) (n + 1)).sub T P y s = (.ok t, s) :=
  cached_hit (env := exEnv subs reacs) (get := ESt.subC) (set := fun c s => { s with subC := c }) (fun _ => rfl) hlen rfl hk

lemma key_ne {T P : ℝ} {x y : String} (h : x ≠ y) : (⟨T, P, x⟩ : Key) ≠ ⟨T, P, y⟩ := by
  intro e; injection e; contradiction

lemma find_insert_ne {K V : Type} [DecidableEq K] {c : Cache K V} {k k' : K} {v : V} (h : k' ≠ k) (hc : c.find k' = none) :
    (c.insert k v).find k' = none := by
  unfold Cache.find Cache.insert at *
  rw [lookup_none_iff] at hc ⊢
  simp only [List.map_cons, List.mem_cons, not_or]
  refine ⟨h, fun hm => hc ?_⟩
  obtain ⟨e, he, rfl⟩ := List.mem_map.mp hm
  exact List.mem_map_of_mem (erase_subset _ _ e he)

lemma find_insert {K V : Type} [DecidableEq K] {c : Cache K V} {k : K} {v : V} : (c.insert k v).find k = some v := by
  simp [Cache.find, Cache.insert]

lemma length_insert {K V : Type} [DecidableEq K] {c : Cache K V} {k : K} {v : V} : (c.insert k v).entries.length ≤ c.entries.length + 1 := by
  simp only [Cache.insert, List.length_cons, Cache.erase]
  have := List.length_filter_le (fun e : K × V => decide (e.1 ≠ k)) c.entries
  omega

/-! ### Species asked one after another -/

/-- The engine is asked for the species of the list one after another, starting in the first state; it gives these answers and ends in the
last state. -/
inductive Asked {PS EPS : Type} (env : Env PS EPS) (n : Nat) (T P : ℝ) : ESt PS EPS → List (String × ℝ) → List TPS → ESt PS EPS → Prop
  | nil (s) : Asked env n T P s [] [] s
  | cons {s s1 s2 y c l t ts} (h : (run env n).sub T P y s = (.ok t, s1)) (hl : Asked env n T P s1 l ts s2) :
      Asked env n T P s ((y, c) :: l) (t :: ts) s2

/-- The answers are determined. -/
lemma Asked.unique {PS EPS : Type} {env : Env PS EPS} {n : Nat} {T P : ℝ} {s s1 s2 : ESt PS EPS} {l : List (String × ℝ)} {ts us : List TPS}
    (h : Asked env n T P s l ts s1) (h' : Asked env n T P s l us s2) : ts = us := by
  induction h generalizing us with
  | nil => cases h'; rfl
  | cons h _ ih =>
    cases h' with
    | cons h' hl' =>
      rw [h] at h'
      injection h' with e1 e2
      injection e1 with e1
      subst e1 e2
      rw [ih hl']

lemma Asked.length {PS EPS : Type} {env : Env PS EPS} {n : Nat} {T P : ℝ} {s s' : ESt PS EPS} {l : List (String × ℝ)} {ts : List TPS}
    (h : Asked env n T P s l ts s') : l.length = ts.length := by
  induction h with
  | nil => rfl
  | cons _ _ ih => simp [ih]

/-- The loop over the reactants. -/
lemma sumReactants_run {PS EPS : Type} {env : Env PS EPS} {n : Nat} {T P : ℝ} {sym : String} {l : List (String × ℝ)} {ts : List TPS}
    {s s' : ESt PS EPS} (h : Asked env n T P s l ts s')
    (hv : ∀ e ∈ l, ∃ v, env.db.subs.lookup e.1 = some v ∧ (v.noMethods = false ∨ v.reactionSymbol ≠ sym)) (t : TPR) :
    sumReactants env (run env n) T P sym l t s = (.ok ((l.zip ts).foldl (fun t e => addScaled T t e.2 e.1.2) t), s') := by
  induction h generalizing t with
  | nil => rfl
  | cons h _ ih =>
    rename_i s s1 s2 y c l u ts _
    obtain ⟨v, hv1, hv2⟩ := hv _ List.mem_cons_self
    unfold sumReactants
    have e1 : getSub env y s = (.ok v, s) := by unfold getSub; rw [hv1]; rfl
    rw [EM.bind_of_ok (congrArg Prod.fst e1), if_neg (by
      rintro ⟨h1, h2⟩; rcases hv2 with hv2 | hv2; exacts [by simp [hv2] at h1, hv2 h2]), congrArg Prod.snd e1,
      EM.bind_of_ok (congrArg Prod.fst h), congrArg Prod.snd h, ih fun e he => hv e (List.mem_cons_of_mem _ he)]
    rfl

lemma fromReactants_run {PS EPS : Type} {env : Env PS EPS} {n : Nat} {T P : ℝ} {x : Reac} {ts : List TPS}
    {s s' : ESt PS EPS} (h : Asked env n T P { s with pcorr := true } x.reactants ts s')
    (hv : ∀ e ∈ x.reactants, ∃ v, env.db.subs.lookup e.1 = some v ∧ (v.noMethods = false ∨ v.reactionSymbol ≠ x.symbol)) :
    reacFromReactants env (run env n) T P x s =
      (.ok ((x.reactants.zip ts).foldl (fun t e => addScaled T t e.2 e.1.2) zeroTPR), { s' with pcorr := false }) := by
  have e := sumReactants_run (sym := x.symbol) h hv zeroTPR
  have e2 : reacFromReactants env (run env n) T P x s =
    (sumReactants env (run env n) T P x.symbol x.reactants zeroTPR >>= fun t => setFlag false >>= fun _ => pure t)
    { s with pcorr := true } := rfl
  rw [e2, EM.bind_of_ok (congrArg Prod.fst e), congrArg Prod.snd e]
  rfl

/-- The loop over the other reactants. -/
lemma subtractOthers_run {PS EPS : Type} {env : Env PS EPS} {n : Nat} {T P : ℝ} {own : String} (l : List (String × ℝ)) {ts : List TPS}
    {s s' : ESt PS EPS} (h : Asked env n T P s (l.filter fun e => e.1 ≠ own) ts s') (t : TPS) :
    subtractOthers (run env n) T P own l t s =
      (.ok (((l.filter fun e => e.1 ≠ own).zip ts).foldl (fun t e => subScaled t e.2 e.1.2) t), s') := by
  induction l generalizing t s ts with
  | nil => cases h; rfl
  | cons e l ih =>
    obtain ⟨y, c⟩ := e
    unfold subtractOthers
    by_cases hy : y ≠ own
    · rw [if_pos hy]
      simp only [List.filter_cons, hy, ne_eq, not_false_eq_true, decide_true, if_true] at h ⊢
      cases h with
      | cons h hl =>
        rw [EM.bind_of_ok (congrArg Prod.fst h), congrArg Prod.snd h, ih hl]
        rfl
    · rw [if_neg hy]
      have hy := not_not.mp hy
      simp only [List.filter_cons, hy, ne_eq, not_true_eq_false, decide_false, Bool.false_eq_true, if_false] at h ⊢
      exact ih h t

/-- A substance defined by a reaction. -/
lemma substRec_dc_run {PS EPS : Type} {env : Env PS EPS} {n : Nat} {T P : ℝ} {x : Subst} {re : Reac} {tpr : TPR} {ts : List TPS}
    {s s1 s2 : ESt PS EPS} (hH : x.symbol ≠ "H+") (hdc : x.isReacDC = true) (hname : x.reactionSymbol ≠ "")
    (hre : env.db.reacs.lookup x.reactionSymbol = some re)
    (hr : (run env n).reac T P x.reactionSymbol { (setPrefs env x s).2 with pcorr := true } = (.ok tpr, s1))
    (hf : Asked env n T P s1 (re.reactants.filter fun e => e.1 ≠ x.symbol) ts s2) (hfb : env.fallback = false)
    (hcon : ∀ t, env.mods.con x T P t = .ok (conMolVol T P x.ref x.refP t)) :
    substRec env (run env n) T P x s =
      (let t := divAll (((re.reactants.filter fun e => e.1 ≠ x.symbol).zip ts).foldl (fun t e => subScaled t e.2 e.1.2) (ofReaction tpr))
        ((re.reactants.lookup x.symbol).getD 0)
      .ok (if x.mP = .CON ∧ (re.mP = .OFF ∨ re.mP = .unset) then conMolVol T P x.ref x.refP t else t), { s2 with pcorr := false }) := by
  have e : substRec env (run env n) T P x s = (if x.symbol = "H+" then pure zeroTPS else do
    let t ← (if x.isReacDC then reacDC env (run env n) T P x else methodsStep env (run env n) T P x)
    pure (fallback env.fallback t x) : EM PS EPS TPS) (setPrefs env x s).2 := rfl
  rw [e, if_neg hH, if_pos hdc]
  have e1 : reacDC env (run env n) T P x (setPrefs env x s).2 =
      (let t := divAll (((re.reactants.filter fun e => e.1 ≠ x.symbol).zip ts).foldl (fun t e => subScaled t e.2 e.1.2) (ofReaction tpr))
        ((re.reactants.lookup x.symbol).getD 0)
      .ok (if x.mP = .CON ∧ (re.mP = .OFF ∨ re.mP = .unset) then conMolVol T P x.ref x.refP t else t), { s2 with pcorr := false }) := by
    generalize (setPrefs env x s).2 = s at hr
    unfold reacDC
    have h1 : (setFlag true s) = (.ok (), { s with pcorr := true }) := rfl
    rw [EM.bind_of_ok (congrArg Prod.fst h1), if_pos hname, congrArg Prod.snd h1]
    have h2 : ∀ s, getReac env x.reactionSymbol s = (.ok re, s) := fun s => by unfold getReac; rw [hre]; rfl
    rw [EM.bind_of_ok (congrArg Prod.fst (h2 _)), congrArg Prod.snd (h2 _), EM.bind_of_ok (congrArg Prod.fst hr), congrArg Prod.snd hr]
    have h4 := subtractOthers_run re.reactants hf (ofReaction tpr)
    rw [EM.bind_of_ok (congrArg Prod.fst h4), congrArg Prod.snd h4]
    have h3 : (setFlag false s2) = (.ok (), { s2 with pcorr := false }) := rfl
    rw [EM.bind_of_ok (congrArg Prod.fst h3), congrArg Prod.snd h3]
    simp only [hcon, hfb]
    split <;> rfl
  rw [EM.bind_of_ok (congrArg Prod.fst e1), hfb, congrArg Prod.snd e1]
  rfl

/-- A reaction `B + B = A` between two records with reference properties. -/
noncomputable def exTwo : Env Unit Unit := exEnv [conSub "A" 2, conSub "B" 5] [fromR "r" [("A", -1), ("B", 2)]]

/-- The two species, asked one after another on a new engine. -/
lemma exTwo_asked (n : Nat) (T P c d : ℝ) (s : ESt Unit Unit) (hs : s.subC = ⟨[], []⟩) :
    ∃ s', Asked exTwo (n + 1) T P s [("A", c), ("B", d)] [refGV 2 1, refGV 5 1] s' := by
  refine ⟨_, .cons (run_miss (v := conSub "A" 2) rfl ?_ ?_ (substRec_con _ _ _ T P "A" 2 (by decide) s))
    (.cons (run_miss (v := conSub "B" 5) rfl ?_ ?_ (substRec_con _ _ _ T P "B" 5 (by decide) _)) (.nil _))⟩
  · rw [hs]; simp
  · rw [hs]; rfl
  · simp only [remember]
    refine lt_of_le_of_lt length_insert ?_
    rw [hs]; simp
  · simp only [remember]
    refine find_insert_ne (key_ne (by decide)) ?_
    rw [hs]; rfl

lemma exTwo_ask (n : Nat) (T P : ℝ) : (ask exTwo (n + 1) (.fromR T P "r") ESt.init).1 =
    .ok (.reac (addScaled T (addScaled T zeroTPR (refGV 2 1) (-1)) (refGV 5 1) 2)) := by
  have e : ask exTwo (n + 1) (.fromR T P "r") =
    (reacFromReactants exTwo (run exTwo (n + 1)) T P (fromR "r" [("A", -1), ("B", 2)]) >>= fun t => pure (.reac t)) := rfl
  obtain ⟨s', h⟩ := exTwo_asked n T P (-1) 2 { (ESt.init : ESt Unit Unit) with pcorr := true } rfl
  have e2 := fromReactants_run (env := exTwo) (x := fromR "r" [("A", -1), ("B", 2)]) (s := ESt.init) h (by
      intro e he
      simp only [fromR, List.mem_cons, List.not_mem_nil, or_false] at he
      rcases he with rfl | rfl
      · exact ⟨conSub "A" 2, rfl, Or.inl rfl⟩
      · exact ⟨conSub "B" 5, rfl, Or.inl rfl⟩)
  rw [e, EM.bind_of_ok (congrArg Prod.fst e2)]
  rfl

end ThermoFun.Engine
