import Verif.Props.EngineHist
import Verif.Lemmas.EngineObl

/-!
# Choice of the models, conventions and fallback

Theorems about /repo/ThermoFun/ThermoEngine.cpp as modelled in Model/Engine.lean: fallback to reference properties (C47), conventions (C48),
choice of the models by the method codes (C49), the comparison of names (C65), changes of the preferences between queries (C85).
-/

namespace ThermoFun.Engine

variable {PS EPS : Type}

/-! ### C65 Comparison of names -/

/-- A letter of the Latin alphabet in lower case, other characters as they are. -/
def asciiLower (c : Char) : Char := if 65 ≤ c.toNat ∧ c.toNat ≤ 90 then Char.ofNat (c.toNat + 32) else c

lemma lower_eq (c : Char) : lower c = asciiLower c := by
  have h : ('A' ≤ c ∧ c ≤ 'Z') ↔ (65 ≤ c.toNat ∧ c.toNat ≤ 90) := Iff.rfl
  unfold lower asciiLower
  simp only [h]

lemma iequalsGo_eq (a b : List Char) (h : a.length = b.length) : iequalsGo a b = true ↔ a.map asciiLower = b.map asciiLower := by
  induction a generalizing b with
  | nil =>
    cases b with
    | nil => simp [iequalsGo]
    | cons => simp at h
  | cons x a ih =>
    cases b with
    | nil => simp at h
    | cons y b =>
      have := ih b (by simpa using h)
      unfold iequalsGo
      rw [lower_eq, lower_eq]
      by_cases hx : asciiLower x = asciiLower y
      · simp [hx, this]
      · simp [hx]

/-- **C65** `iequals` is equality of the strings in lower case. -/
theorem C65_iequals_lower (a b : List Char) : iequals a b = true ↔ a.map asciiLower = b.map asciiLower := by
  unfold iequals
  by_cases h : a.length = b.length
  · simp [h, iequalsGo_eq a b h]
  · simp only [ne_eq, h, not_false_eq_true, if_true, Bool.false_eq_true, false_iff]
    intro he
    have := congrArg List.length he
    simp only [List.length_map] at this
    exact h this

/-- **C65** It is an equivalence. -/
theorem C65_iequals_equivalence : Equivalence fun a b => iequals a b = true := by
  constructor
  · intro a; rw [C65_iequals_lower]
  · intro a b h; rw [C65_iequals_lower] at *; exact h.symm
  · intro a b c h h'; rw [C65_iequals_lower] at *; exact h.trans h'

/-- Not only equal strings are equal, and not all strings are. -/
example : iequals "Steam_Tables".toList "STEAM_TABLES".toList = true ∧ iequals "STEAM_TABLE".toList "STEAM_TABLES".toList = false := by
  constructor <;> decide +kernel

/-! ### C47 Fallback -/

/-- `b` is what the fallback makes of the computed property `a`: the recorded one if `a` is undefined, and `a` otherwise. -/
def Filled (a ref b : TS) : Prop := (a.sta = .notdefined → b = ref) ∧ (a.sta ≠ .notdefined → b = a)

/-- The same for all eight properties. -/
def FilledAll (t ref u : TPS) : Prop :=
  ∀ p ∈ [TPS.V, TPS.G, TPS.H, TPS.S, TPS.Cp, TPS.Cv, TPS.U, TPS.A], Filled (p t) (p ref) (p u)

lemma filled_fillTS (a ref : TS) : Filled a ref (fillTS a ref) := by
  unfold Filled fillTS
  constructor
  · intro h; rw [if_pos h]
  · intro h; rw [if_neg h]

lemma filledAll_fallback (t : TPS) (x : Subst) : FilledAll t x.ref (fallback true t x) := by
  intro p hp
  simp only [List.mem_cons, List.not_mem_nil, or_false] at hp
  rcases hp with rfl | rfl | rfl | rfl | rfl | rfl | rfl | rfl <;> exact filled_fillTS _ _

/-- **C47** For a record with methods of its own, the answer with the fallback switched on is that with the fallback switched off, with the
recorded properties in place of the undefined ones; errors are the same, and the state of the engine afterwards is the same. -/
theorem C47_fallback {env : Env PS EPS} {x : Subst} (h : Own x) (n : Nat) (T P : ℝ) (s : ESt PS EPS) :
    let on := ask { env with fallback := true } (n + 1) (.subRec T P x) s
    let off := ask { env with fallback := false } (n + 1) (.subRec T P x) s
    on.2 = off.2 ∧ (∀ t, off.1 = .ok (.sub t) → ∃ u, on.1 = .ok (.sub u) ∧ FilledAll t x.ref u) ∧ (off.1 = .throw ↔ on.1 = .throw) := by
  intro on off
  have e : ∀ b, ask { env with fallback := b } (n + 1) (.subRec T P x) s =
      ((methodsStep env (run env n) T P x >>= fun t => pure (fallback b t x)) >>= fun t => (pure (.sub t) : EM PS EPS (Answer PS EPS)))
        (setPrefs env x s).2 := by
    intro b
    have e1 : ask { env with fallback := b } (n + 1) (.subRec T P x) s =
      (substRec { env with fallback := b } (run { env with fallback := b } n) T P x >>= fun t => (pure (.sub t) : EM PS EPS (Answer PS EPS))) s := rfl
    have e2 := substRec_own (env := { env with fallback := b }) h (run { env with fallback := b } n) T P s
    rw [methodsStep_rec h.aki _ (run env n)] at e2
    have e3 : methodsStep { env with fallback := b } (run env n) T P x = methodsStep env (run env n) T P x := rfl
    rw [e3] at e2
    simp only [e1, bind_pure_fst, e2]
    rfl
  have hon : on = _ := e true
  have hoff : off = _ := e false
  rw [hon, hoff]
  generalize methodsStep env (run env n) T P x = m
  generalize (setPrefs env x s).2 = s'
  simp only [bind_pure_fst]
  rcases m s' with ⟨o, t⟩
  cases o with
  | ok a =>
    refine ⟨rfl, fun u hu => ⟨fallback true a x, rfl, ?_⟩, by simp⟩
    have : a = u := by
      injection hu with hu; injection hu
    exact this ▸ filledAll_fallback a x
  | throw => exact ⟨rfl, fun u hu => by simp at hu, by simp⟩
  | ub => exact ⟨rfl, fun u hu => by simp at hu, by simp⟩
  | deep => exact ⟨rfl, fun u hu => by simp at hu, by simp⟩

/-- The gas of Props/EngineHist.lean: the entropy integration leaves U undefined, so it is replaced, and H is not. -/
example : Own (gasSub "G" 3) ∧ (gasT 3 300 2e5 false).U.sta = .notdefined ∧ (gasT 3 300 2e5 false).H.sta ≠ .notdefined := by
  refine ⟨⟨by simp [gasSub], by simp [gasSub, Subst.isReacDC, Subst.noMethods], by simp [gasSub]⟩, ?_, ?_⟩
  · have hP : (0 : ℝ) < 2e5 := by norm_num
    simp [gasT, idealGasLawVol, entropyCpEntry, TPS.default, entropyCp, TS.default, hP, TS.ofVal, TS.mk5]
  · have hP : (0 : ℝ) < 2e5 := by norm_num
    simp [gasT, idealGasLawVol, entropyCpEntry, entropyCp, refGV, asg, TS.has, TS.addAssign, hP, TS.status2]
    decide +kernel

/-! ### C48 Conventions -/

/-- Only the value changes, by `-d`. -/
def Shifted (a b : TS) (d : ℝ) : Prop := b.val = a.val - d ∧ b.ddt = a.ddt ∧ b.ddp = a.ddp ∧ b.err = a.err ∧ b.sta = a.sta

/-- The answers of two engines that differ in their conventions only. -/
lemma conv_pair {env : Env PS EPS} {w a : String} {x : Subst} (h : Own x) (hfb : env.fallback = false) {f : TPS → TPS}
    (h0 : ∀ t, convStep env x t = pure t)
    (h1 : ∀ t, convStep { env with waterProperties := w, apparentProperties := a } x t = pure (f t)) (n : Nat) (T P : ℝ) (s : ESt PS EPS)
    (t : TPS) (ht : (ask env (n + 1) (.subRec T P x) s).1 = .ok (.sub t)) :
    (ask { env with waterProperties := w, apparentProperties := a } (n + 1) (.subRec T P x) s).1 = .ok (.sub (f t)) := by
  obtain ⟨u, hu, h2⟩ := EM.of_bind_ok ht
  have : u = t := by injection h2 with h2; injection h2
  subst this
  have e : substRec env (run env n) T P x s = (.ok u, (substRec env (run env n) T P x s).2) := Prod.ext hu rfl
  have e2 := conv_rec h hfb h0 h1 (run env n) (run { env with waterProperties := w, apparentProperties := a } n) T P s _ u e
  exact congrArg Prod.fst (EM.bind_of_ok (m := substRec { env with waterProperties := w, apparentProperties := a } _ T P x) (congrArg Prod.fst e2))

/-- The steam-table convention is chosen. -/
def SteamTables (env : Env PS EPS) : Prop := env.waterProperties.toList.map asciiLower = "steam_tables".toList
/-- The Berman-Brown convention is chosen. -/
def BermanBrown (env : Env PS EPS) : Prop := env.apparentProperties.toList.map asciiLower = "berman_brown".toList

lemma steam_iff (env : Env PS EPS) : iequals env.waterProperties.toList "STEAM_TABLES".toList = true ↔ SteamTables env := by
  rw [C65_iequals_lower]
  have : "STEAM_TABLES".toList.map asciiLower = "steam_tables".toList := by decide +kernel
  rw [this]; rfl
lemma berman_iff (env : Env PS EPS) : iequals env.apparentProperties.toList "BERMAN_BROWN".toList = true ↔ BermanBrown env := by
  rw [C65_iequals_lower]
  have : "BERMAN_BROWN".toList.map asciiLower = "berman_brown".toList := by decide +kernel
  rw [this]; rfl

/-- **C48** Steam-table convention: for the solvent, G, H, S, U and A are shifted by the values of the triple point, the rest and all
derivatives are unchanged. -/
theorem C48_steam {env : Env PS EPS} {x : Subst} (h : Own x) (hx : x.cls = .AQSOLVENT) (hfb : env.fallback = false) (w : String)
    (h0 : ¬ SteamTables env) (h1 : SteamTables { env with waterProperties := w }) {tr : Triple} (htr : waterTripleData env.db.tripleRef = some tr)
    (n : Nat) (T P : ℝ) (s : ESt PS EPS) {t : TPS} (ht : (ask env (n + 1) (.subRec T P x) s).1 = .ok (.sub t)) :
    ∃ u, (ask { env with waterProperties := w } (n + 1) (.subRec T P x) s).1 = .ok (.sub u) ∧
      Shifted t.G u.G tr.Gtr ∧ Shifted t.H u.H tr.Htr ∧ Shifted t.S u.S tr.Str ∧ Shifted t.U u.U tr.Utr ∧ Shifted t.A u.A tr.Atr ∧
      u.V = t.V ∧ u.Cp = t.Cp ∧ u.Cv = t.Cv := by
  have hs : x.isSolvent = true := by simp [Subst.isSolvent, hx]
  refine ⟨toSteamTables t tr, conv_pair (w := w) (a := env.apparentProperties) (f := fun t => toSteamTables t tr) h hfb ?_ ?_ n T P s t ht,
    ⟨rfl, rfl, rfl, rfl, rfl⟩, ⟨rfl, rfl, rfl, rfl, rfl⟩, ⟨rfl, rfl, rfl, rfl, rfl⟩, ⟨rfl, rfl, rfl, rfl, rfl⟩, ⟨rfl, rfl, rfl, rfl, rfl⟩, rfl, rfl, rfl⟩
  · intro t
    rw [← steam_iff] at h0
    unfold convStep
    rw [if_pos hs, if_neg h0]
  · intro t
    rw [← steam_iff] at h1
    unfold convStep
    rw [if_pos hs, if_pos h1]
    simp only [htr]

/-- **C48** Berman-Brown convention: for other substances only G is shifted, by Tr times the entropy of the elements in the formula. -/
theorem C48_berman {env : Env PS EPS} {x : Subst} (h : Own x) (hx : x.cls ≠ .AQSOLVENT) (hfb : env.fallback = false) (a : String)
    (h0 : ¬ BermanBrown env) (h1 : BermanBrown { env with apparentProperties := a })
    (n : Nat) (T P : ℝ) (s : ESt PS EPS) {t : TPS} (ht : (ask env (n + 1) (.subRec T P x) s).1 = .ok (.sub t)) :
    ∃ u, (ask { env with apparentProperties := a } (n + 1) (.subRec T P x) s).1 = .ok (.sub u) ∧
      Shifted t.G u.G (x.refT * env.db.elemEntropy x.formula) ∧
      u.H = t.H ∧ u.S = t.S ∧ u.U = t.U ∧ u.A = t.A ∧ u.V = t.V ∧ u.Cp = t.Cp ∧ u.Cv = t.Cv := by
  have hs : ¬ x.isSolvent = true := by simp [Subst.isSolvent, hx]
  refine ⟨toBermanBrown t x env.db.elemEntropy, 
    conv_pair (w := env.waterProperties) (a := a) (f := fun t => toBermanBrown t x env.db.elemEntropy) h hfb ?_ ?_ n T P s t ht,
    ⟨rfl, rfl, rfl, rfl, rfl⟩, rfl, rfl, rfl, rfl, rfl, rfl, rfl⟩
  · intro t
    rw [← berman_iff] at h0
    unfold convStep
    rw [if_neg hs, if_neg h0]
  · intro t
    rw [← berman_iff] at h1
    unfold convStep
    rw [if_neg hs, if_pos h1]

/-- The conventions of every engine at its construction are neither, and any spelling of the names is understood. -/
example : ¬ SteamTables (exEnv [] []) ∧ ¬ BermanBrown (exEnv [] []) ∧ SteamTables { exEnv [] [] with waterProperties := "Steam_Tables" } ∧
    BermanBrown { exEnv [] [] with apparentProperties := "Berman_Brown" } := by
  refine ⟨?_, ?_, ?_, ?_⟩
  · show ¬ ("GEOCHEMICAL".toList.map asciiLower = _); decide +kernel
  · show ¬ ("BENSON_HELGESON".toList.map asciiLower = _); decide +kernel
  · show "Steam_Tables".toList.map asciiLower = _; decide +kernel
  · show "Berman_Brown".toList.map asciiLower = _; decide +kernel

/-! #### A hydration reaction in the two conventions -/

/-- Entropies of the elements: 233.255 in water, 100 in the oxide, and their sum in the hydroxide. -/
noncomputable def exEntropy (f : String) : ℝ :=
  if f = "H2O@" then 233.255 else if f = "MO" then 100 else if f = "MOH2O" then 333.255 else 0

/-- The solvent, an oxide and its hydrate, each with its reference properties, and the hydration reaction. -/
noncomputable def exHydr (apparent : String) : Env Unit Unit :=
  let e := exEnv [{ conSub "H2O@" (-237000) with cls := .AQSOLVENT }, conSub "MO" (-500000), conSub "MOH2O" (-750000)]
    [fromR "hydr" [("H2O@", -1), ("MO", -1), ("MOH2O", 1)]]
  { e with db := { e.db with elemEntropy := exEntropy }, apparentProperties := apparent }

/-- A record with its reference properties only, under any conventions. -/
lemma substRec_refOnly {env : Env PS EPS} {x : Subst} (hH : x.symbol ≠ "H+") (hdc : x.reacdc = false) (hg : x.gen = .CON)
    (hfb : env.fallback = false) {t : TPS} (hc : convStep env x x.ref = pure t) (r : Rec PS EPS) (T P : ℝ) (s : ESt PS EPS) :
    substRec env r T P x s = (.ok t, (setPrefs env x s).2) := by
  have hdc' : x.isReacDC = false := by simp [Subst.isReacDC, Subst.noMethods, hdc, hg]
  have e : substRec env r T P x s = (if x.symbol = "H+" then pure zeroTPS else do
    let t ← (if x.isReacDC then reacDC env r T P x else methodsStep env r T P x)
    pure (fallback env.fallback t x) : EM PS EPS TPS) (setPrefs env x s).2 := rfl
  rw [e, if_neg hH, hdc']
  have e2 : methodsStep env r T P x (setPrefs env x s).2 = (.ok t, (setPrefs env x s).2) := by
    by_cases hs : x.isSolvent = false ∧ x.isVapor = false
    · have e3 : methodsStep env r T P x = (do
        let a ← eosStep env T P x
        let b ← tStep env T P x a
        let c ← pStep env r T P x b
        convStep env x c) := by
        unfold methodsStep
        rw [if_pos hs]
        funext s
        show EM.bind _ _ s = EM.bind _ _ s
        simp only [eosStep, hg, tStep, pStep, if_true]
        rfl
      rw [e3]
      simp only [eosStep, hg, tStep, pStep, if_true]
      exact congrFun hc _
    · have e3 : methodsStep env r T P x = (waterStep env T P x >>= fun t => convStep env x t) := by
        unfold methodsStep
        rw [if_neg hs]
      rw [e3]
      simp only [waterStep, hg, if_true]
      exact congrFun hc _
  exact (bind_run e2).trans (by rw [hfb]; rfl)

lemma conv_solvent {env : Env PS EPS} {x : Subst} (hs : x.isSolvent = true)
    (h : iequals env.waterProperties.toList "STEAM_TABLES".toList = false) (t : TPS) : convStep env x t = pure t := by
  unfold convStep; rw [if_pos hs, if_neg (by rw [h]; decide)]
lemma conv_other {env : Env PS EPS} {x : Subst} (hs : x.isSolvent = false)
    (h : iequals env.apparentProperties.toList "BERMAN_BROWN".toList = false) (t : TPS) : convStep env x t = pure t := by
  unfold convStep; rw [if_neg (by rw [hs]; decide), if_neg (by rw [h]; decide)]
lemma conv_berman {env : Env PS EPS} {x : Subst} (hs : x.isSolvent = false)
    (h : iequals env.apparentProperties.toList "BERMAN_BROWN".toList = true) (t : TPS) :
    convStep env x t = pure (toBermanBrown t x env.db.elemEntropy) := by
  unfold convStep; rw [if_neg (by rw [hs]; decide), if_pos h]

lemma exHydr_ask (a : String) (t1 t2 t3 : TPS) (n : Nat) (T P : ℝ)
    (h1 : convStep (exHydr a) { conSub "H2O@" (-237000) with cls := .AQSOLVENT } (refGV (-237000) 1) = pure t1)
    (h2 : convStep (exHydr a) (conSub "MO" (-500000)) (refGV (-500000) 1) = pure t2)
    (h3 : convStep (exHydr a) (conSub "MOH2O" (-750000)) (refGV (-750000) 1) = pure t3) :
    (ask (exHydr a) (n + 1) (.fromR T P "hydr") ESt.init).1 =
      .ok (.reac (addScaled T (addScaled T (addScaled T zeroTPR t1 (-1)) t2 (-1)) t3 1)) := by
  have e : ask (exHydr a) (n + 1) (.fromR T P "hydr") = (reacFromReactants (exHydr a) (run (exHydr a) (n + 1)) T P
    (fromR "hydr" [("H2O@", -1), ("MO", -1), ("MOH2O", 1)]) >>= fun t => pure (.reac t)) := rfl
  have hA : ∃ s', Asked (exHydr a) (n + 1) T P { (ESt.init : ESt Unit Unit) with pcorr := true } [("H2O@", -1), ("MO", -1), ("MOH2O", 1)]
      [t1, t2, t3] s' := by
    have r1 := substRec_refOnly (env := exHydr a) (x := { conSub "H2O@" (-237000) with cls := .AQSOLVENT }) (by decide) rfl rfl rfl h1
      (run (exHydr a) n) T P
    have r2 := substRec_refOnly (env := exHydr a) (x := conSub "MO" (-500000)) (by decide) rfl rfl rfl h2 (run (exHydr a) n) T P
    have r3 := substRec_refOnly (env := exHydr a) (x := conSub "MOH2O" (-750000)) (by decide) rfl rfl rfl h3 (run (exHydr a) n) T P
    refine ⟨_, .cons (run_sub_own rfl rfl ?_ ?_ (r1 _)) (.cons (run_sub_own rfl rfl ?_ ?_ (r2 _))
      (.cons (run_sub_own rfl rfl ?_ ?_ (r3 _)) (.nil _)))⟩
    · show ([] : List (Key × TPS)).length < 1000000
      simp
    · rfl
    · exact lt_of_le_of_lt length_insert (by show ([] : List (Key × TPS)).length + 1 < 1000000; simp)
    · exact find_insert_ne (key_ne (by decide)) rfl
    · exact lt_of_le_of_lt length_insert (lt_of_le_of_lt (Nat.add_le_add_right length_insert 1)
        (by show ([] : List (Key × TPS)).length + 1 + 1 < 1000000; simp))
    · exact find_insert_ne (key_ne (by decide)) (find_insert_ne (key_ne (by decide)) rfl)
  obtain ⟨s', h⟩ := hA
  have e2 := fromReactants_run (env := exHydr a) (x := fromR "hydr" [("H2O@", -1), ("MO", -1), ("MOH2O", 1)]) (s := ESt.init) h (by
      intro e he
      simp only [fromR, List.mem_cons, List.not_mem_nil, or_false] at he
      rcases he with rfl | rfl | rfl
      · exact ⟨_, rfl, Or.inl rfl⟩
      · exact ⟨_, rfl, Or.inl rfl⟩
      · exact ⟨_, rfl, Or.inl rfl⟩)
  rw [e, EM.bind_of_ok (congrArg Prod.fst e2)]
  rfl

/-- **C88** is violated: the elements of the hydration reaction balance, but its Gibbs energy in the Berman-Brown convention differs from
that in the Benson-Helgeson convention by Tr times the entropy of the elements in water (about 69.5 kJ/mol): the conversion
(ThermoEngine.cpp:441-455) leaves out the solvent. -/
theorem C88_convention_refuted : ∃ (env : Env Unit Unit) (t u : TPR), ¬ BermanBrown env ∧ BermanBrown { env with apparentProperties := "BERMAN_BROWN" } ∧
    env.memo = true ∧ env.maxCache = 1000000 ∧
    (env.db.reacs.lookup "hydr").map Reac.reactants = some [("H2O@", -1), ("MO", -1), ("MOH2O", 1)] ∧
    -1 * env.db.elemEntropy "H2O@" + -1 * env.db.elemEntropy "MO" + 1 * env.db.elemEntropy "MOH2O" = 0 ∧
    (ask env 1 (.fromR 298.15 1e5 "hydr") ESt.init).1 = .ok (.reac t) ∧
    (ask { env with apparentProperties := "BERMAN_BROWN" } 1 (.fromR 298.15 1e5 "hydr") ESt.init).1 = .ok (.reac u) ∧
    t.G.val = -13000 ∧ u.G.val = -13000 - 298.15 * 233.255 := by
  have n1 : iequals "GEOCHEMICAL".toList "STEAM_TABLES".toList = false := by decide +kernel
  have n2 : iequals "BENSON_HELGESON".toList "BERMAN_BROWN".toList = false := by decide +kernel
  have n3 : iequals "BERMAN_BROWN".toList "BERMAN_BROWN".toList = true := by decide +kernel
  have e1 := exHydr_ask "BENSON_HELGESON" (refGV (-237000) 1) (refGV (-500000) 1) (refGV (-750000) 1) 0 298.15 1e5
    (conv_solvent rfl n1 _) (conv_other rfl n2 _) (conv_other rfl n2 _)
  have e2 := exHydr_ask "BERMAN_BROWN" (refGV (-237000) 1) (toBermanBrown (refGV (-500000) 1) (conSub "MO" (-500000)) exEntropy)
    (toBermanBrown (refGV (-750000) 1) (conSub "MOH2O" (-750000)) exEntropy) 0 298.15 1e5
    (conv_solvent rfl n1 _) (conv_berman rfl n3 _) (conv_berman rfl n3 _)
  refine ⟨exHydr "BENSON_HELGESON", _, _, ?_, ?_, rfl, rfl, rfl, ?_, e1, e2, ?_, ?_⟩
  · show ¬ ("BENSON_HELGESON".toList.map asciiLower = _); decide +kernel
  · show "BERMAN_BROWN".toList.map asciiLower = _; decide +kernel
  · show -1 * exEntropy "H2O@" + -1 * exEntropy "MO" + 1 * exEntropy "MOH2O" = 0
    simp [exEntropy]; norm_num
  · simp [addScaled, TS.addAssign, refGV, asg, zeroTPR, zeroTS, TS.assign]
    norm_num
  · simp [addScaled, TS.addAssign, refGV, asg, zeroTPR, zeroTS, TS.assign, toBermanBrown, TS.subAssignD, conSub, exEntropy]
    norm_num

/-- Same value and derivatives. -/
def Same (a b : TS) : Prop := b.val = a.val ∧ b.ddt = a.ddt ∧ b.ddp = a.ddp

/-- `u` is `t` with the Gibbs energy lower by `d`; the logarithms of the equilibrium constant follow the Gibbs energy. -/
structure LowerG (T d : ℝ) (t u : TPR) : Prop where
  G : u.G.val = t.G.val - d ∧ u.G.ddt = t.G.ddt ∧ u.G.ddp = t.G.ddp
  lnK : u.lnK.val = t.lnK.val + d / (Rgas * T) ∧ u.lnK.ddt = t.lnK.ddt ∧ u.lnK.ddp = t.lnK.ddp
  logK : u.logK.val = t.logK.val + d / (Rgas * T) * lnToLg ∧ u.logK.ddt = t.logK.ddt ∧ u.logK.ddp = t.logK.ddp
  others : u.H = t.H ∧ u.S = t.S ∧ u.V = t.V ∧ u.Cp = t.Cp ∧ u.Cv = t.Cv ∧ u.U = t.U ∧ u.A = t.A

lemma divR_ddt (a : TS) (c : ℝ) : (a / c).ddt = a.ddt / c := by
  have h : (TS.mulL (1.0 / c) a).ddt = (1.0 / c) * a.ddt := by unfold TS.mulL; split <;> rfl
  refine h.trans ?_
  rw [show (1.0 : ℝ) = 1 by norm_num, one_div, inv_mul_eq_div]
lemma divR_ddp (a : TS) (c : ℝ) : (a / c).ddp = a.ddp / c := by
  have h : (TS.mulL (1.0 / c) a).ddp = (1.0 / c) * a.ddp := by unfold TS.mulL; split <;> rfl
  refine h.trans ?_
  rw [show (1.0 : ℝ) = 1 by norm_num, one_div, inv_mul_eq_div]

lemma lowerG_addScaled {T d e c : ℝ} {t u : TPR} (h : LowerG T d t u) (x : Subst) (S : String → ℝ) (y : TPS) (he : x.refT * S x.formula = e) :
    LowerG T (d + c * e) (addScaled T t y c) (addScaled T u (toBermanBrown y x S) c) := by
  obtain ⟨⟨g1, g2, g3⟩, -, -, o1, o2, o3, o4, o5, o6, o7⟩ := h
  subst he
  have hG : (addScaled T u (toBermanBrown y x S) c).G.val = (addScaled T t y c).G.val - (d + c * (x.refT * S x.formula)) := by
    simp only [addScaled, TS.addAssign, toBermanBrown, TS.subAssignD, TS.op_val_mulR, g1]; ring
  have hG2 : (addScaled T u (toBermanBrown y x S) c).G.ddt = (addScaled T t y c).G.ddt := by
    simp only [addScaled, TS.addAssign, toBermanBrown, TS.subAssignD, mulR_ddt, g2]
  have hG3 : (addScaled T u (toBermanBrown y x S) c).G.ddp = (addScaled T t y c).G.ddp := by
    simp only [addScaled, TS.addAssign, toBermanBrown, TS.subAssignD, mulR_ddp, g3]
  have k : ∀ t y, (addScaled T t y c).lnK = (addScaled T t y c).G / (-(Rgas * T)) := fun _ _ => rfl
  have k2 : ∀ t y, (addScaled T t y c).logK = (addScaled T t y c).lnK * lnToLg := fun _ _ => rfl
  refine ⟨⟨hG, hG2, hG3⟩, ⟨?_, ?_, ?_⟩, ⟨?_, ?_, ?_⟩, ?_, ?_, ?_, ?_, rfl, rfl, rfl⟩
  · rw [k, k, TS.op_val_divR, TS.op_val_divR, hG]; ring
  · rw [k, k, divR_ddt, divR_ddt, hG2]
  · rw [k, k, divR_ddp, divR_ddp, hG3]
  · rw [k2, k2, k, k, TS.op_val_mulR, TS.op_val_mulR, TS.op_val_divR, TS.op_val_divR, hG]; ring
  · rw [k2, k2, k, k, mulR_ddt, mulR_ddt, divR_ddt, divR_ddt, hG2]
  · rw [k2, k2, k, k, mulR_ddp, mulR_ddp, divR_ddp, divR_ddp, hG3]
  · simp only [addScaled, toBermanBrown, o1]
  · simp only [addScaled, toBermanBrown, o2]
  · simp only [addScaled, toBermanBrown, o3]
  · simp only [addScaled, toBermanBrown, o4]

/-- Entropy of the elements, with the sign of the reaction. -/
noncomputable def balance (env : Env PS EPS) (l : List (String × ℝ)) : ℝ :=
  (l.map fun e => e.2 * ((env.db.subs.lookup e.1).map fun v => v.refT * env.db.elemEntropy v.formula).getD 0).sum

/-- The loop over the species, in both conventions. -/
lemma sum_pair {env : Env PS EPS} {a : String} (hmemo : env.memo = true) (hfb : env.fallback = false) (h0 : ¬ BermanBrown env)
    (h1 : BermanBrown { env with apparentProperties := a }) (n : Nat) (T P : ℝ) (sym : String) (l : List (String × ℝ))
    (hl : ∀ e ∈ l, ∃ v, env.db.subs.lookup e.1 = some v ∧ Own v ∧ v.cls ≠ .AQSOLVENT) (hnd : (l.map Prod.fst).Nodup)
    (s : ESt PS EPS) (c' : Cache Key TPS) (hlen : s.subC.entries.length + l.length ≤ env.maxCache)
    (hlen' : c'.entries.length + l.length ≤ env.maxCache) (hk : ∀ e ∈ l, s.subC.find ⟨T, P, e.1⟩ = none)
    (hk' : ∀ e ∈ l, c'.find ⟨T, P, e.1⟩ = none) (t t' : TPR) (d : ℝ) (ht : LowerG T d t t') (u : TPR) (s1 : ESt PS EPS)
    (hu : sumReactants env (run env (n + 1)) T P sym l t s = (.ok u, s1)) :
    ∃ u' c1, sumReactants { env with apparentProperties := a } (run { env with apparentProperties := a } (n + 1)) T P sym l t'
      { s with subC := c' } = (.ok u', { s1 with subC := c1 }) ∧ LowerG T (d + balance env l) u u' := by
  induction l generalizing s c' t t' d with
  | nil =>
    refine ⟨t', c', ?_, ?_⟩
    · unfold sumReactants at hu ⊢
      injection hu with hu hs
      subst hs
      rfl
    · injection hu with hu hs
      injection hu with hu
      subst hu
      simpa [balance] using ht
  | cons e l ih =>
    obtain ⟨y, c⟩ := e
    obtain ⟨v, hv, hown, hcls⟩ := hl (y, c) List.mem_cons_self
    have eg : getSub env y s = (.ok v, s) := by unfold getSub; rw [hv]; rfl
    have eg' : getSub { env with apparentProperties := a } y { s with subC := c' } = (.ok v, { s with subC := c' }) := by
      unfold getSub; simp only [hv]; rfl
    unfold sumReactants at hu ⊢
    rw [bind_run eg] at hu
    rw [bind_run eg']
    by_cases hn : v.noMethods ∧ v.reactionSymbol = sym
    · rw [if_pos hn] at hu
      injection hu with hu
      cases hu
    · rw [if_neg hn] at hu ⊢
      obtain ⟨ty, s2, hty, hrest⟩ := of_bind_run hu
      simp only [List.length_cons] at hlen hlen'
      obtain ⟨s3, hsub, rfl⟩ := of_run_sub_own hv hmemo (by omega) (hk _ List.mem_cons_self) hty
      have hsol : v.isSolvent = false := by simp [Subst.isSolvent, hcls]
      have n0 : iequals env.apparentProperties.toList "BERMAN_BROWN".toList = false := by
        rw [← berman_iff] at h0; simpa using h0
      have n1 : iequals a.toList "BERMAN_BROWN".toList = true := by
        rw [← berman_iff] at h1; exact h1
      have hsub' := conv_rec (env := env) (w := env.waterProperties) (a := a) (f := fun t => toBermanBrown t v env.db.elemEntropy) hown hfb
        (fun t => conv_other hsol n0 t) (fun t => conv_berman hsol n1 t) (run env n)
        (run { env with apparentProperties := a } n) T P s s3 ty hsub
      have hob := obl_substRec (env := { env with apparentProperties := a }) hown (run { env with apparentProperties := a } n) T P s c'
      have hob0 := obl_substRec (env := env) hown (run env n) T P s s.subC
      have hs3 : s3.subC = s.subC := by
        have e : ({ s with subC := s.subC } : ESt PS EPS) = s := rfl
        rw [e, hsub] at hob0
        exact congrArg (fun z => z.2.subC) hob0
      rw [hsub'] at hob
      have hrun := run_sub_own (env := { env with apparentProperties := a }) (n := n) hv hmemo (s := { s with subC := c' })
        (by show c'.entries.length < env.maxCache; omega) (hk' _ List.mem_cons_self) hob
      have hb : balance env ((y, c) :: l) = c * (v.refT * env.db.elemEntropy v.formula) + balance env l := by
        simp [balance, hv]
      rw [bind_run hrun]
      simp only [List.map_cons, List.nodup_cons] at hnd
      have hne : ∀ e ∈ l, (⟨T, P, e.1⟩ : Key) ≠ ⟨T, P, y⟩ := by
        intro e he
        refine key_ne ?_
        rintro rfl
        exact hnd.1 (List.mem_map_of_mem he)
      rw [hb, ← add_assoc]
      refine ih (fun e he => hl e (List.mem_cons_of_mem _ he)) hnd.2 (remember T P y ty s3) _ ?_ ?_ ?_ ?_ _ _ _
        (lowerG_addScaled ht v env.db.elemEntropy ty rfl) hrest
      · have := length_insert (c := s3.subC) (k := (⟨T, P, y⟩ : Key)) (v := ty)
        rw [hs3] at this
        simp only [remember, hs3]
        omega
      · refine le_trans (Nat.add_le_add_right length_insert _) ?_
        show c'.entries.length + 1 + _ ≤ _
        omega
      · intro e he
        refine find_insert_ne (hne e he) ?_
        rw [hs3]
        exact hk e (List.mem_cons_of_mem _ he)
      · intro e he
        exact find_insert_ne (hne e he) (hk' e (List.mem_cons_of_mem _ he))

/-- **C88** What holds of it: a reaction of substances with methods of their own, none of them the solvent, gets the same properties in the
Benson-Helgeson and in the Berman-Brown convention when its elements balance (at equal reference temperatures).  Missing: reactions with
the solvent, where it is false, species defined by other reactions, and engines that have been used before. -/
theorem C88_convention_partial {env : Env PS EPS} {a : String} (hmemo : env.memo = true) (hfb : env.fallback = false)
    (h0 : ¬ BermanBrown env) (h1 : BermanBrown { env with apparentProperties := a }) (n : Nat) (T P : ℝ) (x : Reac) (Tr : ℝ)
    (hl : ∀ e ∈ x.reactants, ∃ v, env.db.subs.lookup e.1 = some v ∧ Own v ∧ v.cls ≠ .AQSOLVENT ∧ v.refT = Tr)
    (hnd : (x.reactants.map Prod.fst).Nodup) (hlen : x.reactants.length ≤ env.maxCache)
    (hbal : (x.reactants.map fun e => e.2 * ((env.db.subs.lookup e.1).map fun v => env.db.elemEntropy v.formula).getD 0).sum = 0)
    (t : TPR) (ht : (ask env (n + 1) (.fromRRec T P x) ESt.init).1 = .ok (.reac t)) :
    ∃ u, (ask { env with apparentProperties := a } (n + 1) (.fromRRec T P x) ESt.init).1 = .ok (.reac u) ∧
      Same t.G u.G ∧ Same t.lnK u.lnK ∧ Same t.logK u.logK ∧ u.H = t.H ∧ u.S = t.S ∧ u.V = t.V ∧ u.Cp = t.Cp := by
  obtain ⟨t', ht', h2⟩ := EM.of_bind_ok ht
  have : t' = t := by injection h2 with h2; injection h2
  subst this
  have e : ∀ env : Env PS EPS, reacFromReactants env (run env (n + 1)) T P x (ESt.init : ESt PS EPS) =
    (sumReactants env (run env (n + 1)) T P x.symbol x.reactants zeroTPR >>= fun t => setFlag false >>= fun _ => pure t)
    { (ESt.init : ESt PS EPS) with pcorr := true } := fun _ => rfl
  have ht2 : reacFromReactants env (run env (n + 1)) T P x ESt.init = (.ok t', _) := Prod.ext ht' rfl
  rw [e] at ht2
  obtain ⟨u, s1, hu, hu2⟩ := of_bind_run ht2
  have : u = t' := by injection hu2 with hu2; injection hu2
  subst this
  have hz : LowerG T 0 zeroTPR zeroTPR := by
    refine ⟨⟨?_, rfl, rfl⟩, ⟨?_, rfl, rfl⟩, ⟨?_, rfl, rfl⟩, rfl, rfl, rfl, rfl, rfl, rfl, rfl⟩ <;> simp
  obtain ⟨u', c1, hu', hL⟩ := sum_pair (a := a) hmemo hfb h0 h1 n T P x.symbol x.reactants
    (fun e he => by obtain ⟨v, h1, h2, h3, -⟩ := hl e he; exact ⟨v, h1, h2, h3⟩) hnd
    { (ESt.init : ESt PS EPS) with pcorr := true } ⟨[], []⟩ (by simpa [ESt.init] using hlen) (by simpa using hlen) (fun _ _ => rfl) (fun _ _ => rfl)
    zeroTPR zeroTPR 0 hz u s1 hu
  have hb : balance env x.reactants = 0 := by
    have : balance env x.reactants =
        Tr * (x.reactants.map fun e => e.2 * ((env.db.subs.lookup e.1).map fun v => env.db.elemEntropy v.formula).getD 0).sum := by
      unfold balance
      rw [← List.sum_map_mul_left]
      congr 1
      refine List.map_congr_left fun e he => ?_
      obtain ⟨v, hv, -, -, hT⟩ := hl e he
      simp only [hv, Option.map_some, Option.getD_some, hT]
      ring
    rw [this, hbal, mul_zero]
  rw [hb] at hL
  obtain ⟨g, k, l, o1, o2, o3, o4, -⟩ := hL
  simp only [add_zero, sub_zero, zero_div, zero_mul] at g k l
  refine ⟨u', ?_, g, k, l, o1, o2, o3, o4⟩
  have e3 := e { env with apparentProperties := a }
  have hu' : sumReactants { env with apparentProperties := a } (run { env with apparentProperties := a } (n + 1)) T P x.symbol x.reactants zeroTPR
    { (ESt.init : ESt PS EPS) with pcorr := true } = (.ok u', { s1 with subC := c1 }) := hu'
  rw [bind_run hu'] at e3
  exact congrArg Prod.fst (bind_run (m := reacFromReactants { env with apparentProperties := a } _ T P x) e3)

/-- Two polymorphs. -/
noncomputable def exPoly : Env Unit Unit := { exTwo with db := { exTwo.db with elemEntropy := fun _ => 100 } }

/-- The transition between two polymorphs. -/
example : ∃ t u, (ask exPoly 1 (.fromRRec 300 1e5 (fromR "r" [("A", -1), ("B", 1)])) ESt.init).1 = .ok (.reac t) ∧
    (ask { exPoly with apparentProperties := "Berman_Brown" } 1
      (.fromRRec 300 1e5 (fromR "r" [("A", -1), ("B", 1)])) ESt.init).1 = .ok (.reac u) ∧ Same t.G u.G := by
  have n2 : iequals "BENSON_HELGESON".toList "BERMAN_BROWN".toList = false := by decide +kernel
  have r1 := substRec_refOnly (env := exPoly) (x := conSub "A" 2) (by decide) rfl rfl rfl (conv_other rfl n2 _) (run exPoly 0) 300 1e5
  have r2 := substRec_refOnly (env := exPoly) (x := conSub "B" 5) (by decide) rfl rfl rfl (conv_other rfl n2 _) (run exPoly 0) 300 1e5
  have h : ∃ s', Asked exPoly 1 300 1e5 { (ESt.init : ESt Unit Unit) with pcorr := true } [("A", -1), ("B", 1)] [refGV 2 1, refGV 5 1] s' := by
    refine ⟨_, .cons (run_sub_own rfl rfl ?_ ?_ (r1 _)) (.cons (run_sub_own rfl rfl ?_ ?_ (r2 _)) (.nil _))⟩
    · show ([] : List (Key × TPS)).length < 1000000
      simp
    · rfl
    · exact lt_of_le_of_lt length_insert (by show ([] : List (Key × TPS)).length + 1 < 1000000; simp)
    · exact find_insert_ne (key_ne (by decide)) rfl
  obtain ⟨s', h⟩ := h
  have e2 := fromReactants_run (env := exPoly) (x := fromR "r" [("A", -1), ("B", 1)]) (s := ESt.init) h (by
      intro e he
      simp only [fromR, List.mem_cons, List.not_mem_nil, or_false] at he
      rcases he with rfl | rfl
      · exact ⟨conSub "A" 2, rfl, Or.inl rfl⟩
      · exact ⟨conSub "B" 5, rfl, Or.inl rfl⟩)
  have hx : ∃ t, (ask exPoly 1 (.fromRRec 300 1e5 (fromR "r" [("A", -1), ("B", 1)])) ESt.init).1 = .ok (.reac t) :=
    ⟨_, congrArg Prod.fst (bind_run (m := reacFromReactants exPoly _ 300 1e5 _) e2)⟩
  obtain ⟨t, ht⟩ := hx
  obtain ⟨u, hu, hG, -⟩ := C88_convention_partial (a := "Berman_Brown") rfl rfl
    (by show ¬ ("BENSON_HELGESON".toList.map asciiLower = _); decide +kernel) (by show "Berman_Brown".toList.map asciiLower = _; decide +kernel)
    0 300 1e5 (fromR "r" [("A", -1), ("B", 1)]) 298.15 (by
      intro e he
      simp only [fromR, List.mem_cons, List.not_mem_nil, or_false] at he
      rcases he with rfl | rfl
      · exact ⟨conSub "A" 2, rfl, ⟨by decide, rfl, by decide⟩, by decide, rfl⟩
      · exact ⟨conSub "B" 5, rfl, ⟨by decide, rfl, by decide⟩, by decide, rfl⟩) (by decide)
    (by show 2 ≤ 1000000; decide) (by simp [fromR, exPoly, exTwo, exEnv, exDb, conSub, List.lookup]) t ht
  exact ⟨t, u, ht, hu, hG⟩

/-! #### Fallback and convention -/

/-- **C48** is violated with the fallback: a record whose method leaves the Gibbs energy undefined (here the unused temperature code
`BER`) gets the recorded Gibbs energy in both conventions, because the fallback (ThermoEngine.cpp:462) comes after the conversion
(441-455); with the code `CON`, which answers with the recorded Gibbs energy too, the conversion is made. -/
theorem C48_fallback_refuted : ∃ (env : Env Unit Unit) (x y : Subst) (t u t' u' : TPS), env.fallback = true ∧ ¬ BermanBrown env ∧
    BermanBrown { env with apparentProperties := "BERMAN_BROWN" } ∧ y = { x with gen := .CON } ∧ 0 < x.refT * env.db.elemEntropy x.formula ∧
    (ask env 1 (.subRec 298.15 1e5 x) ESt.init).1 = .ok (.sub t) ∧
    (ask { env with apparentProperties := "BERMAN_BROWN" } 1 (.subRec 298.15 1e5 x) ESt.init).1 = .ok (.sub t') ∧
    (ask env 1 (.subRec 298.15 1e5 y) ESt.init).1 = .ok (.sub u) ∧
    (ask { env with apparentProperties := "BERMAN_BROWN" } 1 (.subRec 298.15 1e5 y) ESt.init).1 = .ok (.sub u') ∧
    t.G.val = x.ref.G.val ∧ t'.G.val = x.ref.G.val ∧ u.G.val = x.ref.G.val ∧ u'.G.val = x.ref.G.val - x.refT * env.db.elemEntropy x.formula := by
  have n2 : iequals "BENSON_HELGESON".toList "BERMAN_BROWN".toList = false := by decide +kernel
  have n3 : iequals "BERMAN_BROWN".toList "BERMAN_BROWN".toList = true := by decide +kernel
  let env : Env Unit Unit := { exPoly with fallback := true }
  let env' : Env Unit Unit := { env with apparentProperties := "BERMAN_BROWN" }
  let x : Subst := { conSub "A" 2 with gen := .unset, mT := .BER }
  let y : Subst := { x with gen := .CON }
  have c1 : ∀ t, convStep env x t = pure t := fun t => conv_other (env := env) (x := x) rfl n2 t
  have c2 : ∀ t, convStep env' x t = pure (toBermanBrown t x fun _ => 100) := fun t => conv_berman (env := env') (x := x) rfl n3 t
  have c3 : ∀ t, convStep env y t = pure t := fun t => conv_other (env := env) (x := y) rfl n2 t
  have c4 : ∀ t, convStep env' y t = pure (toBermanBrown t y fun _ => 100) := fun t => conv_berman (env := env') (x := y) rfl n3 t
  have ox : Own x := ⟨by decide, rfl, by decide⟩
  have oy : Own y := ⟨by decide, rfl, by decide⟩
  have go : ∀ (e : Env Unit Unit) (z : Subst) (a b : TPS), Own z → (∀ s, methodsStep e (run e 0) 298.15 1e5 z s = convStep e z a s) →
      convStep e z a = pure b → (ask e 1 (.subRec 298.15 1e5 z) ESt.init).1 = .ok (.sub (fallback e.fallback b z)) := by
    intro e z a b hz hm hc
    refine congrArg Prod.fst ((bind_run (m := substRec e (run e 0) 298.15 1e5 z) (s' := (setPrefs e z ESt.init).2) (a := fallback e.fallback b z) ?_))
    rw [substRec_own hz, bind_run (a := b) (s' := (setPrefs e z ESt.init).2)]
    · rfl
    · rw [hm, hc]; rfl
  refine ⟨env, x, y, _, _, _, _, rfl, ?_, ?_, rfl, ?_, go env x TPS.default _ ox (fun _ => rfl) (c1 _), go env' x TPS.default _ ox (fun _ => rfl) (c2 _),
    go env y (refGV 2 1) _ oy (fun _ => rfl) (c3 _), go env' y (refGV 2 1) _ oy (fun _ => rfl) (c4 _), ?_, ?_, ?_, ?_⟩
  · show ¬ ("BENSON_HELGESON".toList.map asciiLower = _); decide +kernel
  · show "BERMAN_BROWN".toList.map asciiLower = _; decide +kernel
  · show (0 : ℝ) < 298.15 * 100
    norm_num
  · rfl
  · rfl
  · rfl
  · rfl

/-! ### C85 Changes of preferences and conventions

`preferences()` and `conventions()` (ThermoEngine.cpp:917-949) return references, through which the settings can be changed between two
queries; the caches stay. -/

/-- Caches of substances and reactions emptied. -/
def cleared (s : ESt PS EPS) : ESt PS EPS := { s with subC := ⟨[], []⟩, reacC := ⟨[], []⟩ }

/-- **C85** is violated: a substance asked for once is answered with the old value after the convention has been changed, while the same
engine with empty caches answers with the new one. -/
theorem C85_change_refuted : ∃ (env env' : Env Unit Unit) (s : ESt Unit Unit) (t u : TPS),
    env' = { env with apparentProperties := "BERMAN_BROWN" } ∧ env.memo = true ∧ env.maxCache = 1000000 ∧
    s = after env 1 ESt.init [.sub 298.15 1e5 "A"] ∧
    (ask env' 1 (.sub 298.15 1e5 "A") s).1 = .ok (.sub t) ∧ (ask env' 1 (.sub 298.15 1e5 "A") (cleared s)).1 = .ok (.sub u) ∧
    t.G.val = 2 ∧ u.G.val = 2 - 298.15 * 100 := by
  have n2 : iequals "BENSON_HELGESON".toList "BERMAN_BROWN".toList = false := by decide +kernel
  have n3 : iequals "BERMAN_BROWN".toList "BERMAN_BROWN".toList = true := by decide +kernel
  have r1 := substRec_refOnly (env := exPoly) (x := conSub "A" 2) (by decide) rfl rfl rfl (conv_other rfl n2 _) (run exPoly 0) 298.15 1e5 ESt.init
  have q1 := run_sub_own (env := exPoly) (y := "A") (n := 0) rfl rfl (by show ([] : List (Key × TPS)).length < 1000000; simp) rfl r1
  have a1 := ask_sub_of q1
  refine ⟨exPoly, { exPoly with apparentProperties := "BERMAN_BROWN" }, _, refGV 2 1, toBermanBrown (refGV 2 1) (conSub "A" 2) fun _ => 100,
    rfl, rfl, rfl, rfl, ?_, ?_, rfl, rfl⟩
  · have e : after exPoly 1 ESt.init [.sub 298.15 1e5 "A"] = _ := congrArg Prod.snd a1
    rw [e]
    refine congrArg Prod.fst (ask_sub_of (n := 1) (env := { exPoly with apparentProperties := "BERMAN_BROWN" })
      (cached_hit (env := { exPoly with apparentProperties := "BERMAN_BROWN" }) (get := ESt.subC) (set := fun c s => { s with subC := c })
        (fun _ => rfl) ?_ rfl find_insert))
    exact lt_of_le_of_lt length_insert (by show ([] : List (Key × TPS)).length + 1 < 1000000; simp)
  · have r2 := substRec_refOnly (env := { exPoly with apparentProperties := "BERMAN_BROWN" }) (x := conSub "A" 2) (by decide) rfl rfl rfl
      (conv_berman rfl n3 _) (run { exPoly with apparentProperties := "BERMAN_BROWN" } 0) 298.15 1e5
      (cleared (after exPoly 1 ESt.init [.sub 298.15 1e5 "A"]))
    exact congrArg Prod.fst (ask_sub_of (run_sub_own (env := { exPoly with apparentProperties := "BERMAN_BROWN" }) (y := "A") (n := 0) rfl rfl
      (by show ([] : List (Key × TPS)).length < 1000000; simp) rfl r2))

/-- **C85** What holds of it: a query by record for a substance with methods of its own is answered according to the current preferences and
conventions: the answer is that of the same engine with empty caches of substances and reactions, whatever was asked before and under
whatever preferences.  Missing: queries by symbol, where it is false. -/
theorem C85_change_partial (env : Env PS EPS) {x : Subst} (h : Own x) (n : Nat) (T P : ℝ) (s : ESt PS EPS) :
    (ask env (n + 1) (.subRec T P x) s).1 = (ask env (n + 1) (.subRec T P x) (cleared s)).1 := by
  have e : ∀ s, ask env (n + 1) (.subRec T P x) s = (substRec env (run env n) T P x >>= fun t => (pure (.sub t) : EM PS EPS (Answer PS EPS))) s :=
    fun _ => rfl
  have hs : Obl (substRec env (run env n) T P x) := obl_substRec h _ T P
  have hr : OblR (substRec env (run env n) T P x) := oblR_substRec h _ T P
  have e2 : (substRec env (run env n) T P x (cleared s)).1 = (substRec env (run env n) T P x s).1 := by
    have h1 := hs { s with reacC := ⟨[], []⟩ } ⟨[], []⟩
    have h2 := hr s ⟨[], []⟩
    rw [h2] at h1
    have h3 := congrArg Prod.fst h1
    exact h3
  rw [e, e, bind_pure_fst, bind_pure_fst, e2]
  cases (substRec env (run env n) T P x s).1 <;> rfl

example : Own (conSub "A" 2) ∧ Own (gasSub "G" 3) := ⟨⟨by decide, rfl, by decide⟩, ⟨by decide, rfl, by decide⟩⟩

/-! ### C49 Choice of the models

The codes and the models they stand for (GlobalVariables.h:279-306, 350-379, 436-463). -/

/-- The output of the equation of state chosen by `method_genEOS`; `ps`, `es` are the properties of the solvent. -/
inductive EosOutput (mods : Models PS EPS) (T P : ℝ) (x : Subst) : TPS → Prop
  | CON : x.gen = .CON → EosOutput mods T P x x.ref
  | CPT {t} : x.gen = .CPT → mods.cpt x T P = .ok t → EosOutput mods T P x t
  | HKF {t} (ps es) : x.gen = .HKF → mods.hkf x T P ps es = .ok t → EosOutput mods T P x t
  | HKFR {t} (ps es) : x.gen = .HKFR → mods.hkfr x T P ps es = .ok t → EosOutput mods T P x t
  | HP98 {t} (psr ps) : x.gen = .HP98 → mods.hp98 x T P psr ps = .ok t → EosOutput mods T P x t
  | AN91 {t} (psr ps) : x.gen = .AN91 → mods.an91 x T P psr ps = .ok t → EosOutput mods T P x t
  | none : x.gen ∉ [.CON, .CPT, .HKF, .HKFR, .HP98, .AN91] → EosOutput mods T P x TPS.default

/-- What the temperature correction makes of `a`. -/
inductive TOutput (mods : Models PS EPS) (T P : ℝ) (x : Subst) (a : TPS) : TPS → Prop
  | CHP {t} : x.mT = .CHP → mods.chp x T P a = .ok t → TOutput mods T P x a t
  | CST {t} : x.mT = .CST → x.gen ≠ .CPT → mods.cst x T P = .ok t → TOutput mods T P x a t
  | none : x.mT ∉ [.CHP, .CST] ∨ (x.mT = .CST ∧ x.gen = .CPT) → TOutput mods T P x a a

/-- The pressure corrections by code, without Akinfiev-Diamond. -/
def pTable (mods : Models PS EPS) (fl : Bool) : List (CorrP × (Subst → ℝ → ℝ → TPS → Res TPS)) :=
  [(.CEH, mods.ceh), (.VBE, mods.vbe), (.VBM, mods.vbm), (.CORK, fun x T P t => mods.cork x T P t fl),
    (.PRSV, fun x T P t => mods.prsv x T P t fl), (.EMP, fun x T P t => mods.emp x T P t fl), (.SRK, fun x T P t => mods.srk x T P t fl),
    (.PR78, fun x T P t => mods.pr78 x T P t fl), (.STP, fun x T P t => mods.stp x T P t fl), (.OFF, fun x T P t => mods.off x T P t fl),
    (.CON, mods.con)]

/-- What the pressure correction makes of `b`, with or without the correction of gas properties. -/
inductive POutput (mods : Models PS EPS) (T P : ℝ) (x : Subst) (b : TPS) : TPS → Prop
  | run {t} (fl : Bool) (m) : (x.mP, m) ∈ pTable mods fl → m x T P b = .ok t → POutput mods T P x b t
  | none : x.mP ∉ (pTable mods true).map Prod.fst → POutput mods T P x b b

lemma eosStep_output {env : Env PS EPS} {T P : ℝ} {x : Subst} {s : ESt PS EPS} {t : TPS} (h : (eosStep env T P x s).1 = .ok t) :
    EosOutput env.mods T P x t := by
  have lift_ok : ∀ {o : Res TPS} {s : ESt PS EPS} {t : TPS}, (EM.lift o s).1 = .ok t → o = .ok t := by
    intro o s t h
    cases o <;> simp [EM.lift] at h
    exact congrArg _ h
  cases hg : x.gen <;> simp only [eosStep, hg] at h
  case CON =>
    have : x.ref = t := by injection h
    exact this ▸ .CON hg
  case CPT => exact .CPT hg (lift_ok h)
  case HKF =>
    obtain ⟨ps, -, h⟩ := EM.of_bind_ok h
    obtain ⟨es, -, h⟩ := EM.of_bind_ok h
    exact .HKF ps es hg (lift_ok h)
  case HKFR =>
    obtain ⟨ps, -, h⟩ := EM.of_bind_ok h
    obtain ⟨es, -, h⟩ := EM.of_bind_ok h
    exact .HKFR ps es hg (lift_ok h)
  case HP98 =>
    obtain ⟨w, -, h⟩ := EM.of_bind_ok h
    obtain ⟨ps, -, h⟩ := EM.of_bind_ok h
    obtain ⟨es, -, h⟩ := EM.of_bind_ok h
    exact .HP98 ps es hg (lift_ok h)
  case AN91 =>
    obtain ⟨w, -, h⟩ := EM.of_bind_ok h
    obtain ⟨ps, -, h⟩ := EM.of_bind_ok h
    obtain ⟨es, -, h⟩ := EM.of_bind_ok h
    exact .AN91 ps es hg (lift_ok h)
  all_goals
    have : TPS.default = t := by injection h
    exact this ▸ .none (by simp [hg])

lemma tStep_output {env : Env PS EPS} {T P : ℝ} {x : Subst} {a : TPS} (hc : x.gen ≠ .CON) {s : ESt PS EPS} {t : TPS}
    (h : (tStep env T P x a s).1 = .ok t) : TOutput env.mods T P x a t := by
  have lift_ok : ∀ {o : Res TPS} {s : ESt PS EPS} {t : TPS}, (EM.lift o s).1 = .ok t → o = .ok t := by
    intro o s t h
    cases o <;> simp [EM.lift] at h
    exact congrArg _ h
  unfold tStep at h
  rw [if_neg hc] at h
  cases hm : x.mT <;> simp only [hm] at h
  case CHP => exact .CHP hm (lift_ok h)
  case CST =>
    by_cases hg : x.gen = .CPT
    · rw [if_neg (by simpa using hg)] at h
      have : a = t := by injection h
      exact this ▸ .none (Or.inr ⟨hm, hg⟩)
    · rw [if_pos hg] at h
      exact .CST hm hg (lift_ok h)
  all_goals
    have : a = t := by injection h
    exact this ▸ .none (Or.inl (by simp [hm]))

lemma pStep_output {env : Env PS EPS} {T P : ℝ} {x : Subst} {r : Rec PS EPS} {b : TPS} (hc : x.gen ≠ .CON) (ha : x.mP ≠ .AKI) {s : ESt PS EPS}
    {t : TPS} (h : (pStep env r T P x b s).1 = .ok t) : POutput env.mods T P x b t := by
  have lift_ok : ∀ {o : Res TPS} {s : ESt PS EPS} {t : TPS}, (EM.lift o s).1 = .ok t → o = .ok t := by
    intro o s t h
    cases o <;> simp [EM.lift] at h
    exact congrArg _ h
  unfold pStep at h
  obtain ⟨fl, -, h⟩ := EM.of_bind_ok h
  rw [if_neg hc] at h
  cases hm : x.mP <;> simp only [hm] at h
  case AKI => exact absurd hm ha
  case CEH | VBE | VBM | CORK | PRSV | EMP | SRK | PR78 | STP | OFF | CON =>
    exact .run fl _ (by rw [hm]; first | (simp [pTable]; done) | (simp [pTable]; rfl)) (lift_ok h)
  all_goals
    have : b = t := by injection h
    exact this ▸ .none (by simp [hm, pTable])

/-- **C49** What holds of it: for a substance with methods of its own (not the solvent, not water vapour, not Akinfiev-Diamond), in the
engine's default conventions and without fallback, an answer is the output of the equation of state, then of the temperature correction,
then of the pressure correction its three codes stand for, each run once; the reference-state code gives the record's properties.  Missing:
the codes without a model, where nothing is run and nothing is refused (the cases `none`, see `C49_ignored_refuted`). -/
theorem C49_methods_partial {env : Env PS EPS} {x : Subst} (h : Own x) (hs : x.cls ≠ .AQSOLVENT) (hv : ¬ (x.gen = .HKF ∧ x.mP = .GAS))
    (hfb : env.fallback = false) (hb : ¬ BermanBrown env) (n : Nat) (T P : ℝ) (s : ESt PS EPS) {t : TPS}
    (ht : (ask env (n + 1) (.subRec T P x) s).1 = .ok (.sub t)) :
    (x.gen = .CON → t = x.ref) ∧
    (x.gen ≠ .CON → ∃ a b, EosOutput env.mods T P x a ∧ TOutput env.mods T P x a b ∧ POutput env.mods T P x b t) := by
  obtain ⟨u, hu, h2⟩ := EM.of_bind_ok ht
  have : u = t := by injection h2 with h2; injection h2
  subst this
  have hu : (substRec env (run env n) T P x s).1 = .ok u := hu
  rw [substRec_own h] at hu
  obtain ⟨v, hv1, h3⟩ := EM.of_bind_ok hu
  rw [hfb] at h3
  have : v = u := by injection h3
  subst this
  have hsol : x.isSolvent = false := by simp [Subst.isSolvent, hs]
  have hvap : x.isVapor = false := by simpa [Subst.isVapor] using hv
  have nb : iequals env.apparentProperties.toList "BERMAN_BROWN".toList = false := by
    rw [← berman_iff] at hb; simpa using hb
  unfold methodsStep at hv1
  rw [if_pos ⟨hsol, hvap⟩] at hv1
  obtain ⟨w, hw, h4⟩ := EM.of_bind_ok hv1
  rw [conv_other hsol nb] at h4
  have : w = v := by injection h4
  subst this
  obtain ⟨a, ha, hw⟩ := EM.of_bind_ok hw
  obtain ⟨b, hb1, hw⟩ := EM.of_bind_ok hw
  constructor
  · intro hg
    simp only [eosStep, hg] at ha
    simp only [tStep, hg, if_true] at hb1
    simp only [pStep, hg, if_true] at hw
    have e1 : x.ref = a := by injection ha
    have e2 : a = b := by injection hb1
    have e3 : b = w := by injection hw
    rw [e1, e2, e3]
  · intro hg
    exact ⟨a, b, eosStep_output ha, tStep_output hg hb1, pStep_output hg h.aki hw⟩

/-- The ideal gas: `EntropyCpIntegration`, then `IdealGasLawVol`. -/
example : Own (gasSub "G" 3) ∧ (gasSub "G" 3).cls ≠ .AQSOLVENT ∧ ¬ ((gasSub "G" 3).gen = .HKF ∧ (gasSub "G" 3).mP = .GAS) ∧
    ¬ BermanBrown exGas ∧ ∃ t, (ask exGas 1 (.subRec 300 2e5 (gasSub "G" 3)) ESt.init).1 = .ok (.sub t) := by
  refine ⟨⟨by decide, rfl, by decide⟩, by decide, by decide, by show ¬ ("BENSON_HELGESON".toList.map asciiLower = _); decide +kernel, ?_⟩
  exact ⟨_, congrArg Prod.fst (bind_run (m := substRec exGas (run exGas 0) 300 2e5 (gasSub "G" 3)) (substRec_gas _ _ _ 300 2e5 "G" 3 (by decide) _))⟩

/-- Pressure correction codes a record may carry that the engine neither runs nor refuses. -/
def ignoredP : List CorrP := [.NUL, .ONE, .TWO, .TRI, .VKE, .VTA, .GAS, .REFL, .HKF, .PCR, .INK]
/-- Temperature correction codes of the same kind. -/
def ignoredT : List CorrT := [.BER, .FEI, .LGX, .HKF, .WAT, .WAS, .LGK, .EK0, .EK1, .EK2, .EK3, .IKZ, .DKR, .PPE, .MRB, .CPG, .IFG, .KAS, .DAS,
  .WAR, .WWP, .WZD, .DMD]
/-- General codes of the same kind. -/
def ignoredGen : List GenEoS := [.REA, .EOS, .ISO, .SOR, .OFF, .GAS, .H2O, .CO2, .CH4, .N2, .H2, .O2, .AR, .PO, .NP, .WJNR, .WJNG, .WSV14, .WF97]

/-- The answer is what this one numeric model returns, its errors included. -/
def Just (o : Res TPS) (r : Out (Answer PS EPS)) : Prop :=
  r = match o with
    | .ok t => .ok (.sub t)
    | .throw => .throw
    | .ub => .ub

lemma just_of {env : Env PS EPS} {x : Subst} (h : Own x) (hs : x.cls ≠ .AQSOLVENT) (hv : x.gen ≠ .HKF) (hfb : env.fallback = false)
    (hb : ¬ BermanBrown env) (n : Nat) (T P : ℝ) (s : ESt PS EPS) {o : Res TPS}
    (ho : ∀ s : ESt PS EPS, (do
      let a ← eosStep env T P x
      let b ← tStep env T P x a
      pStep env (run env n) T P x b : EM PS EPS TPS) s = EM.lift o s) :
    Just o (ask env (n + 1) (.subRec T P x) s).1 := by
  have hsol : x.isSolvent = false := by simp [Subst.isSolvent, hs]
  have hvap : x.isVapor = false := by simp [Subst.isVapor, hv]
  have nb : iequals env.apparentProperties.toList "BERMAN_BROWN".toList = false := by
    rw [← berman_iff] at hb; simpa using hb
  have e : ask env (n + 1) (.subRec T P x) s = (substRec env (run env n) T P x >>= fun t => (pure (.sub t) : EM PS EPS (Answer PS EPS))) s := rfl
  have e1 : ∀ s, methodsStep env (run env n) T P x s = EM.lift o s := by
    intro s
    have : methodsStep env (run env n) T P x s = ((do
      let a ← eosStep env T P x
      let b ← tStep env T P x a
      pStep env (run env n) T P x b : EM PS EPS TPS) >>= fun t => pure t) s := by
      unfold methodsStep
      rw [if_pos ⟨hsol, hvap⟩]
      simp only [conv_other hsol nb]
    rw [this, bind_pure_fst, ho]
    cases o <;> rfl
  rw [e, bind_pure_fst, substRec_own h, bind_pure_fst, e1, hfb]
  unfold Just
  cases o <;> rfl

/-- **C49** is violated.  In every engine with the default conventions and whatever models, a substance with the entropy integration
(`CST`) is answered with just the result of that model when its record carries any of eleven pressure codes and any of 19 general codes
besides, and a substance with the heat capacity integration (`CPT`) with just the result of that when its record carries any of 24
temperature codes, `CST` among them, and any of the pressure codes: these codes are neither run nor refused. -/
theorem C49_ignored_refuted :
    (∀ (env : Env PS EPS) (n : Nat) (T P : ℝ) (s : ESt PS EPS) (x : Subst), env.fallback = false → ¬ BermanBrown env → x.symbol ≠ "H+" →
      x.reacdc = false → x.cls ≠ .AQSOLVENT → x.mP ∈ .unset :: ignoredP →
      (x.gen ∈ .unset :: ignoredGen → x.mT = .CST → Just (env.mods.cst x T P) (ask env (n + 1) (.subRec T P x) s).1) ∧
      (x.gen = .CPT → x.mT ∈ .unset :: .CST :: ignoredT → Just (env.mods.cpt x T P) (ask env (n + 1) (.subRec T P x) s).1)) ∧
    (∀ c ∈ ignoredP, ∃ t, (ask (exEnv [] []) 1 (.subRec 300 2e5 { gasSub "G" 3 with mP := c }) ESt.init).1 = .ok (.sub t)) := by
  have main : ∀ (PS EPS : Type) (env : Env PS EPS) (n : Nat) (T P : ℝ) (s : ESt PS EPS) (x : Subst), env.fallback = false → ¬ BermanBrown env →
      x.symbol ≠ "H+" → x.reacdc = false → x.cls ≠ .AQSOLVENT → x.mP ∈ .unset :: ignoredP →
      (x.gen ∈ .unset :: ignoredGen → x.mT = .CST → Just (env.mods.cst x T P) (ask env (n + 1) (.subRec T P x) s).1) ∧
      (x.gen = .CPT → x.mT ∈ .unset :: .CST :: ignoredT → Just (env.mods.cpt x T P) (ask env (n + 1) (.subRec T P x) s).1) := by
    intro PS EPS env n T P s x hfb hb hH hdc hs hP
    have hP1 : x.mP ≠ .AKI := by rintro h; rw [h] at hP; revert hP; decide
    have hP2 : x.mP ≠ .CON := by rintro h; rw [h] at hP; revert hP; decide
    have hpS : ∀ t, x.gen ≠ .CON → ∀ s, pStep env (run env n) T P x t s = (pure t : EM PS EPS TPS) s := by
      intro t hg s
      have : pStep env (run env n) T P x t = EM.read (fun s => s.pcorr) >>= fun _ => pure t := by
        unfold pStep
        simp only [if_neg hg]
        congr 1
        funext fl
        generalize x.mP = m at hP hP1
        cases m <;> first | rfl | (exfalso; revert hP; decide)
      rw [this]; rfl
    constructor
    · intro hg hT
      have g1 : x.gen ≠ .CON := by rintro h; rw [h] at hg; revert hg; decide
      have g2 : x.gen ≠ .CPT := by rintro h; rw [h] at hg; revert hg; decide
      have g3 : x.gen ≠ .HKF := by rintro h; rw [h] at hg; revert hg; decide
      refine just_of ⟨hH, ?_, hP1⟩ hs g3 hfb hb n T P s fun s => ?_
      · simp [Subst.isReacDC, Subst.noMethods, hdc, hT]
      · have e1 : eosStep env T P x = pure TPS.default := by
          unfold eosStep
          generalize x.gen = g at hg
          cases g <;> first | rfl | (exfalso; revert hg; decide)
        have e2 : tStep env T P x TPS.default = EM.lift (env.mods.cst x T P) := by
          unfold tStep
          rw [if_neg g1, hT]
          simp only [ne_eq, g2, not_false_eq_true, if_true]
        rw [e1]
        show (tStep env T P x TPS.default >>= fun b => pStep env (run env n) T P x b) s = _
        rw [e2, show (fun b => pStep env (run env n) T P x b) = fun b => pure b from funext fun b => funext fun s => hpS b g1 s, bind_pure_fst]
        cases env.mods.cst x T P <;> rfl
    · intro hg hT
      have g1 : x.gen ≠ .CON := by rw [hg]; decide
      refine just_of ⟨hH, ?_, hP1⟩ hs (by rw [hg]; decide) hfb hb n T P s fun s => ?_
      · simp [Subst.isReacDC, Subst.noMethods, hdc, hg]
      · have e1 : eosStep env T P x = EM.lift (env.mods.cpt x T P) := by unfold eosStep; rw [hg]
        have e2 : ∀ t, tStep env T P x t = pure t := by
          intro t
          unfold tStep
          rw [if_neg g1]
          generalize x.mT = m at hT
          cases m <;> first | rfl | (simp only [hg]; rfl) | (exfalso; revert hT; decide)
        have e3 : (fun a => tStep env T P x a >>= fun b => pStep env (run env n) T P x b) = fun a => (pure a : EM PS EPS TPS) := by
          funext a
          rw [e2]
          funext s
          exact hpS a g1 s
        show (eosStep env T P x >>= fun a => tStep env T P x a >>= fun b => pStep env (run env n) T P x b) s = _
        rw [e1, e3, bind_pure_fst]
        cases env.mods.cpt x T P <;> rfl
  refine ⟨main PS EPS, fun c hc => ?_⟩
  have := (main Unit Unit (exEnv [] []) 0 300 2e5 ESt.init { gasSub "G" 3 with mP := c } rfl
    (by show ¬ ("BENSON_HELGESON".toList.map asciiLower = _); decide +kernel) (by show "G" ≠ "H+"; decide) rfl
    (by show SClass.other ≠ _; decide) (List.mem_cons_of_mem _ hc)).1
    (by show GenEoS.unset ∈ _; decide) rfl
  exact ⟨_, this⟩

end ThermoFun.Engine
