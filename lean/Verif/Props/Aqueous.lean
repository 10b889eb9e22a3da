import Verif.Props.Minerals
import Verif.Props.HKFEntry

/-!
# Reactions of aqueous species, from the records to the equilibrium constant

C137: the engine of Model/Engine.lean with the models of Model/EngineReal.lean, for reactions between minerals, HKF solutes, the hydrogen ion and
water.  The model of water is a parameter.
-/

namespace ThermoFun.Engine

open Filter Topology

variable {base : Models PSolv ESolv} {env : Env PSolv ESolv} {N : Nat}

/-! ### What the engine asks of the solvent -/

/-- The solvent properties according to the method named in the record, for a liquid. -/
def psOf (env : Env PSolv ESolv) (w : Subst) (T P : ℝ) : Res PSolv :=
  match w.mT with
  | .WAT => env.mods.watPS w T P 0
  | .WAR => env.mods.warPS w T P 0
  | .WWP => env.mods.wwpPS w T P 0
  | .WZD => env.mods.wzdPS w T P 0
  | _ => .ok env.mods.ps0

/-- The dielectric properties according to the method named in the record, for a liquid with the properties `ps`. -/
def esOf (env : Env PSolv ESolv) (w : Subst) (T P : ℝ) (ps : PSolv) : Res ESolv :=
  match w.gen with
  | .WJNR => env.mods.wjnr w T P ps 0
  | .WJNG => env.mods.wjng w T P 0
  | .WSV14 => env.mods.wsv14 w T P 0
  | .WF97 => env.mods.wf97 w T P 0
  | _ => .ok env.mods.eps0

/-- The properties of water as a species according to the method named in the record, for a liquid. -/
noncomputable def waterOf (env : Env PSolv ESolv) (w : Subst) (T P : ℝ) : Res TPS :=
  if w.gen = .CON then .ok w.ref
  else match w.mT with
    | .WAT => env.mods.wat w T P 0 env.db.tripleRef
    | .WAR => env.mods.war w T P 0 env.db.tripleRef
    | .WWP => env.mods.wwp w T P 0 env.db.tripleRef
    | .WZD => env.mods.wzd w T P 0
    | _ => if w.gen = .CPT then env.mods.cpt w T P else .ok TPS.default

/-- `w` is the record of the default solvent: liquid water. -/
structure Solvent (env : Env PSolv ESolv) (w : Subst) : Prop where
  found : env.db.subs.lookup "H2O@" = some w
  cls : w.cls = .AQSOLVENT
  liquid : w.gas = false

lemma setPrefs_solvent {w : Subst} (hc : w.cls = .AQSOLVENT) (hg : w.gas = false) {s : ESt PSolv ESolv} (hs : s.solventState = 0) :
    setPrefs env w s = (.ok (), s) := by
  have : ¬ (w.cls = .AQSOLUTE ∧ (env.db.subs.lookup s.solventSymbol).isNone) := by simp [hc]
  obtain ⟨a, b, c, d, e, f, g⟩ := s
  simp only at hs
  subst hs
  simp only [setPrefs, EM.change, hg, Bool.false_eq_true, if_false]
  rw [if_neg this]

lemma setState_low {st : Int} (h : st = -1 ∨ st = 0) {s : ESt PSolv ESolv} (hs : s.solventState = 0) : setState st s = (.ok (), s) := by
  obtain ⟨a, b, c, d, e, f, g⟩ := s
  simp only at hs
  subst hs
  rcases h with rfl | rfl <;> rfl

lemma propsSolventRec_run {w : Subst} (hw : Solvent env w) {T P : ℝ} {ps : PSolv} (hp : psOf env w T P = .ok ps) {st : Int}
    (h : st = -1 ∨ st = 0) {s : ESt PSolv ESolv} (hs : s.solventState = 0) : propsSolventRec env T P w st s = (.ok ps, s) := by
  unfold propsSolventRec
  rw [bind_run (setPrefs_solvent hw.cls hw.liquid hs), bind_run (setState_low h hs),
    bind_run (show EM.read (·.solventState) s = (.ok 0, s) by rw [EM.read, hs]), if_pos (by simp [Subst.isSolvent, hw.cls])]
  unfold psOf at hp
  revert hp
  cases w.mT <;> intro hp <;> simp only at hp ⊢ <;> first | (injection hp with hp; rw [← hp]; rfl) | (rw [hp]; rfl)

lemma electroRec_run {w : Subst} (hw : Solvent env w) {T P : ℝ} {ps : PSolv} (hp : psOf env w T P = .ok ps) {es : ESolv}
    (he : esOf env w T P ps = .ok es) {s : ESt PSolv ESolv} (hs : s.solventState = 0) : electroRec env T P w (-1) s = (.ok es, s) := by
  have hr : EM.read (·.solventState) s = (.ok 0, s) := by rw [EM.read, hs]
  unfold electroRec
  rw [bind_run (setPrefs_solvent hw.cls hw.liquid hs), bind_run (setState_low (Or.inl rfl) hs), bind_run hr,
    bind_run (propsSolventRec_run hw hp (Or.inr rfl) hs), bind_run hr, if_pos (by simp [Subst.isSolvent, hw.cls])]
  unfold esOf at he
  revert he
  cases w.gen <;> intro he <;> simp only at he ⊢ <;> first | (injection he with he; rw [← he]; rfl) | (rw [he]; rfl)

lemma getSub_run {y : String} {x : Subst} (h : env.db.subs.lookup y = some x) (s : ESt PSolv ESolv) : getSub env y s = (.ok x, s) := by
  unfold getSub; rw [h]; rfl

lemma find_empty {K V : Type} [DecidableEq K] (n : Nat) (k : K) : Cache.evict n (⟨[], []⟩ : Cache K V) = ⟨[], []⟩ ∧
    Cache.find (⟨[], []⟩ : Cache K V) k = none := by
  refine ⟨?_, rfl⟩
  unfold Cache.evict
  split <;> rfl

/-- A new engine asked for the properties of the solvent. -/
lemma solventPS_run {w : Subst} (hw : Solvent env w) {T P : ℝ} {ps : PSolv} (hp : psOf env w T P = .ok ps) :
    ∃ c, solventPS env T P ESt.init = (.ok ps, { (ESt.init : ESt PSolv ESolv) with psC := c }) := by
  unfold solventPS
  rw [bind_run (show EM.read (·.solventSymbol) (ESt.init : ESt PSolv ESolv) = (.ok "H2O@", ESt.init) from rfl)]
  have hb : ∀ s : ESt PSolv ESolv, s.solventState = 0 →
      (getSub env "H2O@" >>= fun v => propsSolventRec env T P v (-1) : EM PSolv ESolv PSolv) s = (.ok ps, s) := fun s hs => by
    rw [bind_run (getSub_run hw.found s), propsSolventRec_run hw hp (Or.inl rfl) hs]
  unfold propsSolvent cached
  split
  · have e : Cache.evict env.maxCache (ESt.init : ESt PSolv ESolv).psC = ⟨[], []⟩ := (find_empty env.maxCache (⟨T, P, "H2O@", -1⟩ : SKey)).1
    simp only [e, (find_empty env.maxCache (⟨T, P, "H2O@", -1⟩ : SKey)).2, hb _ (show (ESt.init : ESt PSolv ESolv).solventState = 0 from rfl)]
    rw [hb _ rfl]
    exact ⟨_, rfl⟩
  · exact ⟨_, hb _ rfl⟩

/-- An engine that has only been asked for the properties of the solvent, asked for the dielectric properties. -/
lemma solventEPS_run {w : Subst} (hw : Solvent env w) {T P : ℝ} {ps : PSolv} (hp : psOf env w T P = .ok ps) {es : ESolv}
    (he : esOf env w T P ps = .ok es) (c : Cache SKey PSolv) :
    ∃ s, solventEPS env T P { (ESt.init : ESt PSolv ESolv) with psC := c } = (.ok es, s) := by
  unfold solventEPS
  rw [bind_run (show EM.read (·.solventSymbol) { (ESt.init : ESt PSolv ESolv) with psC := c } =
    (.ok "H2O@", { (ESt.init : ESt PSolv ESolv) with psC := c }) from rfl)]
  have hb : ∀ s : ESt PSolv ESolv, s.solventState = 0 →
      (getSub env "H2O@" >>= fun v => electroRec env T P v (-1) : EM PSolv ESolv ESolv) s = (.ok es, s) := fun s hs => by
    rw [bind_run (getSub_run hw.found s), electroRec_run hw hp he hs]
  unfold electro cached
  split
  · have e : Cache.evict env.maxCache ({ (ESt.init : ESt PSolv ESolv) with psC := c } : ESt PSolv ESolv).elC = ⟨[], []⟩ :=
      (find_empty env.maxCache (⟨T, P, "H2O@", -1⟩ : SKey)).1
    simp only [e, (find_empty env.maxCache (⟨T, P, "H2O@", -1⟩ : SKey)).2]
    rw [hb _ rfl]
    exact ⟨_, rfl⟩
  · exact ⟨_, hb _ rfl⟩

/-- A substance asked of a new engine. -/
lemma answer_of_substRec (h : Regular env (N + 1)) {y : String} {x : Subst} (hy : env.db.subs.lookup y = some x) {T P : ℝ} {t : TPS}
    (ht : (substRec env (run env N) T P x ESt.init).1 = .ok t) : answer env (N + 1) (.sub T P y) = .ok (.sub t) := by
  refine ((h.sub_coh T P y (s := ESt.init) (cohSt_init env)).2 _).1 ?_
  have hc : ((getSub env y >>= fun v => substRec env (run env N) T P v : EM PSolv ESolv TPS) ESt.init).1 = .ok t := by
    rw [bind_run (getSub_run hy _)]; exact ht
  show (cached env ESt.subC (fun c s => { s with subC := c }) _ _ _).1 = _
  unfold cached
  split
  · have e : Cache.evict env.maxCache (ESt.init : ESt PSolv ESolv).subC = ⟨[], []⟩ := (find_empty env.maxCache (⟨T, P, y⟩ : Key)).1
    have e2 : ({ (ESt.init : ESt PSolv ESolv) with subC := ⟨[], []⟩ } : ESt PSolv ESolv) = ESt.init := rfl
    simp only [e, (find_empty env.maxCache (⟨T, P, y⟩ : Key)).2, e2]
    split
    · rename_i v s' ev
      rw [ev] at hc
      exact hc
    · exact hc
  · exact hc

/-! ### HKF solutes -/

/-- A record of an aqueous species calculated by one of the two implementations of the HKF model, with complete parameters, and with
G = H - Tr (S - S of the elements) at the reference temperature 298.15 K. -/
structure Solute (env : Env PSolv ESolv) (x : Subst) (a1 a2 a3 a4 c1 c2 wr : ℝ) (rest : List ℝ) : Prop where
  notH : x.symbol ≠ "H+"
  own : x.reacdc = false
  solute : x.cls ≠ .AQSOLVENT
  dissolved : x.gas = false
  mT : x.mT = .unset
  mP : x.mP = .unset
  par : x.params.hkf = a1 :: a2 :: a3 :: a4 :: c1 :: c2 :: wr :: rest
  refT : x.refT = 298.15
  gibbs : x.ref.G.val = x.ref.H.val - 298.15 * (x.ref.S.val - env.db.elemEntropy x.formula)

/-- The model named in the record. -/
noncomputable def hkfOf (x : Subst) (T P : ℝ) (ps : PSolv) (es : ESolv) : Res TPS :=
  if x.gen = .HKFR then hkfReaktoroEntry T P x.hkfSub ps es else hkfGemsEntry T P x.hkfSub ps es

/-- The convention of the engine applied to a result. -/
noncomputable def conv (env : Env PSolv ESolv) (x : Subst) (t : TPS) : TPS := if bermanBrown env then toBermanBrown t x env.db.elemEntropy else t

/-- What the engine answers for an HKF solute: the model on the properties of the solvent, then the convention. -/
lemma answer_solute (hm : env.mods = real base) (h : Regular env N) (hfb : env.fallback = false) {w : Subst} (hw : Solvent env w) {y : String}
    {x : Subst} (hy : env.db.subs.lookup y = some x) {a1 a2 a3 a4 c1 c2 wr : ℝ} {rest : List ℝ} (hx : Solute env x a1 a2 a3 a4 c1 c2 wr rest)
    (hg : x.gen = .HKFR ∨ x.gen = .HKF) {T P : ℝ} {ps : PSolv} (hp : psOf env w T P = .ok ps) {es : ESolv} (he : esOf env w T P ps = .ok es)
    {t : TPS} (ht : hkfOf x T P ps es = .ok t) : answer env N (.sub T P y) = .ok (.sub (conv env x t)) := by
  have hN : 4 ≤ N := by obtain ⟨-, R, -, -, hN⟩ := h.ranked; omega
  obtain ⟨n, rfl⟩ : ∃ n, N = n + 1 := ⟨N - 1, by omega⟩
  refine answer_of_substRec h hy ?_
  have hown : x.isReacDC = false := by rcases hg with hg | hg <;> simp [Subst.isReacDC, Subst.noMethods, hx.own, hg]
  have hsolv : x.isSolvent = false := by simp [Subst.isSolvent, hx.solute]
  have hvap : x.isVapor = false := by simp [Subst.isVapor, hx.mP]
  obtain ⟨c, hc⟩ := solventPS_run hw hp
  obtain ⟨s2, hs2⟩ := solventEPS_run hw hp he c
  have e1 : eosStep env T P x ESt.init = (.ok t, s2) := by
    unfold eosStep
    rcases hg with hg | hg <;> rw [hg] <;> simp only
    · rw [bind_run hc, bind_run hs2]
      simp only [hkfOf, hg, if_true] at ht
      simp only [hm, real, EM.lift, ht]
    · rw [bind_run hc, bind_run hs2]
      rw [hkfOf, if_neg (by rw [hg]; decide)] at ht
      simp only [hm, real, EM.lift, ht]
  have hcon : ¬ x.gen = .CON := by rcases hg with hg | hg <;> rw [hg] <;> decide
  have e2 : tStep env T P x t s2 = (.ok t, s2) := by
    unfold tStep
    rw [if_neg hcon, hx.mT]
    rfl
  have e3 : pStep env (run env n) T P x t s2 = (.ok t, s2) := by
    unfold pStep
    rw [bind_run (show EM.read (·.pcorr) s2 = (.ok s2.pcorr, s2) from rfl), if_neg hcon, hx.mP]
    rfl
  have e4 : methodsStep env (run env n) T P x ESt.init = (.ok (conv env x t), s2) := by
    unfold methodsStep
    rw [if_pos ⟨hsolv, hvap⟩]
    have : (do
        let a ← eosStep env T P x
        let b ← tStep env T P x a
        pStep env (run env n) T P x b : EM PSolv ESolv TPS) ESt.init = (.ok t, s2) := by
      rw [bind_run e1, bind_run e2, e3]
    rw [bind_run this]
    unfold convStep conv bermanBrown
    rw [hsolv]
    simp only [Bool.false_eq_true, if_false]
    split <;> rfl
  unfold substRec
  have e5 : setPrefs env x (ESt.init : ESt PSolv ESolv) = (.ok (), ESt.init) := by
    have : ¬ (x.cls = .AQSOLUTE ∧ (env.db.subs.lookup (ESt.init : ESt PSolv ESolv).solventSymbol).isNone) := by
      rw [show (ESt.init : ESt PSolv ESolv).solventSymbol = "H2O@" from rfl, hw.found]; simp
    simp only [setPrefs, EM.change, hx.dissolved, Bool.false_eq_true, if_false]
    rw [if_neg this]
    rfl
  rw [bind_run e5, if_neg hx.notH, hown]
  have e6 : (if (false : Bool) then reacDC env (run env n) T P x else methodsStep env (run env n) T P x) = methodsStep env (run env n) T P x := rfl
  rw [e6, bind_run e4, hfb]
  rfl

/-- The hydrogen ion. -/
lemma answer_hydrogen (h : Regular env N) {y : String} {x : Subst} (hy : env.db.subs.lookup y = some x) (hx : x.symbol = "H+") (T P : ℝ) :
    answer env N (.sub T P y) = .ok (.sub zeroTPS) := by
  have hN : 4 ≤ N := by obtain ⟨-, R, -, -, hN⟩ := h.ranked; omega
  obtain ⟨n, rfl⟩ : ∃ n, N = n + 1 := ⟨N - 1, by omega⟩
  refine answer_of_substRec h hy ?_
  unfold substRec
  rw [bind_run (show setPrefs env x (ESt.init : ESt PSolv ESolv) = (.ok (), (setPrefs env x ESt.init).2) from rfl), if_pos hx]
  rfl

/-- Water as a species. -/
lemma answer_water (h : Regular env N) (hfb : env.fallback = false) (hst : iequals env.waterProperties.toList "STEAM_TABLES".toList = false)
    {w : Subst} (hw : Solvent env w) (hn : w.symbol ≠ "H+") (ho : w.isReacDC = false) {T P : ℝ} {t : TPS} (ht : waterOf env w T P = .ok t) :
    answer env N (.sub T P "H2O@") = .ok (.sub t) := by
  have hN : 4 ≤ N := by obtain ⟨-, R, -, -, hN⟩ := h.ranked; omega
  obtain ⟨n, rfl⟩ : ∃ n, N = n + 1 := ⟨N - 1, by omega⟩
  refine answer_of_substRec h hw.found ?_
  have hsolv : w.isSolvent = true := by simp [Subst.isSolvent, hw.cls]
  have e1 : waterStep env T P w ESt.init = (.ok t, ESt.init) := by
    unfold waterStep
    rw [bind_run (show EM.read (·.solventState) (ESt.init : ESt PSolv ESolv) = (.ok 0, ESt.init) from rfl)]
    unfold waterOf at ht
    split at ht
    · rename_i hc
      rw [if_pos hc]
      injection ht with ht
      rw [← ht]; rfl
    · rename_i hc
      rw [if_neg hc]
      revert ht
      cases w.mT <;> intro ht <;> simp only at ht ⊢ <;> first | (rw [ht]; rfl) | skip
      all_goals
        split at ht
        · rename_i h; rw [if_pos h, ht]; rfl
        · rename_i h; rw [if_neg h]; injection ht with ht; rw [← ht]; rfl
  have e4 : methodsStep env (run env n) T P w ESt.init = (.ok t, ESt.init) := by
    unfold methodsStep
    rw [if_neg (by simp [hsolv]), bind_run e1]
    unfold convStep
    rw [hsolv, hst]
    rfl
  unfold substRec
  rw [bind_run (setPrefs_solvent hw.cls hw.liquid rfl), if_neg hn, ho]
  have e6 : (if (false : Bool) then reacDC env (run env n) T P w else methodsStep env (run env n) T P w) = methodsStep env (run env n) T P w := rfl
  rw [e6, bind_run e4, hfb]
  rfl

/-! ### The properties of one species belong together -/

/-- The answers of the engine for `y` near (T0, P0) are `f`; in them dG/dT = -S, dH/dT = Cp, G = H - T S up to a constant `c` of the species, and
dG/dP = κ V (V in J/bar, P in Pa). -/
structure Belongs (env : Env PSolv ESolv) (N : Nat) (T0 P0 : ℝ) (y : String) (c κ : ℝ) (f : ℝ → ℝ → TPS) : Prop where
  nearT : ∀ᶠ T in 𝓝 T0, answer env N (.sub T P0 y) = .ok (.sub (f T P0))
  nearP : ∀ᶠ P in 𝓝 P0, answer env N (.sub T0 P y) = .ok (.sub (f T0 P))
  dG : HasDerivAt (fun T => (f T P0).G.val) (-(f T0 P0).S.val) T0
  dH : HasDerivAt (fun T => (f T P0).H.val) (f T0 P0).Cp.val T0
  gibbs : (f T0 P0).G.val = (f T0 P0).H.val - T0 * (f T0 P0).S.val + c
  dP : HasDerivAt (fun P => (f T0 P).G.val) (κ * (f T0 P0).V.val / 1e5) P0

/-- In both implementations of HKF the electrostatic terms cancel in G - H + T S. -/
lemma hkf_gibbs {q : HKFPar} {r : TPS} {t P : ℝ} {a : ESub} {e : ESolv} (h : HKFVals q r t P a e) (ht : 228 < t) :
    r.G.val = r.H.val - t * r.S.val + 4.184 * (q.Gf - q.Hf + 298.15 * q.Sr) := by
  have h1 : t - 228 ≠ 0 := by linarith
  rw [h.G, h.H, h.S]
  simp only [HKFPar.G, HKFPar.H, HKFPar.S]
  generalize HKFPar.lp (P / 1e5) = l
  generalize HKFPar.lt t = m
  generalize Real.log (t / 298.15) = k
  field_simp
  ring

lemma hkfOf_gibbs {x : Subst} {a1 a2 a3 a4 c1 c2 wr : ℝ} {rest : List ℝ} (hx : Solute env x a1 a2 a3 a4 c1 c2 wr rest) {t P : ℝ} {ps : PSolv}
    {es : ESolv} {r : TPS} (hr : hkfOf x t P ps es = .ok r) (ht : 228 < t) :
    r.G.val = r.H.val - t * r.S.val + 298.15 * env.db.elemEntropy x.formula := by
  have key : ∃ zr yr a, HKFVals (HKFPar.of x.ref a1 a2 a3 a4 c1 c2 wr zr yr) r t P a es := by
    unfold hkfOf at hr
    split at hr
    · simp only [hkfReaktoroEntry, Subst.hkfSub, hx.par] at hr
      revert hr
      generalize bornReaktoro _ _ _ _ = b
      intro hr
      cases b with
      | ok a =>
        obtain ⟨r', h1, h2⟩ := hkfReaktoro_vals t P x.ref a es a1 a2 a3 a4 c1 c2 wr rest
        have : Res.ok r = .ok r' := hr.symm.trans h1
        injection this with this
        exact ⟨_, _, a, this ▸ h2⟩
      | throw => cases hr
      | ub => cases hr
    · simp only [hkfGemsEntry, Subst.hkfSub, hx.par] at hr
      revert hr
      generalize omeg92 _ _ _ = b
      intro hr
      cases b with
      | ok a =>
        obtain ⟨r', h1, h2⟩ := hkfGems_vals t P x.ref a es a1 a2 a3 a4 c1 c2 wr rest
        have : Res.ok r = .ok r' := hr.symm.trans h1
        injection this with this
        exact ⟨_, _, a, this ▸ h2⟩
      | throw => cases hr
      | ub => cases hr
  obtain ⟨zr, yr, a, hv⟩ := key
  rw [hkf_gibbs hv ht]
  simp only [HKFPar.of]
  have e : (4.184 : ℝ) * (x.ref.G.val / 4.184 - x.ref.H.val / 4.184 + 298.15 * (x.ref.S.val / 4.184)) =
      x.ref.G.val - x.ref.H.val + 298.15 * x.ref.S.val := by ring
  rw [e]
  have := hx.gibbs
  linarith

/-- The constant of a species other than water: Tr times the entropy of the elements, and 0 in the convention of Berman and Brown. -/
noncomputable def offset (env : Env PSolv ESolv) (x : Subst) : ℝ := if bermanBrown env then 0 else 298.15 * env.db.elemEntropy x.formula

/-- The ratio of dG/dP and V in the HKF models (C37). -/
noncomputable def hkfRatio : ℝ := 4.184 / 4.184004

lemma conv_belongs (hx : x.refT = 298.15) {f : ℝ → ℝ → TPS} {T0 P0 : ℝ} {κ : ℝ} {y : String}
    (hT : ∀ᶠ T in 𝓝 T0, answer env N (.sub T P0 y) = .ok (.sub (conv env x (f T P0))))
    (hP : ∀ᶠ P in 𝓝 P0, answer env N (.sub T0 P y) = .ok (.sub (conv env x (f T0 P))))
    (h : HKFConsistent κ f T0 P0) (hg : (f T0 P0).G.val = (f T0 P0).H.val - T0 * (f T0 P0).S.val + 298.15 * env.db.elemEntropy x.formula) :
    Belongs env N T0 P0 y (offset env x) κ fun T P => conv env x (f T P) := by
  have eG : ∀ t : TPS, (conv env x t).G.val = t.G.val - (if bermanBrown env then 298.15 * env.db.elemEntropy x.formula else 0) := by
    intro t
    simp only [conv]
    split
    · simp [toBermanBrown, TS.subAssignD, hx]
    · simp
  have eH : ∀ t : TPS, (conv env x t).H = t.H := by intro t; simp only [conv]; split <;> rfl
  have eS : ∀ t : TPS, (conv env x t).S = t.S := by intro t; simp only [conv]; split <;> rfl
  have eV : ∀ t : TPS, (conv env x t).V = t.V := by intro t; simp only [conv]; split <;> rfl
  have eC : ∀ t : TPS, (conv env x t).Cp = t.Cp := by intro t; simp only [conv]; split <;> rfl
  refine ⟨hT, hP, ?_, ?_, ?_, ?_⟩
  · simp only [eG, eS]
    exact h.dGdT.sub_const _
  · simp only [eH, eC]
    exact h.dHdT
  · rw [eG, eH, eS, hg, offset]
    split <;> ring
  · simp only [eG, eV]
    exact h.dGdP.sub_const _

/-- A solvent that is smooth at (T0, P0): near it the engine gets the properties `ps` and `es`, whose derivatives are those reported. -/
structure SmoothSolvent (env : Env PSolv ESolv) (w : Subst) (T0 P0 : ℝ) (ps : ℝ → ℝ → PSolv) (es : ℝ → ℝ → ESolv) : Prop where
  solvent : Solvent env w
  nearT : ∀ᶠ T in 𝓝 T0, psOf env w T P0 = .ok (ps T P0) ∧ esOf env w T P0 (ps T P0) = .ok (es T P0)
  nearP : ∀ᶠ P in 𝓝 P0, psOf env w T0 P = .ok (ps T0 P) ∧ esOf env w T0 P (ps T0 P) = .ok (es T0 P)
  density : DensitySmooth ps T0 P0
  expansion : SolvSmooth (fun t p => (ps t p).toSolv) T0 P0
  diel : DielSmooth es T0 P0
  pos : 0 < (ps T0 P0).density.val

/-- Where the HKF model of `x` is smooth: the g function and the radius of the ion do not make a denominator vanish, and the density is off 1000 kg/m³
(for the gems implementation below it). -/
def SmoothAt (x : Subst) (wr T P : ℝ) (ps : PSolv) : Prop :=
  if x.gen = .HKFR then
    ps.density.val ≠ 1000 ∧ ps.densityT.val ≠ 0 ∧ ps.densityP.val ≠ 0 ∧
      (x.charge ≠ 0 → refRadius x.charge wr + |(x.charge : ℝ)| * (functionG (TS.temperature T) (pbar P) ps).g.val ≠ 0) ∧
      3.082 + (functionG (TS.temperature T) (pbar P) ps).g.val ≠ 0
  else
    ps.density.val < 1000 ∧ (x.charge ≠ 0 → refRadius x.charge wr + |(x.charge : ℝ)| * (gShok2 (tC T) (pbar P) ps.toSolv).g.val ≠ 0) ∧
      3.082 + (gShok2 (tC T) (pbar P) ps.toSolv).g.val ≠ 0

/-- An HKF solute in a smooth solvent. -/
lemma solute_belongs (hm : env.mods = real base) (h : Regular env N) (hfb : env.fallback = false) {w : Subst} {T0 P0 : ℝ} {ps : ℝ → ℝ → PSolv}
    {es : ℝ → ℝ → ESolv} (hw : SmoothSolvent env w T0 P0 ps es) (hT : 228 < T0) (hP : 0 ≤ P0) {y : String} {x : Subst}
    (hy : env.db.subs.lookup y = some x) {a1 a2 a3 a4 c1 c2 wr : ℝ} {rest : List ℝ} (hx : Solute env x a1 a2 a3 a4 c1 c2 wr rest)
    (hg : x.gen = .HKFR ∨ x.gen = .HKF) (hs : SmoothAt x wr T0 P0 (ps T0 P0)) :
    ∃ f, Belongs env N T0 P0 y (offset env x) hkfRatio f := by
  obtain ⟨f, hf, hc⟩ : ∃ f : ℝ → ℝ → TPS, (∀ t p, hkfOf x t p (ps t p) (es t p) = .ok (f t p)) ∧ HKFConsistent (4.184 / 4.184004) f T0 P0 := by
    unfold SmoothAt at hs
    unfold hkfOf
    split at hs
    · rename_i hr
      simp only [hr, if_true]
      have := C37_reaktoro_entry_partial x.charge (x.symbol = "H+") a1 a2 a3 a4 c1 c2 wr rest x.ref ps es T0 P0 hT hP hw.density hw.diel hw.pos
        hs.1 hs.2.1 hs.2.2.1 hs.2.2.2.1 hs.2.2.2.2
      simp only [Subst.hkfSub, hx.par]
      exact this
    · rename_i hr
      simp only [hr, if_false]
      have := C37_gems_entry_partial x.charge (x.symbol = "H+") a1 a2 a3 a4 c1 c2 wr rest x.ref ps es T0 P0 hT hP hw.expansion hw.diel
        hs.1 hs.2.1 hs.2.2
      simp only [Subst.hkfSub, hx.par]
      exact this
  refine ⟨_, conv_belongs hx.refT (f := f) ?_ ?_ hc (hkfOf_gibbs hx (hf T0 P0) hT)⟩
  · filter_upwards [hw.nearT] with T hn
    exact answer_solute hm h hfb hw.solvent hy hx hg hn.1 hn.2 (hf T P0)
  · filter_upwards [hw.nearP] with P hn
    exact answer_solute hm h hfb hw.solvent hy hx hg hn.1 hn.2 (hf T0 P)

lemma mineral_belongs (hm : env.mods = real base) (h : Regular env N) (hfb : env.fallback = false) {T0 P0 : ℝ} (hT : 0 < T0) {y : String} {x : Subst}
    (hy : env.db.subs.lookup y = some x) (hx : Mineral x) (hs : Sound env 298.15 T0 x) : Belongs env N T0 P0 y (offset env x) 1 (mineralTPS env x) := by
  obtain ⟨f1, f2, f3, f4⟩ := mineral_facts hT (by norm_num) hx hs P0
  exact ⟨(mineral_ev hs).mono fun T hn => answer_mineral hm h hfb hy hx hn,
    Eventually.of_forall fun P => answer_mineral hm h hfb hy hx (mineral_ev hs).self_of_nhds, f1, f2, f3, f4.congr_deriv (by ring)⟩

lemma hydrogen_belongs (h : Regular env N) {T0 P0 : ℝ} {y : String} {x : Subst} (hy : env.db.subs.lookup y = some x) (hx : x.symbol = "H+") (κ : ℝ) :
    Belongs env N T0 P0 y 0 κ fun _ _ => zeroTPS := by
  have e : ∀ a : TPS → TS, a zeroTPS = zeroTS → (a zeroTPS).val = 0 := fun a h => by rw [h]; rfl
  refine ⟨Eventually.of_forall fun T => answer_hydrogen h hy hx T P0, Eventually.of_forall fun P => answer_hydrogen h hy hx T0 P, ?_, ?_, ?_, ?_⟩
  · exact (hasDerivAt_const _ _).congr_deriv (by rw [e _ rfl, neg_zero])
  · exact (hasDerivAt_const _ _).congr_deriv (by rw [e _ rfl])
  · rw [e _ rfl, e _ rfl, e _ rfl]; ring
  · exact (hasDerivAt_const _ _).congr_deriv (by rw [e _ rfl]; ring)

/-- Water as a species, if the model of water belongs together with the constant `c`. -/
structure CoherentWater (env : Env PSolv ESolv) (w : Subst) (T0 P0 c : ℝ) (f : ℝ → ℝ → TPS) : Prop where
  solvent : Solvent env w
  notH : w.symbol ≠ "H+"
  own : w.isReacDC = false
  geochemical : iequals env.waterProperties.toList "STEAM_TABLES".toList = false
  nearT : ∀ᶠ T in 𝓝 T0, waterOf env w T P0 = .ok (f T P0)
  nearP : ∀ᶠ P in 𝓝 P0, waterOf env w T0 P = .ok (f T0 P)
  dG : HasDerivAt (fun T => (f T P0).G.val) (-(f T0 P0).S.val) T0
  dH : HasDerivAt (fun T => (f T P0).H.val) (f T0 P0).Cp.val T0
  gibbs : (f T0 P0).G.val = (f T0 P0).H.val - T0 * (f T0 P0).S.val + c
  dP : HasDerivAt (fun P => (f T0 P).G.val) ((f T0 P0).V.val / 1e5) P0

lemma water_belongs (h : Regular env N) (hfb : env.fallback = false) {w : Subst} {T0 P0 c : ℝ} {f : ℝ → ℝ → TPS} (hw : CoherentWater env w T0 P0 c f) :
    Belongs env N T0 P0 "H2O@" c 1 f :=
  ⟨hw.nearT.mono fun _ hn => answer_water h hfb hw.geochemical hw.solvent hw.notH hw.own hn,
    hw.nearP.mono fun _ hn => answer_water h hfb hw.geochemical hw.solvent hw.notH hw.own hn, hw.dG, hw.dH, hw.gibbs, hw.dP.congr_deriv (by ring)⟩

/-! ### Reactions -/

/-- The species of a reaction, with the constant `c` and the ratio κ of dG/dP and V. -/
inductive Species (env : Env PSolv ESolv) (T0 P0 : ℝ) : String → ℝ → ℝ → Prop
  /-- a mineral whose data hang together -/
  | mineral {y : String} {x : Subst} (hy : env.db.subs.lookup y = some x) (hx : Mineral x) (hs : Sound env 298.15 T0 x) :
      Species env T0 P0 y (offset env x) 1
  /-- the hydrogen ion -/
  | hydrogen {y : String} {x : Subst} (hy : env.db.subs.lookup y = some x) (hx : x.symbol = "H+") (hm : x.noMethods = false) : Species env T0 P0 y 0 1
  /-- an HKF solute in a smooth solvent -/
  | solute {w : Subst} {ps : ℝ → ℝ → PSolv} {es : ℝ → ℝ → ESolv} (hw : SmoothSolvent env w T0 P0 ps es) {y : String} {x : Subst}
      (hy : env.db.subs.lookup y = some x) {a1 a2 a3 a4 c1 c2 wr : ℝ} {rest : List ℝ} (hx : Solute env x a1 a2 a3 a4 c1 c2 wr rest)
      (hg : x.gen = .HKFR ∨ x.gen = .HKF) (hs : SmoothAt x wr T0 P0 (ps T0 P0)) : Species env T0 P0 y (offset env x) hkfRatio
  /-- water, with a model that belongs together -/
  | water {w : Subst} {c : ℝ} {f : ℝ → ℝ → TPS} (hw : CoherentWater env w T0 P0 c f) : Species env T0 P0 "H2O@" c 1

lemma Species.found {T0 P0 c κ : ℝ} {y : String} (h : Species env T0 P0 y c κ) : ∃ v, env.db.subs.lookup y = some v ∧ v.noMethods = false := by
  cases h with
  | mineral hy hx hs => exact ⟨_, hy, by simp [Subst.noMethods, hx.gen]⟩
  | hydrogen hy hx hm => exact ⟨_, hy, hm⟩
  | solute hw hy hx hg hs => exact ⟨_, hy, by rcases hg with hg | hg <;> simp [Subst.noMethods, hg]⟩
  | water hw =>
    refine ⟨_, hw.solvent.found, ?_⟩
    have := hw.own
    simp only [Subst.isReacDC, decide_eq_false_iff_not, not_or] at this
    simpa using this.2.1

lemma Species.belongs (hm : env.mods = real base) (h : Regular env N) (hfb : env.fallback = false) {T0 P0 : ℝ} (hT : 228 < T0) (hP : 0 ≤ P0) {y : String}
    {c κ : ℝ} (hy : Species env T0 P0 y c κ) : ∃ f, Belongs env N T0 P0 y c κ f := by
  cases hy with
  | mineral hy hx hs => exact ⟨_, mineral_belongs hm h hfb (by linarith) hy hx hs⟩
  | hydrogen hy hx _ => exact ⟨_, hydrogen_belongs h hy hx 1⟩
  | solute hw hy hx hg hs => exact solute_belongs hm h hfb hw hT hP hy hx hg hs
  | water hw => exact ⟨_, water_belongs h hfb hw⟩

lemma eventually_forall_list {α : Type} {l : List α} {F : Filter ℝ} {p : α → ℝ → Prop} (h : ∀ e ∈ l, ∀ᶠ T in F, p e T) : ∀ᶠ T in F, ∀ e ∈ l, p e T := by
  induction l with
  | nil => exact Eventually.of_forall fun T e he => by cases he
  | cons e l ih =>
    filter_upwards [h e List.mem_cons_self, ih fun e he => h e (List.mem_cons_of_mem _ he)] with T h1 h2 e' he'
    rcases List.mem_cons.mp he' with rfl | he'
    · exact h1
    · exact h2 _ he'

/-- **C137, the part that holds.**  For a reaction between minerals, HKF solutes of both implementations, the hydrogen ion and water, whose constants
balance: the engine answers near (T0, P0), after any histories, and in the answers dG/dT = -S, dH/dT = Cp, G = H - T S and d ln K/dT = H/(R T²);
dG/dP is the sum of the volumes of the species, those of the solutes taken κ = 4.184/4.184004 times.  Missing: dG/dP = V for reactions with solutes,
see `C137_refuted`. -/
theorem C137_aqueous_partial (hm : env.mods = real base) (h : Regular env N) (hfb : env.fallback = false) {x : Reac} {T0 P0 : ℝ} (hT : 228 < T0)
    (hP : 0 ≤ P0) {c κ : String → ℝ} (hx : ∀ e ∈ x.reactants, Species env T0 P0 e.1 (c e.1) (κ e.1))
    (hb : (x.reactants.map fun e => e.2 * c e.1).sum = 0) {q : ℝ → ℝ → Query} (hq : ∀ T P, FromSpecies env T P x (q T P)) {K : Nat}
    {qs : ℝ → ℝ → List Query} (hqs : ∀ T P, ∀ q ∈ qs T P, NoGasQuery q) :
    ∃ (t : ℝ → ℝ → TPR) (v : String → ℝ),
      (∀ᶠ T in 𝓝 T0, (ask env N (q T P0) (after env K ESt.init (qs T P0))).1 = .ok (.reac (t T P0))) ∧
      (∀ᶠ P in 𝓝 P0, (ask env N (q T0 P) (after env K ESt.init (qs T0 P))).1 = .ok (.reac (t T0 P))) ∧
      (∀ e ∈ x.reactants, ∃ s, answer env N (.sub T0 P0 e.1) = .ok (.sub s) ∧ s.V.val = v e.1) ∧
      HasDerivAt (fun T => (t T P0).G.val) (-(t T0 P0).S.val) T0 ∧ HasDerivAt (fun T => (t T P0).H.val) (t T0 P0).Cp.val T0 ∧
      (t T0 P0).G.val = (t T0 P0).H.val - T0 * (t T0 P0).S.val ∧
      HasDerivAt (fun T => (t T P0).lnK.val) ((t T0 P0).H.val / (8.31451 * T0 ^ 2)) T0 ∧
      HasDerivAt (fun P => (t T0 P).G.val) ((x.reactants.map fun e => e.2 * (κ e.1 * v e.1)).sum / 1e5) P0 ∧
      HasDerivAt (fun P => (t T0 P).lnK.val) (-((x.reactants.map fun e => e.2 * (κ e.1 * v e.1)).sum / 1e5) / (8.31451 * T0)) P0 ∧
      (t T0 P0).V.val = (x.reactants.map fun e => e.2 * v e.1).sum := by
  classical
  have hT0 : 0 < T0 := by linarith
  let f : String → ℝ → ℝ → TPS := fun y => if hy : ∃ f, Belongs env N T0 P0 y (c y) (κ y) f then hy.choose else fun _ _ => TPS.default
  have hf : ∀ e ∈ x.reactants, Belongs env N T0 P0 e.1 (c e.1) (κ e.1) (f e.1) := by
    intro e he
    have := (hx e he).belongs hm h hfb hT hP
    simp only [f, dif_pos this]
    exact this.choose_spec
  have nT := eventually_forall_list (p := fun e T => answer env N (.sub T P0 e.1) = .ok (.sub (f e.1 T P0))) fun e he => (hf e he).nearT
  have nP := eventually_forall_list (p := fun e P => answer env N (.sub T0 P e.1) = .ok (.sub (f e.1 T0 P))) fun e he => (hf e he).nearP
  have ex : ∀ T P, (∀ e ∈ x.reactants, answer env N (.sub T P e.1) = .ok (.sub (f e.1 T P))) →
      ∃ t, (ask env N (q T P) (after env K ESt.init (qs T P))).1 = .ok (.reac t) := fun T P ha =>
    C109_answers h (hq T P) (hqs T P) (f := fun y => f y T P) fun e he => by
      obtain ⟨v, h1, h2⟩ := (hx e he).found
      exact ⟨⟨v, h1, by simp [h2]⟩, ha e he⟩
  let t : ℝ → ℝ → TPR := fun T P => if h : ∃ t, (ask env N (q T P) (after env K ESt.init (qs T P))).1 = .ok (.reac t) then h.choose else TPR.default
  have ht : ∀ T P, (∀ e ∈ x.reactants, answer env N (.sub T P e.1) = .ok (.sub (f e.1 T P))) →
      (ask env N (q T P) (after env K ESt.init (qs T P))).1 = .ok (.reac (t T P)) := fun T P ha => by
    simp only [t, dif_pos (ex T P ha)]
    exact (ex T P ha).choose_spec
  have htT := nT.mono fun T ha => ht T P0 ha
  have htP := nP.mono fun P ha => ht T0 P ha
  obtain ⟨r1, r2, r3, r4⟩ := C109_vantHoff h hT0 (fun T => hq T P0) (fun T => hqs T P0) htT (f := fun y T => f y T P0)
    (fun e he => (hf e he).nearT) (fun e he => (hf e he).dG) (fun e he => (hf e he).dH) (c := c) (fun e he => (hf e he).gibbs) hb
  have sums : ∀ᶠ P in 𝓝 P0, (∀ p ∈ summed, (p.1 (t T0 P)).val = (x.reactants.map fun e => e.2 * (p.2 (f e.1 T0 P)).val).sum) ∧
      (t T0 P).lnK.val = -(t T0 P).G.val / (8.31451 * T0) := by
    filter_upwards [htP, nP] with P h1 h2
    exact C109_sum h (hq T0 P) (hqs T0 P) h1 (f := fun y => f y T0 P) h2
  have dG : HasDerivAt (fun P => (t T0 P).G.val) ((x.reactants.map fun e => e.2 * (κ e.1 * (f e.1 T0 P0).V.val)).sum / 1e5) P0 := by
    have e : (fun P => (t T0 P).G.val) =ᶠ[𝓝 P0] fun P => (x.reactants.map fun e => e.2 * (f e.1 T0 P).G.val).sum :=
      sums.mono fun P hs => hs.1 (TPR.G, TPS.G) (by simp [summed])
    refine ((hasDerivAt_list_sum (f := fun y P => (f y T0 P).G.val) (f' := fun y => κ y * (f y T0 P0).V.val / 1e5)
      fun e he => (hf e he).dP).congr_of_eventuallyEq e).congr_deriv ?_
    rw [div_eq_mul_inv, ← List.sum_map_mul_right]
    exact congrArg List.sum (List.map_congr_left fun e _ => by ring)
  refine ⟨t, fun y => (f y T0 P0).V.val, htT, htP, fun e he => ⟨_, (hf e he).nearT.self_of_nhds, rfl⟩, r1, r2, r3, r4, dG, ?_,
    sums.self_of_nhds.1 (TPR.V, TPS.V) (by simp [summed])⟩
  have e : (fun P => (t T0 P).lnK.val) =ᶠ[𝓝 P0] fun P => -(t T0 P).G.val / (8.31451 * T0) := sums.mono fun P hs => hs.2
  exact ((dG.neg.div_const (8.31451 * T0)).congr_of_eventuallyEq e)

/-! ### An example -/

/-- The dielectric properties of Props/HKFEntry.lean. -/
noncomputable def sampleDiel : ℝ → ℝ → ESolv := fun t p => ⟨.ofVal (-1 / 80 - t * p), .ofVal (-p), .ofVal (-t), .ofVal 0⟩

lemma sampleDiel_smooth (T P : ℝ) : DielSmooth sampleDiel T P := by
  constructor <;> simp only [sampleDiel, TS.val_ofVal]
  · exact (((hasDerivAt_id' T).mul_const P).const_sub _).congr_deriv (by ring)
  · exact hasDerivAt_const _ _
  · exact (((hasDerivAt_id' P).const_mul T).const_sub _).congr_deriv (by ring)

/-- A model of water that belongs together: Cp = S = T/4, V = 1.8 J/bar, G = H - T S + 68574.5. -/
noncomputable def sampleWater : ℝ → ℝ → TPS := fun T P =>
  { TPS.default with G := .ofVal (-(T ^ 2) / 8 + 1.8 * P / 1e5 + 298.15 * 230), H := .ofVal (T ^ 2 / 8 + 1.8 * P / 1e5), S := .ofVal (T / 4), Cp := .ofVal (T / 4), V := .ofVal 1.8 }

/-- The models of the example. -/
noncomputable def exAqMods : Models PSolv ESolv :=
  { noWater with wwpPS := fun _ T P _ => .ok (sampleRho T P), wwp := fun _ T P _ _ => .ok (sampleWater T P), wjnr := fun _ T P _ _ => .ok (sampleDiel T P) }

/-- A solute with the given charge, parameters and reference properties. -/
noncomputable def exSolute (sym : String) (z : ℤ) (hkf : List ℝ) (Sel H S : ℝ) : Subst :=
  ⟨sym, sym, "", 298.15, 1e5, .HKFR, .unset, .unset, .AQSOLUTE, false, false,
    { TPS.default with G := asg (H - 298.15 * (S - Sel)), H := asg H, S := asg S }, z, { hkf := hkf }⟩

/-- The record of the solvent. -/
noncomputable def exAqWater : Subst :=
  ⟨"H2O@", "H2O@", "", 298.15, 1e5, .WJNR, .WWP, .unset, .AQSOLVENT, false, false, TPS.default, 0, {}⟩

/-- A mineral, an ion of charge 2, the hydrogen ion, water and two neutral solutes; the reactions A + 2 H+ = B+2 + H2O@ and N = M. -/
noncomputable def exAq (conv : String) : Env PSolv ESolv :=
  ⟨⟨[("H2O@", exAqWater), ("A", exMineral "A" 300 (-1000) 40 2), ("B+2", exSolute "B+2" 2 [1, 2, 3, 4, 5, 6, 1e5] 70 (-2000) (-50)),
      ("H+", exSolute "H+" 1 [] 0 0 0), ("N", exSolute "N" 0 [1, 0, 0, 0, 0, 0, 0] 70 (-10) 5), ("M", exSolute "M" 0 [0, 0, 0, 0, 0, 0, 0] 70 (-20) 7)],
      [("r", fromR "r" [("A", -1), ("H+", -2), ("B+2", 1), ("H2O@", 1)]), ("s", fromR "s" [("N", -1), ("M", 1)])],
      fun f => if f = "A" then 300 else if f = "H2O@" then 230 else 70, "NEA_HGK"⟩, real exAqMods, "GEOCHEMICAL", conv, false, true, 1000000⟩

lemma exAq_regular (conv : String) : Regular (exAq conv) 4 := by
  refine regular_of_own rfl (fun y v h => ?_) le_rfl
  have := mem_of_lookup h
  simp only [exAq, List.mem_cons, Prod.mk.injEq, List.not_mem_nil, or_false] at this
  rcases this with ⟨-, rfl⟩ | ⟨-, rfl⟩ | ⟨-, rfl⟩ | ⟨-, rfl⟩ | ⟨-, rfl⟩ | ⟨-, rfl⟩ <;>
    simp [NoGasModel, exAqWater, exSolute, exMineral, Subst.isReacDC, Subst.noMethods]

lemma exAq_solvent (conv : String) : Solvent (exAq conv) exAqWater := ⟨rfl, rfl, rfl⟩

lemma exAq_smooth (conv : String) : SmoothSolvent (exAq conv) exAqWater 280 1e6 sampleRho sampleDiel where
  solvent := exAq_solvent conv
  nearT := Eventually.of_forall fun _ => ⟨rfl, rfl⟩
  nearP := Eventually.of_forall fun _ => ⟨rfl, rfl⟩
  density := sampleRho_smooth _ _
  expansion := sampleSolv_smooth (by norm_num)
  diel := sampleDiel_smooth _ _
  pos := by simp only [sampleRho, TS.val_ofVal]; norm_num

lemma exSolute_ok (conv sym : String) (hs : sym ≠ "H+") (z : ℤ) (Sel H S a1 a2 a3 a4 c1 c2 wr : ℝ) (hSel : (exAq conv).db.elemEntropy sym = Sel) :
    Solute (exAq conv) (exSolute sym z [a1, a2, a3, a4, c1, c2, wr] Sel H S) a1 a2 a3 a4 c1 c2 wr [] :=
  ⟨hs, rfl, by simp [exSolute], rfl, rfl, rfl, rfl, rfl, by simp only [exSolute, asg, hSel]⟩

lemma exSolute_smooth (sym : String) (z : ℤ) (Sel H S a1 a2 a3 a4 c1 c2 wr : ℝ) (hr : z ≠ 0 → refRadius z wr ≠ 0) :
    SmoothAt (exSolute sym z [a1, a2, a3, a4, c1, c2, wr] Sel H S) wr 280 1e6 (sampleRho 280 1e6) := by
  have hg : (functionG (TS.temperature 280) (pbar 1e6) (sampleRho 280 1e6)).g.val = 0 := by
    unfold functionG
    simp only
    rw [if_pos (by simp only [sampleRho, TS.val_ofVal]; norm_num)]
    rfl
  unfold SmoothAt
  rw [if_pos (show (exSolute sym z [a1, a2, a3, a4, c1, c2, wr] Sel H S).gen = .HKFR from rfl), hg]
  refine ⟨?_, ?_, ?_, ?_, by norm_num⟩
  · simp only [sampleRho, TS.val_ofVal]; norm_num
  · simp only [sampleRho, TS.val_ofVal]; norm_num
  · simp only [sampleRho, TS.val_ofVal]; norm_num
  · intro hz
    rw [mul_zero, add_zero]
    exact hr hz

lemma exAq_water (conv : String) : CoherentWater (exAq conv) exAqWater 280 1e6 (298.15 * 230) sampleWater where
  solvent := exAq_solvent conv
  notH := by decide
  own := by simp [Subst.isReacDC, Subst.noMethods, exAqWater]
  geochemical := by show iequals "GEOCHEMICAL".toList "STEAM_TABLES".toList = false; decide
  nearT := Eventually.of_forall fun _ => rfl
  nearP := Eventually.of_forall fun _ => rfl
  dG := by
    simp only [sampleWater, TS.val_ofVal]
    exact (((((hasDerivAt_pow 2 (280 : ℝ)).neg.div_const 8).add_const _).add_const _).congr_deriv (by norm_num))
  dH := by
    simp only [sampleWater, TS.val_ofVal]
    exact (((hasDerivAt_pow 2 (280 : ℝ)).div_const 8).add_const _).congr_deriv (by norm_num)
  gibbs := by simp only [sampleWater, TS.val_ofVal]; norm_num
  dP := by
    simp only [sampleWater, TS.val_ofVal]
    exact (((((hasDerivAt_id' (1e6 : ℝ)).const_mul 1.8).div_const 1e5).const_add _).add_const _).congr_deriv (by norm_num)

lemma exAq_bb : bermanBrown (exAq "BENSON_HELGESON") = false := by
  show iequals "BENSON_HELGESON".toList "BERMAN_BROWN".toList = false; decide

/-- The constants of the example. -/
noncomputable def exC (y : String) : ℝ :=
  if y = "A" then 298.15 * 300 else if y = "H+" then 0 else if y = "B+2" ∨ y = "N" ∨ y = "M" then 298.15 * 70 else 298.15 * 230

/-- The ratios of dG/dP and V of the example. -/
noncomputable def exK (y : String) : ℝ := if y = "B+2" ∨ y = "N" ∨ y = "M" then hkfRatio else 1

/-- The species of the example. -/
lemma exAq_species : ∀ e ∈ (fromR "r" [("A", -1), ("H+", -2), ("B+2", 1), ("H2O@", 1)]).reactants, Species (exAq "BENSON_HELGESON") 280 1e6 e.1
    (exC e.1) (exK e.1) := by
  intro e he
  simp only [fromR, List.mem_cons, List.not_mem_nil, or_false] at he
  rcases he with rfl | rfl | rfl | rfl
  · have hs : Sound (exAq "BENSON_HELGESON") 298.15 280 (exMineral "A" 300 (-1000) 40 2) := by
      refine ⟨rfl, ⟨twoIntervals, 0, ⟨rfl, rfl, rfl⟩, twoIntervals_ok, ⟨by decide, Or.inl ?_⟩, ?_, ?_⟩, ?_⟩
      · norm_num [twoIntervals]
      · simp [twoIntervals, CpTable.coefs]
      · intro j hj; omega
      · simp [exMineral, asg, exAq]
    have := Species.mineral (env := exAq "BENSON_HELGESON") (P0 := 1e6) (y := "A") rfl
      ⟨by decide, rfl, by simp [exMineral], rfl, by simp [exMineral], rfl, by simp [exMineral, asg, TS.has]⟩ hs
    simp only [offset, exAq_bb, Bool.false_eq_true, if_false] at this
    exact this
  · exact Species.hydrogen (x := exSolute "H+" 1 [] 0 0 0) rfl rfl (by simp [Subst.noMethods, exSolute])
  · have := Species.solute (y := "B+2") (exAq_smooth "BENSON_HELGESON") rfl (exSolute_ok "BENSON_HELGESON" "B+2" (by decide) 2 70 (-2000) (-50) 1 2 3 4 5 6 1e5 rfl) (Or.inl rfl)
      (exSolute_smooth _ _ _ _ _ _ _ _ _ _ _ _ (fun _ => by norm_num [refRadius]))
    simp only [offset, exAq_bb, Bool.false_eq_true, if_false] at this
    exact this
  · exact Species.water (exAq_water _)

/-- The example meets the conditions of `C137_aqueous_partial` at 280 K and 10 bar. -/
example : ∃ t : ℝ → ℝ → TPR,
    (∀ᶠ T in 𝓝 (280 : ℝ), (ask (exAq "BENSON_HELGESON") 4 (.fromR T 1e6 "r") (after (exAq "BENSON_HELGESON") 4 ESt.init [.sub T 1e6 "B+2"])).1 =
      .ok (.reac (t T 1e6))) ∧
    HasDerivAt (fun T => (t T 1e6).lnK.val) ((t 280 1e6).H.val / (8.31451 * 280 ^ 2)) 280 := by
  obtain ⟨t, v, h1, -, -, -, -, -, h2, -⟩ := C137_aqueous_partial (env := exAq "BENSON_HELGESON") rfl (exAq_regular _) rfl (T0 := 280) (P0 := 1e6) (by norm_num)
    (by norm_num) (c := exC) (κ := exK) exAq_species (by simp [fromR, exC]; norm_num) (q := fun T P => .fromR T P "r") (fun T P => .name "r" rfl) (K := 4)
    (qs := fun T P => [.sub T P "B+2"]) (fun T P q hq => by
      simp only [List.mem_cons, List.not_mem_nil, or_false] at hq
      subst hq; trivial)
  exact ⟨t, h1, h2⟩

/-- **C137 does not hold** for dG/dP = V: if all species of a reaction are HKF solutes and its volume is not zero, dG/dP is not V, since the factors
4.184 J/cal of G and 41.84004 of V do not agree; the second part is a reaction where this happens (N = M at 280 K and 10 bar, V = -4.184004 J/bar). -/
theorem C137_refuted :
    (∀ {base : Models PSolv ESolv} {env : Env PSolv ESolv} {N : Nat} {x : Reac} {T0 P0 : ℝ} {c : String → ℝ} {q : ℝ → ℝ → Query}, env.mods = real base →
      Regular env N → env.fallback = false → 228 < T0 → 0 ≤ P0 → (∀ e ∈ x.reactants, Species env T0 P0 e.1 (c e.1) hkfRatio) →
      (x.reactants.map fun e => e.2 * c e.1).sum = 0 → (∀ T P, FromSpecies env T P x (q T P)) →
      ∃ t : ℝ → TPR, (∀ᶠ P in 𝓝 P0, (ask env N (q T0 P) ESt.init).1 = .ok (.reac (t P))) ∧
        ((t P0).V.val ≠ 0 → ¬ HasDerivAt (fun P => (t P).G.val) ((t P0).V.val / 1e5) P0)) ∧
    ∃ t : ℝ → TPR, (∀ᶠ P in 𝓝 1e6, (ask (exAq "BENSON_HELGESON") 4 (.fromR 280 P "s") ESt.init).1 = .ok (.reac (t P))) ∧
      (t 1e6).V.val = -4.184004 ∧ ¬ HasDerivAt (fun P => (t P).G.val) ((t 1e6).V.val / 1e5) 1e6 := by
  have gen : ∀ {base : Models PSolv ESolv} {env : Env PSolv ESolv} {N : Nat} {x : Reac} {T0 P0 : ℝ} {c : String → ℝ} {q : ℝ → ℝ → Query}, env.mods = real base →
      Regular env N → env.fallback = false → 228 < T0 → 0 ≤ P0 → (∀ e ∈ x.reactants, Species env T0 P0 e.1 (c e.1) hkfRatio) →
      (x.reactants.map fun e => e.2 * c e.1).sum = 0 → (∀ T P, FromSpecies env T P x (q T P)) →
      ∃ (t : ℝ → TPR) (v : String → ℝ), (∀ᶠ P in 𝓝 P0, (ask env N (q T0 P) ESt.init).1 = .ok (.reac (t P))) ∧
        (∀ e ∈ x.reactants, ∃ s, answer env N (.sub T0 P0 e.1) = .ok (.sub s) ∧ s.V.val = v e.1) ∧
        (t P0).V.val = (x.reactants.map fun e => e.2 * v e.1).sum ∧
        ((t P0).V.val ≠ 0 → ¬ HasDerivAt (fun P => (t P).G.val) ((t P0).V.val / 1e5) P0) := by
    intro base env N x T0 P0 c q hm h hfb hT hP hx hb hq
    obtain ⟨t, v, -, h1, hv, -, -, -, -, h2, -, h3⟩ := C137_aqueous_partial hm h hfb hT hP (κ := fun _ => hkfRatio) hx hb hq (K := 0) (qs := fun _ _ => []) (fun _ _ _ hq => by cases hq)
    refine ⟨t T0, v, h1, hv, h3, fun h0 hd => h0 ?_⟩
    have e : (x.reactants.map fun e => e.2 * (hkfRatio * v e.1)).sum = hkfRatio * (t T0 P0).V.val := by
      rw [h3, ← List.sum_map_mul_left]
      exact congrArg List.sum (List.map_congr_left fun e _ => by ring)
    have := hd.unique h2
    rw [e, hkfRatio] at this
    linarith
  refine ⟨fun hm h hfb hT hP hx hb hq => ?_, ?_⟩
  · obtain ⟨t, v, h1, -, -, h4⟩ := gen hm h hfb hT hP hx hb hq
    exact ⟨t, h1, h4⟩
  · have sp : ∀ e ∈ (fromR "s" [("N", -1), ("M", 1)]).reactants, Species (exAq "BENSON_HELGESON") 280 1e6 e.1 (298.15 * 70) hkfRatio := by
      intro e he
      simp only [fromR, List.mem_cons, List.not_mem_nil, or_false] at he
      rcases he with rfl | rfl
      · have := Species.solute (y := "N") (exAq_smooth "BENSON_HELGESON") rfl (exSolute_ok "BENSON_HELGESON" "N" (by decide) 0 70 (-10) 5 1 0 0 0 0 0 0 rfl)
          (Or.inl rfl) (exSolute_smooth _ _ _ _ _ _ _ _ _ _ _ _ (fun h => absurd rfl h))
        simp only [offset, exAq_bb, Bool.false_eq_true, if_false] at this
        exact this
      · have := Species.solute (y := "M") (exAq_smooth "BENSON_HELGESON") rfl (exSolute_ok "BENSON_HELGESON" "M" (by decide) 0 70 (-20) 7 0 0 0 0 0 0 0 rfl)
          (Or.inl rfl) (exSolute_smooth _ _ _ _ _ _ _ _ _ _ _ _ (fun h => absurd rfl h))
        simp only [offset, exAq_bb, Bool.false_eq_true, if_false] at this
        exact this
    obtain ⟨t, v, h1, h2, h3, h4⟩ := gen (env := exAq "BENSON_HELGESON") (N := 4) rfl (exAq_regular _) rfl (T0 := 280) (P0 := 1e6) (by norm_num) (by norm_num)
      (c := fun _ => 298.15 * 70) sp
      (by simp [fromR]) (q := fun T P => .fromR T P "s") (fun T P => .name "s" rfl)
    have vol : ∀ (y : String) (H S a1 : ℝ), y ≠ "H+" → (exAq "BENSON_HELGESON").db.subs.lookup y = some (exSolute y 0 [a1, 0, 0, 0, 0, 0, 0] 70 H S) →
        (exAq "BENSON_HELGESON").db.elemEntropy y = 70 → ∀ s, answer (exAq "BENSON_HELGESON") 4 (.sub 280 1e6 y) = .ok (.sub s) → s.V.val = a1 * 4.184004 := by
      intro y H S a1 hy hl hel s hs
      obtain ⟨r, hr, hv⟩ := hkfReaktoro_vals 280 1e6 (exSolute y 0 [a1, 0, 0, 0, 0, 0, 0] 70 H S).ref
        { w := TS.assign TS.default 0, wT := TS.assign TS.default 0, wP := TS.assign TS.default 0, wTT := TS.assign TS.default 0,
          wTP := TS.assign TS.default 0, wPP := TS.assign TS.default 0 } (sampleDiel 280 1e6) a1 0 0 0 0 0 0 []
      have := answer_solute (base := exAqMods) (env := exAq "BENSON_HELGESON") rfl (exAq_regular _) rfl (exAq_solvent _) hl (exSolute_ok _ y hy 0 70 H S a1 0 0 0 0 0 0 hel)
        (Or.inl rfl) (T := 280) (P := 1e6) (ps := sampleRho 280 1e6) rfl (es := sampleDiel 280 1e6) rfl (t := r) hr
      rw [hs] at this
      injection this with this
      injection this with this
      rw [this]
      simp only [conv, exAq_bb, Bool.false_eq_true, if_false]
      rw [hv.V]
      simp [HKFPar.V, HKFPar.of, TS.assign]
    obtain ⟨s1, a1, b1⟩ := h2 ("N", -1) (by simp [fromR])
    obtain ⟨s2, a2, b2⟩ := h2 ("M", 1) (by simp [fromR])
    rw [vol "N" (-10) 5 1 (by decide) rfl rfl s1 a1] at b1
    rw [vol "M" (-20) 7 0 (by decide) rfl rfl s2 a2] at b2
    have hV : (t 1e6).V.val = -4.184004 := by
      rw [h3]
      simp only [fromR, List.map_cons, List.map_nil, List.sum_cons, List.sum_nil, ← b1, ← b2]
      norm_num
    exact ⟨t, h1, hV, h4 (by rw [hV]; norm_num)⟩

end ThermoFun.Engine
