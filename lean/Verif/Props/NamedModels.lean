import Verif.Props.FromJson
import Verif.Props.StpEntry

/-!
# The models named in a record are those the engine runs (C118)
-/

namespace ThermoFun.Engine

open ThermoFun.Js

/-! ### Specification -/

/-- The pressure model a name stands for: what it does with the record `x` and the properties `r` at the reference pressure; `fl` tells whether
gases get a pressure correction. -/
noncomputable def namedModel (x : Subst) (T P : ℝ) (r : TPS) (fl : Bool) : String → Option (Res TPS)
  | "mv_constant" => some (.ok (conMolVol T P x.ref x.refP r))
  | "mv_equation_berman88" => some (berman88 (TS.temperature T) (pbar P) x.refT x.refP x.ref x.params.volume r)
  | "mv_eos_birch_murnaghan_gott97" => some (BM.bmEntry T P x.refT x.refP x.ref x.params.birch r)
  | "mv_eos_murnaghan_hp98" => some (match x.params.compressibility, x.params.expansivity with
      | some k, some a => .ok (murnaghan (TS.temperature T) (pbar P) x.refT x.refP x.ref k a r)
      | _, _ => .ub)
  | "mv_pvnrt" => some (.ok (idealGasLawVol T P (decide (x.cls = .GASFLUID)) x.refP r fl))
  | "fluid_prsv" => some (orNaN (Gas.gasEntry .PRSV T P x.params.intervals x.params.critical x.refP r fl))
  | "fluid_soave_redlich_kwong" => some (orNaN (Gas.gasEntry .SRK T P x.params.intervals x.params.critical x.refP r fl))
  | "fluid_peng_robinson78" => some (orNaN (Gas.gasEntry .PR78 T P x.params.intervals x.params.critical x.refP r fl))
  | "fluid_comp_redlich_kwong_hp91" => some (orNaN (Cork.corkEntry T P x.formula x.params.intervals x.params.critical x.refP r fl))
  | "fluid_sterner_pitzer" => some (orNaN (Stp.stpEntry T P x.formula x.params.intervals x.params.critical x.refP r fl))
  | "fluid_churakov_gottschalk" => some .ub
  | _ => none

/-- A record of a substance with heat capacity equations and the pressure method `n`: each method is documented, general methods are
`cp_ft_equation`, there is at least one, there are no temperature methods, and the pressure methods, at least one, have the name `n`; it is not
the solvent. -/
structure CpRecord (d : SubData) (n : String) : Prop where
  notH : d.symbol ≠ some "H+"
  notSolvent : d.cls.map Prod.fst ≠ some 3
  methods : ∃ l, d.methods = some l ∧ (∀ m ∈ l, m.method ∈ documentedS ∧ (m.method.2.1 = "cp_ft_equation" ∨ (m.method.2.1 = n ∧ m.method.2.2.1 = .P))) ∧
    (∃ m ∈ l, m.method.2.1 = "cp_ft_equation") ∧ ∃ m ∈ l, m.method.2.1 = n ∧ m.method.2.2.1 = .P
  units : UnitsOk d

/-- The convention of Berman and Brown, where the engine uses it. -/
noncomputable def inConvention {PS EPS : Type} (env : Env PS EPS) (x : Subst) (t : TPS) : TPS :=
  if bermanBrown env then toBermanBrown t x env.db.elemEntropy else t

/-! ### Lemmas -/

lemma documented_name : ∀ a ∈ documentedS, ∀ b ∈ documentedS, a.2.1 = b.2.1 → a = b := by decide +kernel

lemma fold_named {n : String} {c : Nat} {l : List MethodData}
    (h : ∀ m ∈ l, (m.method.2.2.1 = .gen ∧ m.method.2.2.2 = 100) ∨ (m.method.2.2.1 = .P ∧ m.method.2.2.2 = c)) (a : Methods) :
    let r := l.foldl (fun m e => withMethod m e.method.2.2.1 e.method.2.2.2) a
    r.T = a.T ∧ ((∃ m ∈ l, m.method.2.2.1 = .gen) ∨ a.gen = 100 → r.gen = 100) ∧ ((∃ m ∈ l, m.method.2.2.1 = .P) ∨ a.P = c → r.P = c) := by
  induction l generalizing a with
  | nil => simp
  | cons m l ih =>
    have ih := ih (fun m' hm => h m' (List.mem_cons_of_mem _ hm)) (withMethod a m.method.2.2.1 m.method.2.2.2)
    simp only [List.foldl_cons]
    obtain ⟨i1, i2, i3⟩ := ih
    rcases h m (List.mem_cons_self ..) with ⟨h1, h2⟩ | ⟨h1, h2⟩
    · rw [h1, h2] at i1 i2 i3 ⊢
      refine ⟨i1, fun _ => i2 (.inr rfl), fun hh => i3 ?_⟩
      rcases hh with ⟨m', hm, hp⟩ | hp
      · rcases List.mem_cons.mp hm with rfl | hm
        · rw [h1] at hp; cases hp
        · exact .inl ⟨m', hm, hp⟩
      · exact .inr hp
    · rw [h1, h2] at i1 i2 i3 ⊢
      refine ⟨i1, fun hh => i2 ?_, fun _ => i3 (.inr rfl)⟩
      rcases hh with ⟨m', hm, hp⟩ | hp
      · rcases List.mem_cons.mp hm with rfl | hm
        · rw [h1] at hp; cases hp
        · exact .inl ⟨m', hm, hp⟩
      · exact .inr hp

/-- What the record tells the engine. -/
lemma record_named {j : Json} {d : SubData} (hj : SaysSub j d) (hp : j.get? "properties" = none) {k : Int} {n : String} {c : Nat}
    (hn : (k, n, Slot.P, c) ∈ documentedS) (hd : CpRecord d n) :
    ∃ s, parseSubstance j = .ok s ∧ IsSub d s ∧ s.methods = ⟨100, 0, c⟩ ∧ (ofSub s).isReacDC = false ∧ (ofSub s).isSolvent = false ∧ s.symbol ≠ "H+" := by
  obtain ⟨l, hms, hl, ⟨m1, hm1, e1⟩, m2, hm2, e2, e2'⟩ := hd.methods
  have hcp : ((0 : Int), "cp_ft_equation", Slot.gen, 100) ∈ documentedS := by decide
  have hcl : ∀ m ∈ l, (m.method = (0, "cp_ft_equation", Slot.gen, 100)) ∨ m.method = (k, n, Slot.P, c) := by
    intro m hm
    obtain ⟨h1, h2⟩ := hl m hm
    rcases h2 with h2 | ⟨h2, -⟩
    · exact .inl (documented_name _ h1 _ hcp h2)
    · exact .inr (documented_name _ h1 _ hn h2)
  have hk : k ≠ 41 ∧ k ≠ 42 := by
    have : ∀ a ∈ documentedS, a.2.2.1 = Slot.P → a.1 ≠ 41 ∧ a.1 ≠ 42 := by decide
    exact this _ hn rfl
  obtain ⟨x, hx, hi⟩ := C92_substances j d hj hp (fun l' hl' => by
    rw [hms] at hl'
    injection hl' with hl'
    subst hl'
    intro m hm
    refine ⟨(hl m hm).1, ?_⟩
    rcases hcl m hm with h | h <;> rw [h]
    · decide
    · exact hk) hd.units.Cp hd.units.G hd.units.H hd.units.S hd.units.V
  have hne : n ≠ "cp_ft_equation" := by
    rintro rfl
    have := documented_name _ hn _ hcp rfl
    simp at this
  have hmeth : x.methods = ⟨100, 0, c⟩ := by
    rw [hi.methods, hms]
    have := fold_named (n := n) (c := c) (l := l) (fun m hm => by
      rcases hcl m hm with h | h <;> rw [h]
      · exact .inl ⟨rfl, rfl⟩
      · exact .inr ⟨rfl, rfl⟩) {}
    obtain ⟨h1, h2, h3⟩ := this
    have g1 := h2 (.inl ⟨m1, hm1, by
      rcases hcl m1 hm1 with h | h
      · rw [h]
      · rw [h] at e1; exact absurd e1 hne⟩)
    have g2 := h3 (.inl ⟨m2, hm2, e2'⟩)
    simp only [Option.getD_some]
    generalize l.foldl (fun m e => withMethod m e.method.2.2.1 e.method.2.2.2) {} = q at h1 g1 g2 ⊢
    cases q
    cases h1
    cases g1
    cases g2
    rfl
  refine ⟨x, hx, hi, hmeth, ?_, ?_, ?_⟩
  · have hg : (ofSub x).gen = .CPT := by show GenEoS.ofCode x.methods.gen = _; rw [hmeth]; rfl
    have hr : (ofSub x).reacdc = false := by show x.reacdc = false; rw [hi.reacdc, hms]; rfl
    simp [Subst.isReacDC, Subst.noMethods, hg, hr]
  · have : (ofSub x).cls ≠ .AQSOLVENT := by
      show SClass.ofCode x.cls ≠ _
      rw [hi.cls]
      have := hd.notSolvent
      cases hs : d.cls with
      | none => decide
      | some y =>
        rw [hs] at this
        have h3 : (y.1.1 : Int) ≠ 3 := by
          intro e
          refine this ?_
          simp only [Option.map_some]
          congr 1
          exact Fin.ext (by show (y.1 : ℕ) = 3; omega)
        simp only [Option.map_some, Option.getD_some]
        unfold SClass.ofCode
        split <;> simp_all
    simp [Subst.isSolvent, this]
  · rw [hi.symbol]
    have := hd.notH
    cases hs : d.symbol with
    | none => decide
    | some y => rw [hs] at this; simpa using this

variable {base : Models PSolv ESolv} {env : Env PSolv ESolv} {N : Nat}

/-- The steps of a substance with heat capacity equations. -/
lemma methods_cp (hm : env.mods = real base) {rc : Rec PSolv ESolv} {x : Subst} {T P : ℝ} {r : TPS} {st : ESt PSolv ESolv} (hg : x.gen = .CPT)
    (hT : x.mT = .unset) (hs : x.isSolvent = false) (hr : empCpIntegration x.cpData T = .ok r) {o : Out TPS}
    (hp : pStep env rc T P x r st = (o, st)) :
    methodsStep env rc T P x st = (match o with | .ok t => .ok (inConvention env x t) | e => e, st) := by
  have hvap : x.isVapor = false := by simp [Subst.isVapor, hg]
  have e1 : eosStep env T P x st = (.ok r, st) := by
    unfold eosStep
    rw [hg]
    simp only [hm, real, EM.lift, hr]
  have e2 : tStep env T P x r st = (.ok r, st) := by
    unfold tStep
    rw [if_neg (by simp [hg]), hT]
    rfl
  unfold methodsStep
  rw [if_pos ⟨hs, hvap⟩]
  have : (do
      let a ← eosStep env T P x
      let b ← tStep env T P x a
      pStep env rc T P x b : EM PSolv ESolv TPS) st = (o, st) := by
    rw [bind_run e1, bind_run e2, hp]
  cases o with
  | ok t =>
    rw [bind_run this]
    unfold convStep inConvention bermanBrown
    rw [hs]
    simp only [Bool.false_eq_true, if_false]
    split <;> rfl
  | _ =>
    show EM.bind _ _ _ = _
    unfold EM.bind
    rw [this]

/-- An answer of the engine that does not depend on its state. -/
lemma answer_own (h : Regular env N) (hfb : env.fallback = false) {y : String} {x : Subst} (hy : env.db.subs.lookup y = some x)
    (hH : x.symbol ≠ "H+") (hown : x.isReacDC = false) {T P : ℝ} {t : TPS}
    (hst : ∀ n s, methodsStep env (run env n) T P x s = (.ok t, s)) : answer env N (.sub T P y) = .ok (.sub t) := by
  have hN : 4 ≤ N := by obtain ⟨-, R, -, -, hN⟩ := h.ranked; omega
  obtain ⟨n, rfl⟩ : ∃ n, N = n + 1 := ⟨N - 1, by omega⟩
  have hsub : ∀ s : ESt PSolv ESolv, (substRec env (run env n) T P x s).1 = .ok t := by
    intro s
    unfold substRec
    have e5 : setPrefs env x s = (.ok (), (setPrefs env x s).2) := rfl
    rw [bind_run e5, if_neg hH, hown]
    have e6 : (if (false : Bool) then reacDC env (run env n) T P x else methodsStep env (run env n) T P x) = methodsStep env (run env n) T P x := rfl
    rw [e6, bind_run (hst n _), hfb]
    rfl
  refine ((h.sub_coh T P y (s := ESt.init) (cohSt_init env)).2 _).1 ?_
  have hc : ∀ s : ESt PSolv ESolv, ((getSub env y >>= fun v => substRec env (run env n) T P v : EM PSolv ESolv TPS) s).1 = .ok t := by
    intro s
    have e1 : getSub env y s = (.ok x, s) := by unfold getSub; rw [hy]; rfl
    rw [bind_run e1]
    exact hsub s
  show (cached env ESt.subC (fun c s => { s with subC := c }) _ _ _).1 = _
  unfold cached
  split
  · have hs := hc { (ESt.init : ESt PSolv ESolv) with subC := Cache.evict env.maxCache (ESt.init : ESt PSolv ESolv).subC }
    have hf : (Cache.evict env.maxCache (ESt.init : ESt PSolv ESolv).subC).find ⟨T, P, y⟩ = none := by
      unfold Cache.evict Cache.find ESt.init
      split <;> rfl
    simp only [hf]
    split
    · rename_i v s' e
      rw [e] at hs
      exact hs
    · exact hs
  · exact hc _

/-- The result of a model as a result of the engine. -/
def outOf : Res TPS → Out TPS
  | .ok t => .ok t
  | .throw => .throw
  | .ub => .ub

/-- What the record tells the engine about its methods. -/
lemma ofSub_methods {s : Js.Sub} {c : Nat} (h : s.methods = ⟨100, 0, c⟩) : (ofSub s).gen = .CPT ∧ (ofSub s).mT = .unset ∧ (ofSub s).mP = CorrP.ofCode c :=
  ⟨by show GenEoS.ofCode s.methods.gen = _; rw [h]; rfl, by show CorrT.ofCode s.methods.T = _; rw [h]; rfl, by show CorrP.ofCode s.methods.P = _; rw [h]⟩

/-- The pressure step runs the named model. -/
lemma pStep_named (hm : env.mods = real base) {rc : Rec PSolv ESolv} {x : Subst} {T P : ℝ} {r : TPS} {st : ESt PSolv ESolv} {k : Int} {n : String}
    {c : Nat} (hn : (k, n, Slot.P, c) ∈ documentedS) (hg : x.gen = .CPT) (hP : x.mP = CorrP.ofCode c) {o : Res TPS}
    (ho : namedModel x T P r st.pcorr n = some o) : pStep env rc T P x r st = (outOf o, st) := by
  unfold pStep
  have e0 : EM.read (·.pcorr) st = (.ok st.pcorr, st) := rfl
  rw [bind_run e0, if_neg (by simp [hg]), hP]
  simp only [documentedS, List.mem_cons, Prod.mk.injEq, List.not_mem_nil, or_false, reduceCtorEq, false_and, and_false, false_or] at hn
  have hl : ∀ q : Res TPS, EM.lift q st = (outOf q, st) := by
    intro q
    cases q <;> rfl
  rcases hn with ⟨-, rfl, -, rfl⟩ | ⟨-, rfl, -, rfl⟩ | ⟨-, rfl, -, rfl⟩ | ⟨-, rfl, -, rfl⟩ | ⟨-, rfl, -, rfl⟩ | ⟨-, rfl, -, rfl⟩ | ⟨-, rfl, -, rfl⟩ |
    ⟨-, rfl, -, rfl⟩ | ⟨-, rfl, -, rfl⟩ | ⟨-, rfl, -, rfl⟩ | ⟨-, rfl, -, rfl⟩ | ⟨-, rfl, -, rfl⟩ | ⟨-, rfl, -, rfl⟩ | ⟨-, rfl, -, rfl⟩ | ⟨-, rfl, -, rfl⟩ <;>
  first
  | (simp [namedModel] at ho; done)
  | (simp only [namedModel, Option.some.injEq] at ho
     subst ho
     simp only [CorrP.ofCode, hm, real, Stp.C122_array_refuted]
     exact hl _)

/-! ### C118 -/

/-- **C118** (any substance with heat capacity equations): whatever the state of the engine, it runs, after the integration of the heat capacity, the
pressure model that the record names, with the data of the record, and converts the result to the convention asked for.  (The model of Churakov and
Gottschalk has undefined behaviour, C122.) -/
theorem C118_named_partial (j : Json) (d : SubData) (hj : SaysSub j d) (hp : j.get? "properties" = none) (k : Int) (n : String) (c : Nat)
    (hn : (k, n, Slot.P, c) ∈ documentedS) (hd : CpRecord d n) :
    ∃ s, parseSubstance j = .ok s ∧ ∀ (env : Env PSolv ESolv) (base : Models PSolv ESolv) (rc : Rec PSolv ESolv) (st : ESt PSolv ESolv) (T P : ℝ) (r : TPS)
      (o : Res TPS), env.mods = real base → empCpIntegration (ofSub s).cpData T = .ok r → namedModel (ofSub s) T P r st.pcorr n = some o →
      methodsStep env rc T P (ofSub s) st = (match o with | .ok t => .ok (inConvention env (ofSub s) t) | .throw => .throw | .ub => .ub, st) := by
  obtain ⟨s, hs, -, hmeth, -, hsolv, -⟩ := record_named hj hp hn hd
  obtain ⟨hg, hT, hP⟩ := ofSub_methods hmeth
  refine ⟨s, hs, ?_⟩
  intro env base rc st T P r o hm hr ho
  rw [methods_cp hm hg hT hsolv hr (pStep_named hm hn hg hP ho)]
  cases o <;> rfl

/-- **C118** (solids): the engine's answer for a solid, after any history, is the result of the pressure model its record names. -/
theorem C118_solid_partial (j : Json) (d : SubData) (hj : SaysSub j d) (hp : j.get? "properties" = none) (k : Int) (n : String) (c : Nat)
    (hn : (k, n, Slot.P, c) ∈ documentedS) (hns : n ∈ ["mv_constant", "mv_equation_berman88", "mv_eos_birch_murnaghan_gott97", "mv_eos_murnaghan_hp98"])
    (hd : CpRecord d n) :
    ∃ s, parseSubstance j = .ok s ∧ ∀ (env : Env PSolv ESolv) (base : Models PSolv ESolv) (N : Nat) (y : String) (T P : ℝ) (r t : TPS),
      env.mods = real base → Regular env N → env.fallback = false → env.db.subs.lookup y = some (ofSub s) →
      empCpIntegration (ofSub s).cpData T = .ok r → namedModel (ofSub s) T P r false n = some (.ok t) →
      answer env N (.sub T P y) = .ok (.sub (inConvention env (ofSub s) t)) := by
  obtain ⟨s, hs, -, hmeth, hown, hsolv, hH⟩ := record_named hj hp hn hd
  obtain ⟨hg, hT, hP⟩ := ofSub_methods hmeth
  refine ⟨s, hs, ?_⟩
  intro env base N y T P r t hm hreg hfb hy hr ho
  refine answer_own hreg hfb hy hH hown fun i st => ?_
  have ho' : namedModel (ofSub s) T P r st.pcorr n = some (.ok t) := by
    simp only [List.mem_cons, List.not_mem_nil, or_false] at hns
    rcases hns with rfl | rfl | rfl | rfl <;> exact ho
  rw [methods_cp hm hg hT hsolv hr (pStep_named hm hn hg hP ho')]
  rfl

/-- **C118** is violated by three documented pressure methods, `mv_equation_dorogokupets88`, `mv_eos_tait_hp11` and `fug_critical_param`: the record is
read without an exception, but the engine runs no pressure model at all.  Its result, whatever the state and the pressure, is that of the
integration of the heat capacity. -/
theorem C118_ignored_refuted (j : Json) (d : SubData) (hj : SaysSub j d) (hp : j.get? "properties" = none) (k : Int) (n : String) (c : Nat)
    (hn : (k, n, c) ∈ [(35, "mv_equation_dorogokupets88", 306), (39, "mv_eos_tait_hp11", 310), (8, "fug_critical_param", 311)]) (hd : CpRecord d n) :
    ∃ s, parseSubstance j = .ok s ∧ ∀ (env : Env PSolv ESolv) (base : Models PSolv ESolv) (rc : Rec PSolv ESolv) (st : ESt PSolv ESolv) (T P : ℝ) (r : TPS),
      env.mods = real base → empCpIntegration (ofSub s).cpData T = .ok r →
      methodsStep env rc T P (ofSub s) st = (.ok (inConvention env (ofSub s) r), st) := by
  have hn' : (k, n, Slot.P, c) ∈ documentedS := by
    simp only [List.mem_cons, Prod.mk.injEq, List.not_mem_nil, or_false] at hn
    rcases hn with ⟨rfl, rfl, rfl⟩ | ⟨rfl, rfl, rfl⟩ | ⟨rfl, rfl, rfl⟩ <;> decide
  obtain ⟨s, hs, -, hmeth, -, hsolv, -⟩ := record_named hj hp hn' hd
  obtain ⟨hg, hT, hP⟩ := ofSub_methods hmeth
  refine ⟨s, hs, ?_⟩
  intro env base rc st T P r hm hr
  refine methods_cp hm hg hT hsolv hr (o := .ok r) ?_
  unfold pStep
  have e0 : EM.read (·.pcorr) st = (.ok st.pcorr, st) := rfl
  rw [bind_run e0, if_neg (by simp [hg]), hP]
  simp only [List.mem_cons, Prod.mk.injEq, List.not_mem_nil, or_false] at hn
  rcases hn with ⟨-, -, rfl⟩ | ⟨-, -, rfl⟩ | ⟨-, -, rfl⟩ <;> rfl

/-- **C122** (through the engine): a record that names the model of Churakov and Gottschalk is read without an exception, but a query for the properties
of the substance has undefined behaviour, whatever temperature, pressure and state. -/
theorem C122_record_refuted (j : Json) (d : SubData) (hj : SaysSub j d) (hp : j.get? "properties" = none) (hd : CpRecord d "fluid_churakov_gottschalk") :
    ∃ s, parseSubstance j = .ok s ∧ ∀ (env : Env PSolv ESolv) (base : Models PSolv ESolv) (rc : Rec PSolv ESolv) (st : ESt PSolv ESolv) (T P : ℝ) (r : TPS),
      env.mods = real base → empCpIntegration (ofSub s).cpData T = .ok r → methodsStep env rc T P (ofSub s) st = (.ub, st) := by
  obtain ⟨s, hs, h⟩ := C118_named_partial j d hj hp 10 _ 313 (by decide) hd
  exact ⟨s, hs, fun env base rc st T P r hm hr => h env base rc st T P r .ub hm hr rfl⟩

/-! ### Examples -/

/-- A record with one heat capacity equation and the pressure method `n`. -/
def exNamed (k : Nat) (n : String) : Json := .obj [
  ("TPMethods", .arr [
    .obj [("limitsTP", .obj [("lowerT", .num 200), ("upperT", .num 2000)]), ("m_heat_capacity_ft_coeffs", plainList [50, 1 / 100]),
      ("method", .obj [("0", .str "cp_ft_equation")])],
    .obj [("method", .obj [(toString (k : Int), .str n)])]]),
  ("formula", .str "SiO2"), ("m_compressibility", .obj [("values", .arr [.num 700])]), ("m_expansivity", .obj [("values", .arr [.num (1 / 10)])]),
  ("symbol", .str "Qtz")]

/-- What it says. -/
def exNamedSays (k : Nat) (n : String) (c : Nat) : SubData where
  symbol := some "Qtz"
  formula := some "SiO2"
  expansivity := some (1 / 10)
  compressibility := some 700
  methods := some [{ method := (0, "cp_ft_equation", .gen, 100), limits := some (some 200, some 2000), cp := some [50, 1 / 100] },
    { method := (k, n, .P, c) }]

lemma exNamed_says (k : Nat) (n : String) (c : Nat) : SaysSub (exNamed k n) (exNamedSays k n c) := by
  refine ⟨rfl, rfl, rfl, rfl, rfl, rfl, rfl, rfl, rfl, rfl, rfl, ⟨_, rfl, ?_⟩, rfl, rfl, rfl, rfl, rfl, rfl, rfl⟩
  exact .cons ⟨rfl, rfl, rfl, rfl, rfl, rfl, rfl, rfl, rfl⟩ (.cons ⟨rfl, rfl, rfl, rfl, rfl, rfl, rfl, rfl, rfl⟩ .nil)

lemma exNamed_rec (k : Nat) (n : String) (c : Nat) (h : ((k : Int), n, Slot.P, c) ∈ documentedS) : CpRecord (exNamedSays k n c) n where
  notH := by show some "Qtz" ≠ some "H+"; decide
  notSolvent := by show none ≠ some _; simp
  methods := by
    refine ⟨_, rfl, ?_, ⟨_, List.mem_cons_self, rfl⟩, _, List.mem_cons_of_mem _ List.mem_cons_self, rfl, rfl⟩
    intro m hm
    rw [List.mem_cons, List.mem_singleton] at hm
    rcases hm with rfl | rfl
    · exact ⟨by show ((0 : Int), "cp_ft_equation", Slot.gen, 100) ∈ documentedS; decide, .inl rfl⟩
    · exact ⟨h, .inr ⟨rfl, rfl⟩⟩
  units := ⟨(fun x hx => by cases hx), (fun x hx => by cases hx), (fun x hx => by cases hx), (fun x hx => by cases hx), (fun x hx => by cases hx)⟩

/-- The heat capacity can be integrated to 500 K. -/
lemma exNamed_cp (k : Nat) (n : String) (c : Nat) (hn : n ≠ "cp_ft_equation") {s : Js.Sub} (hi : IsSub (exNamedSays k n c) s) :
    ∃ r, empCpIntegration (ofSub s).cpData 500 = .ok r := by
  let t : CpTable := ⟨1, fun j => 200 + 1800 * j, fun _ => [50, 1 / 100], fun _ => 0, fun _ => 0, fun _ => 0⟩
  have ht : t.Ok := ⟨by decide, by norm_num [t], strictMono_nat_of_lt_succ fun j => by simp only [t]; push_cast; linarith, 2, fun _ _ => rfl⟩
  have hp := hi.params _ rfl
  have h : HasTable (ofSub s) t := by
    refine ⟨?_, ?_, ?_⟩
    · show s.params.cpCoeffs = _
      rw [hp]
      simp [paramsOf, reals, t, List.range_succ]
    · show s.params.intervals = _
      rw [hp]
      simp [paramsOf, reals, t, List.range_succ, limitsList, hn]
      norm_num
    · show s.params.transitions = _
      rw [hp]
      simp [paramsOf, t]
  rw [h.data]
  exact ⟨_, (okOr_vals t ht _ _ TPS.default 500 0 ⟨by decide, .inl (by norm_num [t])⟩).1⟩

/-- The Murnaghan equation of a record is run. -/
example : ∃ s, parseSubstance (exNamed 38 "mv_eos_murnaghan_hp98") = .ok s ∧ ∃ r, empCpIntegration (ofSub s).cpData 500 = .ok r ∧
    ∀ (env : Env PSolv ESolv) (base : Models PSolv ESolv) (rc : Rec PSolv ESolv) (st : ESt PSolv ESolv) (P : ℝ), env.mods = real base →
      ∃ ka a, methodsStep env rc 500 P (ofSub s) st
        = (.ok (inConvention env (ofSub s) (murnaghan (TS.temperature 500) (pbar P) (ofSub s).refT (ofSub s).refP (ofSub s).ref ka a r)), st) := by
  have hd : (((38 : ℕ) : Int), "mv_eos_murnaghan_hp98", Slot.P, 309) ∈ documentedS := by decide
  obtain ⟨s, hs, h⟩ := C118_named_partial _ _ (exNamed_says 38 "mv_eos_murnaghan_hp98" 309) rfl _ _ _ hd (exNamed_rec _ _ _ hd)
  obtain ⟨s', hs', hi, -⟩ := record_named (exNamed_says 38 "mv_eos_murnaghan_hp98" 309) rfl hd (exNamed_rec _ _ _ hd)
  rw [hs] at hs'
  injection hs' with e
  subst e
  obtain ⟨r, hr⟩ := exNamed_cp 38 _ 309 (by decide) hi
  have hp := hi.params _ rfl
  have hc : (ofSub s).params.compressibility = some ((700 : ℚ) : ℝ) ∧ ∃ a, (ofSub s).params.expansivity = some a := by
    show s.params.compressibility = _ ∧ ∃ a, s.params.expansivity = some a
    rw [hp]
    simp [paramsOf, exNamedSays]
  obtain ⟨hc, a, ha⟩ := hc
  refine ⟨s, hs, r, hr, fun env base rc st P hm => ⟨((700 : ℚ) : ℝ), a, ?_⟩⟩
  have := h env base rc st 500 P r (.ok (murnaghan (TS.temperature 500) (pbar P) (ofSub s).refT (ofSub s).refP (ofSub s).ref ((700 : ℚ) : ℝ) a r)) hm hr (by
    simp only [namedModel, hc, ha])
  exact this

/-- The equation of Tait is not. -/
example : ∃ s, parseSubstance (exNamed 39 "mv_eos_tait_hp11") = .ok s ∧ ∃ r, empCpIntegration (ofSub s).cpData 500 = .ok r ∧
    ∀ (env : Env PSolv ESolv) (base : Models PSolv ESolv) (rc : Rec PSolv ESolv) (st : ESt PSolv ESolv) (P : ℝ), env.mods = real base →
      methodsStep env rc 500 P (ofSub s) st = (.ok (inConvention env (ofSub s) r), st) := by
  have hd : (((39 : ℕ) : Int), "mv_eos_tait_hp11", Slot.P, 310) ∈ documentedS := by decide
  obtain ⟨s, hs, h⟩ := C118_ignored_refuted _ _ (exNamed_says 39 "mv_eos_tait_hp11" 310) rfl 39 _ 310 (by simp) (exNamed_rec _ _ _ hd)
  obtain ⟨s', hs', hi, -⟩ := record_named (exNamed_says 39 "mv_eos_tait_hp11" 310) rfl hd (exNamed_rec _ _ _ hd)
  rw [hs] at hs'
  injection hs' with e
  subst e
  obtain ⟨r, hr⟩ := exNamed_cp 39 _ 310 (by decide) hi
  exact ⟨s, hs, r, hr, fun env base rc st P hm => h env base rc st 500 P r hm hr⟩

example : SaysSub (exNamed 10 "fluid_churakov_gottschalk") (exNamedSays 10 "fluid_churakov_gottschalk" 313) ∧
    CpRecord (exNamedSays 10 "fluid_churakov_gottschalk" 313) "fluid_churakov_gottschalk" :=
  ⟨exNamed_says 10 _ 313, exNamed_rec 10 _ 313 (by decide)⟩

end ThermoFun.Engine
