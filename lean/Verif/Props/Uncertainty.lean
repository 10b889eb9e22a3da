import Verif.Props.Engine

/-!
C167: the uncertainties the engine reports for reactions, and for substances that are defined by a reaction.

Every property carries an uncertainty (`err`), read from the records with their values.  Independent uncertainties add in quadrature:
a sum of νᵢ·xᵢ with uncertainties σᵢ has the uncertainty √Σ(νᵢσᵢ)².
-/

namespace ThermoFun.Engine

variable {PS EPS : Type}

/-- Sum of the squares of coefficient times uncertainty. -/
noncomputable def quadr (l : List (String × ℝ)) (ts : List TPS) (p : TPS → TS) : ℝ :=
  ((l.zip ts).map fun e => (e.1.2 * (p e.2).err) ^ 2).sum

/-- No value without its uncertainty: a value of 0 is exact. -/
def ZeroExact (p : TPS → TS) (ts : List TPS) : Prop := ∀ t ∈ ts, (p t).val = 0 → (p t).err = 0

lemma mulR_err (a : TS) (c : ℝ) (h : a.val = 0 → a.err = 0) : (a * c).err = |c * a.err| := by
  show (TS.mulL c a).err = _
  unfold TS.mulL
  split
  · rename_i h0; simp [TS.mk5, h h0]
  · rename_i h0
    have e : a.err / a.val * a.err / a.val = (a.err / a.val) ^ 2 := by ring
    simp only [TS.mk5, e, Real.sqrt_sq_eq_abs, abs_mul, abs_abs, abs_div]
    have : |a.val| ≠ 0 := abs_ne_zero.mpr h0
    field_simp

lemma mulR_err_zero (a : TS) (c : ℝ) (h : a.val = 0) : (a * c).err = 0 := by
  show (TS.mulL c a).err = _
  unfold TS.mulL
  rw [if_pos h]; simp [TS.mk5]

lemma divR_err (a : TS) (c : ℝ) (h : a.val = 0 → a.err = 0) : (a / c).err = |a.err / c| := by
  have e : a / c = a * (1.0 / c) := rfl
  rw [e, mulR_err _ _ h]
  congr 1
  norm_num
  ring

lemma divR_err_zero (a : TS) (c : ℝ) (h : a.val = 0) : (a / c).err = 0 := mulR_err_zero a (1.0 / c) h

/-- One property of the sum: the uncertainty. -/
def ErrOf (l : List (String × ℝ)) (ts : List TPS) (p : TPS → TS) (a b : TS) : Prop :=
  ZeroExact p ts → 0 ≤ a.err → 0 ≤ b.err ∧ b.err ^ 2 = a.err ^ 2 + quadr l ts p

lemma ErrOf.nil {p : TPS → TS} {a : TS} : ErrOf [] [] p a a := fun _ h => ⟨h, by simp [quadr]⟩

lemma ErrOf.cons {l : List (String × ℝ)} {ts : List TPS} {p : TPS → TS} {a b : TS} {y : String} {c : ℝ} {t : TPS}
    (h : ErrOf l ts p (TS.addAssign a (p t * c)) b) : ErrOf ((y, c) :: l) (t :: ts) p a b := by
  intro hz _
  obtain ⟨h1, h2⟩ := h (fun u hu => hz u (List.mem_cons_of_mem _ hu)) (Real.sqrt_nonneg _)
  refine ⟨h1, ?_⟩
  rw [h2]
  simp only [TS.addAssign, mulR_err _ _ (hz t List.mem_cons_self), quadr, List.zip_cons_cons, List.map_cons, List.sum_cons]
  rw [Real.sq_sqrt (by positivity), ← pow_two |_|, sq_abs]
  ring

lemma ErrOf.consSub {l : List (String × ℝ)} {ts : List TPS} {p : TPS → TS} {a b : TS} {y : String} {c : ℝ} {t : TPS}
    (h : ErrOf l ts p (TS.subAssign a (p t * c)) b) : ErrOf ((y, c) :: l) (t :: ts) p a b := h.cons

/-- The uncertainties the loop over the reactants computes. -/
lemma sumReactants_err {env : Env PS EPS} {n : Nat} {T P : ℝ} {sym : String} (l : List (String × ℝ)) (t u : TPR) (s : ESt PS EPS)
    (h : (sumReactants env (run env n) T P sym l t s).1 = .ok u) :
    ∃ ts s', Asked env n T P s l ts s' ∧ ErrOf l ts (·.Cp) t.Cp u.Cp ∧ ErrOf l ts (·.G) t.G u.G ∧ ErrOf l ts (·.H) t.H u.H ∧
      ErrOf l ts (·.S) t.S u.S ∧ ErrOf l ts (·.V) t.V u.V ∧
      (l = [] ∧ u = t ∨ u.lnK = u.G / (-(Rgas * T)) ∧ u.logK = u.lnK * lnToLg) := by
  induction l generalizing t s with
  | nil =>
    have hu : t = u := by injection h
    subst hu
    exact ⟨[], s, .nil s, .nil, .nil, .nil, .nil, .nil, .inl ⟨rfl, rfl⟩⟩
  | cons e l ih =>
    obtain ⟨y, c⟩ := e
    unfold sumReactants at h
    obtain ⟨v, hv, h⟩ := EM.of_bind_ok h
    split at h
    · cases h
    · obtain ⟨ty, hty, h⟩ := EM.of_bind_ok h
      have hs : (getSub env y s).2 = s := getSub_state y s
      rw [hs] at h hty
      obtain ⟨ts, s', h0, h1, h2, h3, h4, h5, h6⟩ := ih _ _ h
      refine ⟨ty :: ts, s', .cons (Prod.ext hty rfl) h0, h1.cons, h2.cons, h3.cons, h4.cons, h5.cons, .inr ?_⟩
      rcases h6 with ⟨-, rfl⟩ | h6
      · exact ⟨rfl, rfl⟩
      · exact h6

/-- **C167 (partial)** (full statement: without the conditions that values of 0 have no uncertainty.)  The uncertainty of Cp, G, H, S and V
of a reaction computed from its species is not negative and its square is the sum of the squares of coefficient times the uncertainty of
the species, when no species has the value 0 with an uncertainty.  If G is not 0, the uncertainty of ln K is that of G divided by
R T, and that of log K is 0.434294481 times as much. -/
theorem C167_quadrature_partial {env : Env PS EPS} {n : Nat} {T P : ℝ} (hT : 0 < T) {x : Reac} {q : Query} (hq : FromSpecies env T P x q)
    {t : TPR} {s : ESt PS EPS} (h : (ask env n q s).1 = .ok (.reac t)) :
    ∃ ts s', Asked env n T P { s with pcorr := true } x.reactants ts s' ∧
      (∀ p ∈ [(TPR.Cp, TPS.Cp), (TPR.G, TPS.G), (TPR.H, TPS.H), (TPR.S, TPS.S), (TPR.V, TPS.V)],
        (∀ y ∈ ts, (p.2 y).val = 0 → (p.2 y).err = 0) →
        0 ≤ (p.1 t).err ∧ (p.1 t).err ^ 2 = ((x.reactants.zip ts).map fun e => (e.1.2 * (p.2 e.2).err) ^ 2).sum) ∧
      ((∀ y ∈ ts, y.G.val = 0 → y.G.err = 0) → t.G.val ≠ 0 →
        t.lnK.err = t.G.err / (8.31451 * T) ∧ t.logK.err = 0.434294481 * (t.G.err / (8.31451 * T))) := by
  have h := hq.sum h
  obtain ⟨ts, s', h0, h1, h2, h3, h4, h5, h6⟩ := sumReactants_err _ _ _ _ h
  have e : ∀ {p : TPS → TS} {b : TS}, ErrOf x.reactants ts p zeroTS b → (∀ y ∈ ts, (p y).val = 0 → (p y).err = 0) →
      0 ≤ b.err ∧ b.err ^ 2 = quadr x.reactants ts p := by
    intro p b hb hz
    obtain ⟨e1, e2⟩ := hb hz (by simp [zeroTS, TS.assign])
    exact ⟨e1, by rw [e2]; simp [zeroTS, TS.assign]⟩
  refine ⟨ts, s', h0, ?_, ?_⟩
  · intro p hp
    simp only [List.mem_cons, List.not_mem_nil, or_false] at hp
    rcases hp with rfl | rfl | rfl | rfl | rfl
    · exact e h1
    · exact e h2
    · exact e h3
    · exact e h4
    · exact e h5
  · intro hz hG
    have hpos := (e h2 hz).1
    rcases h6 with ⟨-, rfl⟩ | ⟨hl, hk⟩
    · exact absurd (by simp [zeroTPR, zeroTS, TS.assign]) hG
    have hR : (0:ℝ) < Rgas * T := mul_pos (by norm_num [Rgas]) hT
    have e1 : t.lnK.err = t.G.err / (8.31451 * T) := by
      rw [hl, divR_err _ _ fun h0 => absurd h0 hG, abs_div, abs_of_nonneg hpos, abs_neg, abs_of_pos hR]
      norm_num [Rgas]
    have hlv : t.lnK.val ≠ 0 := by
      rw [hl, TS.op_val_divR]
      exact div_ne_zero hG (neg_ne_zero.mpr hR.ne')
    refine ⟨e1, ?_⟩
    rw [hk, mulR_err _ _ fun h0 => absurd h0 hlv, e1, abs_of_nonneg]
    · norm_num [lnToLg]
    · refine mul_nonneg (by norm_num [lnToLg]) (div_nonneg hpos (by positivity))

/-! ### Substances defined by a reaction -/

lemma subtractOthers_err {env : Env PS EPS} {n : Nat} {T P : ℝ} {own : String} (l : List (String × ℝ)) (t u : TPS) (s : ESt PS EPS)
    (h : (subtractOthers (run env n) T P own l t s).1 = .ok u) :
    ∃ ts s', Asked env n T P s (others own l) ts s' ∧ ∀ p ∈ allProps, ErrOf (others own l) ts p.2 (p.2 t) (p.2 u) := by
  induction l generalizing t s with
  | nil =>
    have hu : t = u := by injection h
    subst hu
    exact ⟨[], s, .nil s, fun p _ => .nil⟩
  | cons e l ih =>
    obtain ⟨y, c⟩ := e
    unfold subtractOthers at h
    split at h
    · rename_i hy
      obtain ⟨ty, hty, h⟩ := EM.of_bind_ok h
      obtain ⟨ts, s', h1, h2⟩ := ih _ _ h
      have e1 : others own ((y, c) :: l) = (y, c) :: others own l := by simp [others, hy]
      rw [e1]
      refine ⟨ty :: ts, s', .cons (Prod.ext hty rfl) h1, fun p hp => ?_⟩
      have h3 := h2 p hp
      simp only [allProps, List.mem_cons, List.not_mem_nil, or_false] at hp
      rcases hp with rfl | rfl | rfl | rfl | rfl | rfl | rfl | rfl <;> exact h3.consSub
    · rename_i hy
      have hy := not_not.mp hy
      have e1 : others own ((y, c) :: l) = others own l := by simp [others, hy]
      rw [e1]
      exact ih _ _ h

lemma divAll_err {p : (TPR → TS) × (TPS → TS)} (hp : p ∈ allProps) (t : TPS) (c : ℝ) (h : (p.2 t).val ≠ 0) :
    (p.2 (divAll t c)).err = |(p.2 t).err / c| := by
  simp only [allProps, List.mem_cons, List.not_mem_nil, or_false] at hp
  rcases hp with rfl | rfl | rfl | rfl | rfl | rfl | rfl | rfl <;> exact divR_err _ _ fun h0 => absurd h0 h

lemma ofReaction_err {p : (TPR → TS) × (TPS → TS)} (hp : p ∈ allProps) (t : TPR) : (p.2 (ofReaction t)).err = (p.1 t).err := by
  simp only [allProps, List.mem_cons, List.not_mem_nil, or_false] at hp
  rcases hp with rfl | rfl | rfl | rfl | rfl | rfl | rfl | rfl <;> rfl

/-- **C167 (partial)** A substance that is defined by a reaction, with the stoichiometric coefficient c: the square of c times its
uncertainty is the square of the uncertainty of the reaction plus those of coefficient times uncertainty of the other species - for
every property that is not 0 and for which no other species has the value 0 with an uncertainty, under the conditions of C44. -/
theorem C167_defined_partial {env : Env PS EPS} {n : Nat} {T P c : ℝ} {x : Subst} {re : Reac} (hd : DefinedBy env x re)
    (hx : re.reactants.lookup x.symbol = some c) (hc0 : c ≠ 0)
    (hc : x.mP ≠ .CON ∨ (re.mP ≠ .OFF ∧ re.mP ≠ .unset)) (hfb : env.fallback = false) {s : ESt PS EPS} {q : Query}
    (hq : ComputesSub env s T P x q) {t : TPS} (h : (ask env (n + 1) q s).1 = .ok (.sub t)) :
    ∃ s0 s1 s2 tpr ts, s0.pcorr = true ∧ s0.subC = s.subC ∧ s0.reacC = s.reacC ∧
      (run env n).reac T P x.reactionSymbol s0 = (.ok tpr, s1) ∧ Asked env n T P s1 (others x.symbol re.reactants) ts s2 ∧
      ∀ p ∈ [(TPR.Cp, TPS.Cp), (TPR.G, TPS.G), (TPR.H, TPS.H), (TPR.S, TPS.S), (TPR.V, TPS.V), (TPR.Cv, TPS.Cv), (TPR.U, TPS.U),
        (TPR.A, TPS.A)], (p.2 t).val ≠ 0 → 0 ≤ (p.1 tpr).err → (∀ y ∈ ts, (p.2 y).val = 0 → (p.2 y).err = 0) →
        0 ≤ (p.2 t).err ∧ (c * (p.2 t).err) ^ 2 = (p.1 tpr).err ^ 2 +
          (((others x.symbol re.reactants).zip ts).map fun e => (e.1.2 * (p.2 e.2).err) ^ 2).sum := by
  have h := hq.val h
  have hdc : x.isReacDC = true := by
    rcases hd.dc with h | h <;> simp [Subst.isReacDC, Subst.noMethods, h]
  obtain ⟨_, _, h⟩ := EM.of_bind_ok h
  have hs1 : (setPrefs env x s).2.subC = s.subC := by
    simp only [setPrefs, EM.change]
    split
    · split <;> rfl
    · rfl
  have hs2 : (setPrefs env x s).2.reacC = s.reacC := by
    simp only [setPrefs, EM.change]
    split
    · split <;> rfl
    · rfl
  generalize (setPrefs env x s).2 = s0 at h hs1 hs2
  rw [if_neg hd.notH] at h
  obtain ⟨t1, ht1, h⟩ := EM.of_bind_ok h
  have e0 : fallback env.fallback t1 x = t := by injection h
  rw [hfb] at e0
  have e0 : t1 = t := e0
  subst e0
  rw [if_pos hdc] at ht1
  obtain ⟨_, _, h⟩ := EM.of_bind_ok ht1
  rw [if_pos hd.name] at h
  obtain ⟨re', hre, h⟩ := EM.of_bind_ok h
  have e1 : re = re' := by
    unfold getReac at hre
    rw [hd.found] at hre
    injection hre
  subst e1
  have hs : ∀ s, (getReac env x.reactionSymbol s).2 = s := fun s => by unfold getReac; rw [hd.found]; rfl
  rw [hs] at h
  obtain ⟨tpr, htpr, h⟩ := EM.of_bind_ok h
  obtain ⟨u, hu, h⟩ := EM.of_bind_ok h
  obtain ⟨_, _, h⟩ := EM.of_bind_ok h
  simp only at h
  rw [if_neg (by rintro ⟨h1, h2⟩; rcases hc with h | ⟨h, h'⟩; exacts [h h1, h2.elim h h'])] at h
  have e2 : divAll u ((re.reactants.lookup x.symbol).getD 0) = t1 := by injection h
  rw [hx] at e2
  simp only [Option.getD_some] at e2
  obtain ⟨ts, s2, h1, h2⟩ := subtractOthers_err _ _ _ _ hu
  refine ⟨{ s0 with pcorr := true }, _, s2, tpr, ts, rfl, hs1, hs2, Prod.ext htpr rfl, h1, fun p hp hv h0 hz => ?_⟩
  have hv' : (p.2 u).val ≠ 0 := by
    rw [← e2, divAll_val hp] at hv
    exact fun h => hv (by rw [h]; simp)
  obtain ⟨_, h4⟩ := h2 p hp hz (by rw [ofReaction_err hp]; exact h0)
  rw [← e2, divAll_err hp u c hv']
  refine ⟨abs_nonneg _, ?_⟩
  rw [mul_pow, sq_abs, ← mul_pow, mul_div_cancel₀ _ hc0, h4, ofReaction_err hp]
  rfl

/-! ### Engines with uncertainties -/

/-- A value with an uncertainty, as read from a record. -/
noncomputable def unc (v e : ℝ) : TS := ⟨v, 0, 0, e, .assigned⟩

/-- Reference properties with G = g ± e. -/
noncomputable def refU (g e : ℝ) : TPS := { refGV g 1 with G := unc g e }

/-- A record that carries its reference properties only. -/
noncomputable def recSub (sym : String) (t : TPS) : Subst := { conSub sym 0 with ref := t }

lemma substRec_rec (subs : List Subst) (reacs : List Reac) (r : Rec Unit Unit) (T P : ℝ) (y : String) (t : TPS) (hy : y ≠ "H+")
    (s : ESt Unit Unit) : substRec (exEnv subs reacs) r T P (recSub y t) s = (.ok t, { s with solventState := 0 }) := by
  have e : substRec (exEnv subs reacs) r T P (recSub y t) s = (if y = "H+" then pure zeroTPS else
    (methodsStep (exEnv subs reacs) r T P (recSub y t) >>= fun u => pure (fallback false u (recSub y t))) : EM Unit Unit TPS)
      { s with solventState := 0 } := rfl
  rw [e, if_neg hy]
  have e2 : methodsStep (exEnv subs reacs) r T P (recSub y t) = pure t := by
    have : methodsStep (exEnv subs reacs) r T P (recSub y t) = (convStep (exEnv subs reacs) (recSub y t) t) := rfl
    rw [this, conv_no]
  rw [e2]
  rfl

/-- Two records and the reaction A = B, computed from them. -/
noncomputable def exUnc (a b : TPS) : Env Unit Unit := exEnv [recSub "A" a, recSub "B" b] [fromR "r" [("A", -1), ("B", 1)]]

lemma exUnc_asked (a b : TPS) (n : Nat) (T P c d : ℝ) (s : ESt Unit Unit) (hs : s.subC = ⟨[], []⟩) :
    ∃ s', Asked (exUnc a b) (n + 1) T P s [("A", c), ("B", d)] [a, b] s' := by
  refine ⟨_, .cons (run_miss (v := recSub "A" a) rfl ?_ ?_ (substRec_rec _ _ _ T P "A" a (by decide) s))
    (.cons (run_miss (v := recSub "B" b) rfl ?_ ?_ (substRec_rec _ _ _ T P "B" b (by decide) _)) (.nil _))⟩
  · rw [hs]; simp
  · rw [hs]; rfl
  · simp only [remember]
    refine lt_of_le_of_lt length_insert ?_
    rw [hs]; simp
  · simp only [remember]
    refine find_insert_ne (key_ne (by decide)) ?_
    rw [hs]; rfl

lemma exUnc_ask (a b : TPS) (n : Nat) (T P : ℝ) : (ask (exUnc a b) (n + 1) (.fromR T P "r") ESt.init).1 =
    .ok (.reac (addScaled T (addScaled T zeroTPR a (-1)) b 1)) := by
  have e : ask (exUnc a b) (n + 1) (.fromR T P "r") =
    (reacFromReactants (exUnc a b) (run (exUnc a b) (n + 1)) T P (fromR "r" [("A", -1), ("B", 1)]) >>= fun t => pure (.reac t)) := rfl
  obtain ⟨s', h⟩ := exUnc_asked a b n T P (-1) 1 { (ESt.init : ESt Unit Unit) with pcorr := true } rfl
  have e2 := fromReactants_run (env := exUnc a b) (x := fromR "r" [("A", -1), ("B", 1)]) (s := ESt.init) h (by
      intro e he
      simp only [fromR, List.mem_cons, List.not_mem_nil, or_false] at he
      rcases he with rfl | rfl
      · exact ⟨recSub "A" a, rfl, Or.inl rfl⟩
      · exact ⟨recSub "B" b, rfl, Or.inl rfl⟩)
  rw [e, EM.bind_of_ok (congrArg Prod.fst e2)]
  rfl

/-- 2 ± 3 and 7 ± 4: the reaction has 5 ± 5. -/
example : FromSpecies (exUnc (refU 2 3) (refU 7 4)) 300 1e5 (fromR "r" [("A", -1), ("B", 1)]) (.fromR 300 1e5 "r") ∧
    ∃ t, (ask (exUnc (refU 2 3) (refU 7 4)) 1 (.fromR 300 1e5 "r") ESt.init).1 = .ok (.reac t) ∧ t.G.val = 5 ∧ t.G.err = 5 := by
  refine ⟨.name "r" rfl, _, exUnc_ask _ _ 0 300 1e5, ?_, ?_⟩
  · simp [addScaled, zeroTPR, zeroTS, TS.assign, refU, unc]
    norm_num
  · simp only [addScaled, TS.addAssign]
    rw [mulR_err _ _ (by simp [refU, unc]), mulR_err _ _ (by simp [refU, unc])]
    simp only [zeroTPR, zeroTS, TS.assign, TS.default, refU, unc]
    rw [show (0:ℝ) * 0 + |(-1:ℝ) * 3| * |(-1:ℝ) * 3| = 3 ^ 2 by norm_num, Real.sqrt_sq (by norm_num),
      show (3:ℝ) * 3 + |(1:ℝ) * 4| * |(1:ℝ) * 4| = 5 ^ 2 by norm_num, Real.sqrt_sq (by norm_num)]

/-- **C167** is violated by a species whose value is 0 with an uncertainty (a record of the kind `0 ± 1`, as an element or a reference ion
may have): multiplying by the coefficient drops the uncertainty, because it is computed from the relative one.  A = B with
G(A) = 0 ± 3 and G(B) = 7 ± 4 is reported as 7 ± 4, instead of ± 5. -/
theorem C167_zero_refuted : ∃ (env : Env Unit Unit) (x : Reac) (q : Query) (t : TPR), FromSpecies env 300 1e5 x q ∧
    (ask env 1 q ESt.init).1 = .ok (.reac t) ∧ t.G.err = 4 ∧ ∀ ts s', Asked env 1 300 1e5 { ESt.init with pcorr := true } x.reactants ts s' →
      ((x.reactants.zip ts).map fun e => (e.1.2 * e.2.G.err) ^ 2).sum = 25 := by
  refine ⟨exUnc (refU 0 3) (refU 7 4), fromR "r" [("A", -1), ("B", 1)], .fromR 300 1e5 "r", _, .name "r" rfl, exUnc_ask _ _ 0 300 1e5,
    ?_, fun ts s' hts => ?_⟩
  · simp only [addScaled, TS.addAssign]
    rw [mulR_err_zero _ _ (by simp [refU, unc]), mulR_err _ _ (by simp [refU, unc])]
    simp only [zeroTPR, zeroTS, TS.assign, TS.default, refU, unc]
    rw [show (0:ℝ) * 0 + 0 * 0 = 0 by norm_num, Real.sqrt_zero,
      show (0:ℝ) * 0 + |(1:ℝ) * 4| * |(1:ℝ) * 4| = 4 ^ 2 by norm_num, Real.sqrt_sq (by norm_num)]
  · obtain ⟨_, e⟩ := exUnc_asked (refU 0 3) (refU 7 4) 0 300 1e5 (-1) 1 { (ESt.init : ESt Unit Unit) with pcorr := true } rfl
    have := hts.unique e
    subst this
    simp [fromR, refU, unc]
    norm_num

/-- **C167** is violated at equilibrium: for A = B with G(A) = 7 ± 3 and G(B) = 7 ± 4 the engine gives ΔG = 0 ± 5 and ln K = 0 and
log K = 0 without any uncertainty. -/
theorem C167_equilibrium_refuted : ∃ (env : Env Unit Unit) (x : Reac) (q : Query) (t : TPR), FromSpecies env 300 1e5 x q ∧
    (ask env 1 q ESt.init).1 = .ok (.reac t) ∧ t.G.val = 0 ∧ t.G.err = 5 ∧ t.lnK.err = 0 ∧ t.logK.err = 0 := by
  have hv : (addScaled 300 (addScaled 300 zeroTPR (refU 7 3) (-1)) (refU 7 4) 1).G.val = 0 := by
    simp [addScaled, zeroTPR, zeroTS, TS.assign, refU, unc]
  have hl : (addScaled 300 (addScaled 300 zeroTPR (refU 7 3) (-1)) (refU 7 4) 1).lnK.val = 0 := by
    have : (addScaled 300 (addScaled 300 zeroTPR (refU 7 3) (-1)) (refU 7 4) 1).lnK.val =
      (addScaled 300 (addScaled 300 zeroTPR (refU 7 3) (-1)) (refU 7 4) 1).G.val / (-(Rgas * 300)) := TS.op_val_divR _ _
    rw [this, hv, zero_div]
  refine ⟨exUnc (refU 7 3) (refU 7 4), fromR "r" [("A", -1), ("B", 1)], .fromR 300 1e5 "r", _, .name "r" rfl, exUnc_ask _ _ 0 300 1e5,
    hv, ?_, divR_err_zero _ _ hv, mulR_err_zero _ _ hl⟩
  simp only [addScaled, TS.addAssign]
  rw [mulR_err _ _ (by simp [refU, unc]), mulR_err _ _ (by simp [refU, unc])]
  simp only [zeroTPR, zeroTS, TS.assign, TS.default, refU, unc]
  rw [show (0:ℝ) * 0 + |(-1:ℝ) * 3| * |(-1:ℝ) * 3| = 3 ^ 2 by norm_num, Real.sqrt_sq (by norm_num),
    show (3:ℝ) * 3 + |(1:ℝ) * 4| * |(1:ℝ) * 4| = 5 ^ 2 by norm_num, Real.sqrt_sq (by norm_num)]

/-! ### The reaction that defines a substance -/

/-- Properties of a reaction: G = 3 ± 1, the rest 0. -/
noncomputable def exClT : TPR := { zeroTPR with G := unc 3 1 }

/-- The reaction A = X with G = 3 ± 1 from its record. -/
noncomputable def exClR : Reac := ⟨"r", [("A", -1), ("X", 1)], 298.15, 1e5, .CON, .unset, .unset, exClT, {}⟩

/-- A with G = 2 ± 2, X defined by the reaction above, and the same reaction computed from the species. -/
noncomputable def exCl : Env Unit Unit := exEnv [recSub "A" (refU 2 2), dcSub "X" "r"] [exClR, fromR "q" [("A", -1), ("X", 1)]]

/-- What the engine gives for X. -/
noncomputable def exClX : TPS := divAll (subScaled (ofReaction exClT) (refU 2 2) (-1)) 1

lemma exCl_reac (n : Nat) (s : ESt Unit Unit) (hr : s.reacC = ⟨[], []⟩) : ∃ s1, s1.subC = s.subC ∧
    (run exCl (n + 1)).reac 300 1e5 "r" s = (.ok exClT, s1) := by
  have e := cached_miss (env := exCl) (get := ESt.reacC) (set := fun c s => { s with reacC := c }) (k := ⟨300, 1e5, "r"⟩) (s := s)
    (s' := s) (m := reacSym exCl (run exCl n) 300 1e5 "r") (v := exClT) (fun _ => rfl)
    (by rw [hr]; simp [exCl, exEnv]) rfl (by rw [hr]; rfl) rfl
  refine ⟨_, ?_, e⟩
  rfl

lemma exCl_X (s : ESt Unit Unit) (hr : s.reacC = ⟨[], []⟩) {s1 s2 : ESt Unit Unit}
    (h2 : (run exCl 1).reac 300 1e5 "r" { (setPrefs exCl (dcSub "X" "r") s).2 with pcorr := true } =
      (.ok exClT, s1)) (h3 : Asked exCl 1 300 1e5 s1 [("A", -1)] [refU 2 2] s2) :
    substRec exCl (run exCl 1) 300 1e5 (dcSub "X" "r") s = (.ok exClX, { s2 with pcorr := false }) := by
  have ef : (exClR.reactants.filter fun e => e.1 ≠ (dcSub "X" "r").symbol) = [("A", -1)] := by simp [exClR, dcSub]
  have e := substRec_dc_run (env := exCl) (n := 1) (T := 300) (P := 1e5) (x := dcSub "X" "r") (s := s)
    (re := exClR) (tpr := exClT) (ts := [refU 2 2]) (s1 := s1) (s2 := s2)
    (by show "X" ≠ "H+"; decide) rfl (by show "r" ≠ ""; decide) rfl h2 (by rw [ef]; exact h3) rfl (fun t => rfl)
  rw [ef] at e
  rw [e]
  simp [dcSub, exClR, exClX]
  rfl

lemma exCl_asked : ∃ s', Asked exCl 2 300 1e5 { (ESt.init : ESt Unit Unit) with pcorr := true } [("A", -1), ("X", 1)]
    [refU 2 2, exClX] s' := by
  have hA := run_miss (subs := [recSub "A" (refU 2 2), dcSub "X" "r"]) (reacs := [exClR, fromR "q" [("A", -1), ("X", 1)]]) (n := 1)
    (T := 300) (P := 1e5) (y := "A") (v := recSub "A" (refU 2 2)) rfl (by simp [ESt.init]) rfl
    (substRec_rec _ _ _ 300 1e5 "A" (refU 2 2) (by decide) { (ESt.init : ESt Unit Unit) with pcorr := true })
  generalize hsA : remember 300 1e5 "A" (refU 2 2) { { (ESt.init : ESt Unit Unit) with pcorr := true } with solventState := 0 } = sA at hA
  have hr : sA.reacC = ⟨[], []⟩ := by rw [← hsA]; rfl
  have hf : sA.subC.find ⟨300, 1e5, "A"⟩ = some (refU 2 2) := by rw [← hsA]; exact find_insert
  have hx : sA.subC.find ⟨300, 1e5, "X"⟩ = none := by
    rw [← hsA]; exact find_insert_ne (key_ne (by decide)) rfl
  have hl : sA.subC.entries.length < 1000000 := by
    rw [← hsA]; exact lt_of_le_of_lt length_insert (by simp [ESt.init])
  have hp : (setPrefs exCl (dcSub "X" "r") sA).2.subC = sA.subC ∧ (setPrefs exCl (dcSub "X" "r") sA).2.reacC = sA.reacC := by
    constructor <;> rfl
  obtain ⟨s1, h1, h2⟩ := exCl_reac 0 { (setPrefs exCl (dcSub "X" "r") sA).2 with pcorr := true } (hp.2.trans hr)
  have h1' : s1.subC = sA.subC := h1.trans hp.1
  have h3 : Asked exCl 1 300 1e5 s1 [("A", -1)] [refU 2 2] s1 :=
    .cons (run_hit (by rw [h1']; exact hl) (by rw [h1']; exact hf)) (.nil _)
  have hX := run_miss (subs := [recSub "A" (refU 2 2), dcSub "X" "r"]) (reacs := [exClR, fromR "q" [("A", -1), ("X", 1)]]) (n := 1)
    (T := 300) (P := 1e5) (y := "X") (v := dcSub "X" "r") rfl hl hx (exCl_X sA hr h2 h3)
  exact ⟨_, .cons hA (.cons hX (.nil _))⟩

lemma exCl_ask : (ask exCl 2 (.fromR 300 1e5 "q") ESt.init).1 =
    .ok (.reac (addScaled 300 (addScaled 300 zeroTPR (refU 2 2) (-1)) exClX 1)) := by
  have e : ask exCl 2 (.fromR 300 1e5 "q") =
    (reacFromReactants exCl (run exCl 2) 300 1e5 (fromR "q" [("A", -1), ("X", 1)]) >>= fun t => pure (.reac t)) := rfl
  obtain ⟨s', h⟩ := exCl_asked
  have e2 := fromReactants_run (env := exCl) (x := fromR "q" [("A", -1), ("X", 1)]) (s := ESt.init) h (by
      intro e he
      simp only [fromR, List.mem_cons, List.not_mem_nil, or_false] at he
      rcases he with rfl | rfl
      · exact ⟨recSub "A" (refU 2 2), rfl, Or.inl rfl⟩
      · exact ⟨dcSub "X" "r", rfl, Or.inr (by show "r" ≠ "q"; decide)⟩)
  rw [e, EM.bind_of_ok (congrArg Prod.fst e2)]
  rfl

lemma exClX_G : exClX.G.val = 5 ∧ exClX.G.err ^ 2 = 5 := by
  have hv : (subScaled (ofReaction exClT) (refU 2 2) (-1)).G.val = 5 := by
    simp [subScaled, ofReaction, exClT, refU, unc]; norm_num
  have e : exClX.G = (subScaled (ofReaction exClT) (refU 2 2) (-1)).G / (1:ℝ) := rfl
  refine ⟨by rw [e, TS.op_val_divR, hv]; norm_num, ?_⟩
  rw [e, divR_err _ _ fun h => by rw [hv] at h; norm_num at h, div_one, sq_abs]
  simp only [subScaled, TS.subAssign]
  rw [mulR_err _ _ (by simp [refU, unc])]
  simp only [ofReaction, exClT, refU, unc]
  rw [Real.sq_sqrt (by positivity)]
  norm_num

/-- X of the example: a definition, and a result with the uncertainty √(1² + 2²). -/
example : DefinedBy exCl (dcSub "X" "r") exClR ∧ exClR.reactants.lookup (dcSub "X" "r").symbol = some 1 ∧
    (dcSub "X" "r").mP ≠ .CON ∧ exCl.fallback = false ∧ ComputesSub exCl ESt.init 300 1e5 (dcSub "X" "r") (.subRec 300 1e5 (dcSub "X" "r")) ∧
    ∃ t, (ask exCl 2 (.subRec 300 1e5 (dcSub "X" "r")) ESt.init).1 = .ok (.sub t) ∧ t.G.val = 5 ∧ t.G.err ^ 2 = 5 := by
  refine ⟨⟨by show "X" ≠ "H+"; decide, Or.inl rfl, by show "r" ≠ ""; decide, rfl⟩, rfl, by simp [dcSub], rfl, .record, exClX, ?_, exClX_G⟩
  obtain ⟨s1, h1, h2⟩ := exCl_reac 0 { (setPrefs exCl (dcSub "X" "r") ESt.init).2 with pcorr := true } rfl
  have hA := run_miss (subs := [recSub "A" (refU 2 2), dcSub "X" "r"]) (reacs := [exClR, fromR "q" [("A", -1), ("X", 1)]]) (n := 0)
    (T := 300) (P := 1e5) (y := "A") (v := recSub "A" (refU 2 2)) rfl (by rw [h1]; simp [setPrefs, ESt.init, EM.change, dcSub])
    (by rw [h1]; rfl) (substRec_rec _ _ _ 300 1e5 "A" (refU 2 2) (by decide) s1)
  have e := exCl_X ESt.init rfl h2 (.cons hA (.nil _))
  have e2 : ask exCl 2 (.subRec 300 1e5 (dcSub "X" "r")) =
    (substRec exCl (run exCl 1) 300 1e5 (dcSub "X" "r") >>= fun t => pure (.sub t)) := rfl
  rw [e2, EM.bind_of_ok (congrArg Prod.fst e)]
  rfl

/-- **C167** is violated for the reaction that defines a substance: A = X has G = 3 ± 1 in its record, A has 2 ± 2 and X is defined by
the reaction.  Computed from its species, the same reaction has the recorded value 3 again, but the uncertainty 3: that of A is
counted twice, although it cancels, because the uncertainties are taken to be independent. -/
theorem C167_closing_refuted : ∃ (env : Env Unit Unit) (X : Subst) (re x : Reac) (q : Query) (t : TPR), DefinedBy env X re ∧
    re.reactants.lookup X.symbol = some 1 ∧ x.reactants = re.reactants ∧ FromSpecies env 300 1e5 x q ∧
    (∃ s1, (run env 1).reac 300 1e5 X.reactionSymbol ESt.init = (.ok re.ref, s1)) ∧ re.ref.G.val = 3 ∧ re.ref.G.err = 1 ∧
    (ask env 2 q ESt.init).1 = .ok (.reac t) ∧ t.G.val = 3 ∧ t.G.err = 3 := by
  obtain ⟨s1, -, h1⟩ := exCl_reac 0 ESt.init rfl
  refine ⟨exCl, dcSub "X" "r", exClR, fromR "q" [("A", -1), ("X", 1)], .fromR 300 1e5 "q", _,
    ⟨by show "X" ≠ "H+"; decide, Or.inl rfl, by show "r" ≠ ""; decide, rfl⟩, rfl, rfl, .name "q" rfl, ⟨s1, h1⟩, rfl, rfl, exCl_ask, ?_, ?_⟩
  · have := exClX_G.1
    simp [addScaled, zeroTPR, zeroTS, TS.assign, refU, unc, this]
    norm_num
  · simp only [addScaled, TS.addAssign]
    rw [mulR_err _ _ (by simp [refU, unc]), mulR_err _ _ (by rw [exClX_G.1]; norm_num), one_mul, ← pow_two |exClX.G.err|, sq_abs,
      exClX_G.2]
    simp only [zeroTPR, zeroTS, TS.assign, TS.default, refU, unc]
    rw [show (0:ℝ) * 0 + |(-1:ℝ) * 2| * |(-1:ℝ) * 2| = 2 ^ 2 by norm_num, Real.sqrt_sq (by norm_num),
      show (2:ℝ) * 2 + 5 = 3 ^ 2 by norm_num, Real.sqrt_sq (by norm_num)]

end ThermoFun.Engine
