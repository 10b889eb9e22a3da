import Verif.Props.Minerals
import Verif.Props.Equation

/-!
# Reactions asked for by their equation

Theorems about /repo/ThermoFun/ThermoEngine.cpp:657-668 with Reaction.cpp:101-146, as modelled in Model/Engine.lean and Model/Equation.lean: what
the engine answers for the text of an equation is what the equation says (C157).
-/

namespace ThermoFun.Engine

open Equation

variable {PS EPS : Type}

/-! ### Specification -/

/-- The text of an equation. -/
def eqText (l r : Side) : String := String.ofList (l.text ++ '=' :: r.text)

/-- A property of the products minus that of the reactants, each times its coefficient. -/
noncomputable def overEquation (l r : Side) (g : String → ℝ) : ℝ :=
  (r.terms.map fun t => (t.value : ℝ) * g (String.ofList t.name)).sum - (l.terms.map fun t => (t.value : ℝ) * g (String.ofList t.name)).sum

/-- The species of an equation with their signed coefficients. -/
def signed (l r : Side) : List (List Char × ℚ) := (l.terms.map fun t => (t.name, -t.value)) ++ r.terms.map fun t => (t.name, t.value)

/-! ### Lemmas -/

lemma assign_perm : ∀ (m : RMap) (n : List Char) (x : ℚ), n ∉ m.map Prod.fst → (m.assign n x).Perm ((n, x) :: m)
  | [], n, x, _ => List.Perm.refl _
  | (k, y) :: t, n, x, h => by
    simp only [List.map_cons, List.mem_cons, not_or] at h
    unfold RMap.assign
    rw [if_neg (Ne.symm h.1)]
    split
    · exact List.Perm.refl _
    · exact ((assign_perm t n x h.2).cons (k, y)).trans (List.Perm.swap _ _ _)

lemma foldl_assign_perm : ∀ (o m : RMap), ((o ++ m).map Prod.fst).Nodup → (o.foldl (fun m p => m.assign p.1 p.2) m).Perm (o ++ m)
  | [], m, _ => List.Perm.refl _
  | p :: o, m, h => by
    rw [List.foldl_cons]
    rw [List.cons_append, List.map_cons, List.nodup_cons, List.map_append, List.mem_append, not_or] at h
    have hp := assign_perm m p.1 p.2 h.1.2
    have hperm : (o ++ m.assign p.1 p.2).Perm (p :: o ++ m) := (hp.append_left o).trans List.perm_middle
    refine (foldl_assign_perm o (m.assign p.1 p.2) ?_).trans hperm
    refine ((hperm.map Prod.fst).nodup_iff).2 ?_
    rw [List.cons_append, List.map_cons, List.nodup_cons, List.map_append, List.mem_append, not_or]
    exact h

lemma overEquation_eq (l r : Side) (g : String → ℝ) : overEquation l r g = ((signed l r).map fun p => (p.2 : ℝ) * g (String.ofList p.1)).sum := by
  unfold overEquation signed
  rw [List.map_append, List.sum_append, List.map_map, List.map_map]
  have : ∀ ts : List Term, (ts.map ((fun p : List Char × ℚ => (p.2 : ℝ) * g (String.ofList p.1)) ∘ fun t => (t.name, -t.value))).sum =
      -(ts.map fun t => (t.value : ℝ) * g (String.ofList t.name)).sum := by
    intro ts
    induction ts with
    | nil => simp
    | cons t ts ih =>
      simp only [List.map_cons, List.sum_cons, ih, Function.comp, Rat.cast_neg]
      ring
  rw [this]
  simp only [Function.comp_def]
  ring

/-- The record the engine makes of an equation. -/
noncomputable def recordOf (sym : String) (m : RMap) : Reac :=
  ⟨sym, m.map fun e => (String.ofList e.1, (e.2 : ℝ)), 298.15, 1e5, .unset, .unset, .unset, TPR.default, {}⟩

lemma cached_first {K V : Type} [DecidableEq K] {env : Env PS EPS} {get : ESt PS EPS → Cache K V} {set : Cache K V → ESt PS EPS → ESt PS EPS} {k : K}
    {m : EM PS EPS V} {s : ESt PS EPS} (hset : ∀ s, set (get s) s = s) (he : get s = ⟨[], []⟩) : (cached env get set k m s).1 = (m s).1 := by
  have hev : Cache.evict env.maxCache (get s) = get s := by
    rw [he]
    unfold Cache.evict
    split <;> rfl
  unfold cached
  split
  · simp only [hev, hset]
    rw [show (get s).find k = none by rw [he]; rfl]
    rcases h : m s with ⟨a | _ | _ | _, s'⟩ <;> rfl
  · rfl

/-- Asked for by an equation that is not a symbol, the engine answers for the record it makes of the equation. -/
lemma answer_equation {env : Env PS EPS} {N : Nat} {T P : ℝ} {x : String} {m : RMap} (hs : env.db.reacs.lookup x = none) (he : x.toList.contains '=' = true)
    (hm : fromEquation x.toList [] = .ok m) : answer env (N + 1) (.reac T P x) = answer env N (.reacRec T P (recordOf x m)) := by
  have e1 : ((run env (N + 1)).reac T P x ESt.init).1 = (reacRec env (run env N) T P (recordOf x m) ESt.init).1 := by
    show (cached env ESt.reacC (fun c s => { s with reacC := c }) ⟨T, P, x⟩ (reacSym env (run env N) T P x) ESt.init).1 = _
    rw [cached_first (fun _ => rfl) rfl]
    unfold reacSym
    rw [if_pos ⟨by rw [hs]; rfl, he⟩]
    have : ofEquation (PS := PS) (EPS := EPS) x = pure (recordOf x m) := by
      unfold ofEquation
      rw [hm]
      rfl
    rw [this]
    rfl
  show (EM.bind ((run env (N + 1)).reac T P x) (fun t => pure (Answer.reac t)) ESt.init).1 =
    (EM.bind (reacRec env (run env N) T P (recordOf x m)) (fun t => pure (Answer.reac t)) ESt.init).1
  unfold EM.bind
  rcases h1 : (run env (N + 1)).reac T P x ESt.init with ⟨a, s1⟩
  rcases h2 : reacRec env (run env N) T P (recordOf x m) ESt.init with ⟨b, s2⟩
  rw [h1, h2] at e1
  simp only at e1
  subst e1
  cases a <;> rfl

lemma Regular.mono {env : Env PS EPS} {N M : Nat} (h : Regular env N) (hM : N ≤ M) : Regular env M := by
  obtain ⟨rk, R, h1, h2, h3⟩ := h.ranked
  exact ⟨h.water, h.noGas, rk, R, h1, h2, le_trans h3 hM⟩

/-- The properties of a reaction made of an equation. -/
lemma answer_record {env : Env PS EPS} {N K : Nat} (h : Regular env N) {T P : ℝ} {x : String} {m : RMap} (hs : env.db.reacs.lookup x = none)
    (he : x.toList.contains '=' = true) (hm : fromEquation x.toList [] = .ok m) {qs : List Query} (hqs : ∀ q ∈ qs, NoGasQuery q) {f : String → TPS}
    (hf : ∀ e ∈ m, (∃ v, env.db.subs.lookup (String.ofList e.1) = some v ∧ v.reactionSymbol ≠ x) ∧
      answer env N (.sub T P (String.ofList e.1)) = .ok (.sub (f (String.ofList e.1)))) :
    ∃ t, (ask env (N + 1) (.reac T P x) (after env K ESt.init qs)).1 = .ok (.reac t) ∧
      (∀ p ∈ summed, (p.1 t).val = (m.map fun e => (e.2 : ℝ) * (p.2 (f (String.ofList e.1))).val).sum) ∧
      t.lnK.val = -t.G.val / (8.31451 * T) ∧ t.logK.val = 0.434294481 * t.lnK.val := by
  have hq : FromSpecies env T P (recordOf x m) (.reacRec T P (recordOf x m)) := .noMethods ⟨rfl, rfl, rfl⟩
  have hmem : ∀ e ∈ (recordOf x m).reactants, ∃ e' ∈ m, e.1 = String.ofList e'.1 := by
    intro e he
    obtain ⟨e', h1, h2⟩ := List.mem_map.1 he
    exact ⟨e', h1, by rw [← h2]⟩
  obtain ⟨t, ht⟩ := C109_answers (K := 0) h hq (qs := []) (by simp) (f := f) (fun e he => by
    obtain ⟨e', h1, h2⟩ := hmem e he
    obtain ⟨⟨v, hv, hn⟩, ha⟩ := hf e' h1
    rw [h2]
    exact ⟨⟨v, hv, fun hc => hn hc.2⟩, ha⟩)
  have hsum := C109_sum (K := 0) h hq (qs := []) (by simp) ht (f := f) (fun e he => by
    obtain ⟨e', h1, h2⟩ := hmem e he
    rw [h2]
    exact (hf e' h1).2)
  obtain ⟨-, -, -, -, -, hlog⟩ := C42_hess hq ht
  refine ⟨t, ?_, fun p hp => ?_, hsum.2, hlog⟩
  · rw [(h.mono (Nat.le_succ N)).ask_coh (q := .reac T P x) trivial trivial ((h.mono (Nat.le_succ N)).cohSt hqs), answer_equation hs he hm]
    exact ht
  · rw [hsum.1 p hp]
    show ((m.map fun e => (String.ofList e.1, (e.2 : ℝ))).map _).sum = _
    rw [List.map_map]
    rfl

lemma eqText_toList (l r : Side) : (eqText l r).toList = l.text ++ '=' :: r.text := by
  unfold eqText
  rw [String.toList_ofList]

/-! ### C157 -/

/-- **C157, the part that holds.**  Asked for a reaction by the text of its equation - which must not be the symbol of a reaction in the database -,
after whatever other queries, the engine answers if it answers for each of the species, and the G, H, S, Cp and V of the answer are those of the
products minus those of the reactants, each times its coefficient as it stands in the text; ln K = -G/(R T).  For every equation with any number of
distinct, admissible names, any decimal coefficients and any blanks.

Missing: species that occur twice and names that look like exponents, where it fails (below); gases (C84); U, A and Cv, where it fails as well (`C157_energy_refuted`). -/
theorem C157_partial {env : Env PS EPS} {N K : Nat} (h : Regular env N) (l r : Side) (hl : l.Ok) (hr : r.Ok)
    (hd : ((l.terms ++ r.terms).map Term.name).Nodup) (hs : env.db.reacs.lookup (eqText l r) = none) {T P : ℝ} {qs : List Query}
    (hqs : ∀ q ∈ qs, NoGasQuery q) {f : String → TPS}
    (hf : ∀ t ∈ l.terms ++ r.terms, (∃ v, env.db.subs.lookup (String.ofList t.name) = some v ∧ v.reactionSymbol ≠ eqText l r) ∧
      answer env N (.sub T P (String.ofList t.name)) = .ok (.sub (f (String.ofList t.name)))) :
    ∃ t, (ask env (N + 1) (.reac T P (eqText l r)) (after env K ESt.init qs)).1 = .ok (.reac t) ∧
      (∀ p ∈ summed, (p.1 t).val = overEquation l r fun y => (p.2 (f y)).val) ∧
      t.lnK.val = -t.G.val / (8.31451 * T) ∧ t.logK.val = 0.434294481 * t.lnK.val := by
  have hm : fromEquation (eqText l r).toList [] = .ok ((signed l r).foldl (fun m p => m.assign p.1 p.2) []) := by
    rw [eqText_toList]
    exact fromEquation_ok l r hl hr []
  have hnames : (signed l r).map Prod.fst = (l.terms ++ r.terms).map Term.name := by simp [signed, Function.comp_def]
  have hp := foldl_assign_perm (signed l r) [] (by rw [List.append_nil, hnames]; exact hd)
  rw [List.append_nil] at hp
  obtain ⟨t, h1, h2, h3⟩ := answer_record (K := K) h hs (by rw [eqText_toList]; simp) hm hqs (f := f) (fun e he => by
    have : e.1 ∈ (l.terms ++ r.terms).map Term.name := hnames ▸ List.mem_map_of_mem (hp.subset he)
    obtain ⟨t, ht, hn⟩ := List.mem_map.1 this
    rw [← hn]
    exact hf t ht)
  refine ⟨t, h1, fun p hp' => ?_, h3⟩
  rw [h2 p hp', overEquation_eq]
  exact (hp.map _).sum_eq

/-- **C157, another spelling, the reverse and multiples.**  If an equation has the species of another with `k` times their signed coefficients - in
any order, with other blanks, or with a coefficient written as 2, 2.0 or -2 on the other side -, the engine answers it with `k` times the
properties. -/
theorem C157_multiple {env : Env PS EPS} {N K K' : Nat} (h : Regular env N) (l r l' r' : Side) (hl : l.Ok) (hr : r.Ok) (hl' : l'.Ok) (hr' : r'.Ok)
    (hd : ((l.terms ++ r.terms).map Term.name).Nodup) (k : ℚ) (hk : (signed l' r').Perm ((signed l r).map fun p => (p.1, k * p.2)))
    (hs : env.db.reacs.lookup (eqText l r) = none) (hs' : env.db.reacs.lookup (eqText l' r') = none) {T P : ℝ} {qs qs' : List Query}
    (hqs : ∀ q ∈ qs, NoGasQuery q) (hqs' : ∀ q ∈ qs', NoGasQuery q) {f : String → TPS}
    (hf : ∀ t ∈ l.terms ++ r.terms, (∃ v, env.db.subs.lookup (String.ofList t.name) = some v ∧ v.reactionSymbol ≠ eqText l r ∧ v.reactionSymbol ≠ eqText l' r') ∧
      answer env N (.sub T P (String.ofList t.name)) = .ok (.sub (f (String.ofList t.name)))) :
    ∃ t t', (ask env (N + 1) (.reac T P (eqText l r)) (after env K ESt.init qs)).1 = .ok (.reac t) ∧
      (ask env (N + 1) (.reac T P (eqText l' r')) (after env K' ESt.init qs')).1 = .ok (.reac t') ∧
      t'.G.val = k * t.G.val ∧ t'.H.val = k * t.H.val ∧ t'.S.val = k * t.S.val ∧ t'.Cp.val = k * t.Cp.val ∧ t'.V.val = k * t.V.val ∧
      t'.lnK.val = k * t.lnK.val ∧ t'.logK.val = k * t.logK.val := by
  have hn : ∀ l r : Side, (signed l r).map Prod.fst = (l.terms ++ r.terms).map Term.name := fun l r => by simp [signed, Function.comp_def]
  have hnp : ((l'.terms ++ r'.terms).map Term.name).Perm ((l.terms ++ r.terms).map Term.name) := by
    rw [← hn, ← hn]
    refine (hk.map Prod.fst).trans ?_
    rw [List.map_map]
    exact List.Perm.refl _
  obtain ⟨t, h1, h2, h3, h4⟩ := C157_partial (K := K) h l r hl hr hd hs hqs (T := T) (P := P) (f := f) fun t ht => by
    obtain ⟨⟨v, a, b, _⟩, c⟩ := hf t ht
    exact ⟨⟨v, a, b⟩, c⟩
  obtain ⟨t', h1', h2', h3', h4'⟩ := C157_partial (K := K') h l' r' hl' hr' (hnp.nodup_iff.2 hd) hs' hqs' (T := T) (P := P) (f := f) fun t ht => by
    have : t.name ∈ (l.terms ++ r.terms).map Term.name := hnp.subset (List.mem_map_of_mem ht)
    obtain ⟨u, hu, he⟩ := List.mem_map.1 this
    rw [← he]
    obtain ⟨⟨v, a, _, b⟩, c⟩ := hf u hu
    exact ⟨⟨v, a, b⟩, c⟩
  have key : ∀ g : String → ℝ, overEquation l' r' g = k * overEquation l r g := by
    intro g
    rw [overEquation_eq, overEquation_eq, (hk.map _).sum_eq, List.map_map, ← List.sum_map_mul_left]
    congr 1
    refine List.map_congr_left fun p _ => ?_
    simp only [Function.comp, Rat.cast_mul]
    ring
  have hv : ∀ p ∈ summed, (p.1 t').val = k * (p.1 t).val := fun p hp => by rw [h2' p hp, h2 p hp, key]
  have hG : t'.G.val = k * t.G.val := hv (TPR.G, TPS.G) (by simp [summed])
  have hK : t'.lnK.val = k * t.lnK.val := by rw [h3', h3, hG]; ring
  exact ⟨t, t', h1, h1', hG, hv (TPR.H, TPS.H) (by simp [summed]), hv (TPR.S, TPS.S) (by simp [summed]), hv (TPR.Cp, TPS.Cp) (by simp [summed]),
    hv (TPR.V, TPS.V) (by simp [summed]), hK, by rw [h4', h4, hK]; ring⟩

/-! ### Examples and counterexamples -/

/-- Three substances of constant properties, with G = 2, 5 and 3, and water. -/
noncomputable def exEq : Env Unit Unit := exEnv [conSub "A" 2, conSub "B" 5, conSub "E1" 3, conSub "H2O@" 1] []

lemma exEq_regular : Regular exEq 4 := by
  refine regular_of_own rfl (fun y v h => ?_) le_rfl
  have := mem_of_lookup h
  simp only [exEq, exEnv, exDb, List.map_cons, List.map_nil, List.mem_cons, Prod.mk.injEq, List.not_mem_nil, or_false] at this
  rcases this with ⟨-, rfl⟩ | ⟨-, rfl⟩ | ⟨-, rfl⟩ | ⟨-, rfl⟩ <;> simp [NoGasModel, conSub, Subst.isReacDC, Subst.noMethods]

lemma exEq_answer {y : String} {g : ℝ} (hl : exEq.db.subs.lookup y = some (conSub y g)) (hy : y ≠ "H+") (T P : ℝ) :
    answer exEq 4 (.sub T P y) = .ok (.sub (refGV g 1)) := by
  have e := run_miss (n := 3) (T := T) (P := P) (y := y) (v := conSub y g) (s := ESt.init) hl (by simp [ESt.init]) rfl (substRec_con _ _ _ T P y g hy _)
  show (EM.bind ((run exEq 4).sub T P y) (fun t => pure (Answer.sub t)) ESt.init).1 = _
  unfold EM.bind
  rw [show (run exEq 4).sub T P y ESt.init = _ from e]
  rfl

/-- The Gibbs energies of the substances of the example. -/
noncomputable def exEqG (y : String) : TPS := refGV (if y = "A" then 2 else if y = "B" then 5 else 3) 1

/-- **C157 refuted.**  A species written twice counts once: the Gibbs energy of "A + A = B" is 5 - 2, not 5 - 2 * 2.  A coefficient before a name that
starts like an exponent swallows the name: "2 E1 = B" has the Gibbs energy of B, 5, not 5 - 2 * 3.  Neither is reported. -/
theorem C157_refuted (T P : ℝ) : ∃ t u : TPR,
    (ask exEq 5 (.reac T P "A + A = B") ESt.init).1 = .ok (.reac t) ∧ t.G.val = 3 ∧
    (ask exEq 5 (.reac T P "2 E1 = B") ESt.init).1 = .ok (.reac u) ∧ u.G.val = 5 ∧
    answer exEq 4 (.sub T P "A") = .ok (.sub (refGV 2 1)) ∧ answer exEq 4 (.sub T P "B") = .ok (.sub (refGV 5 1)) ∧
    answer exEq 4 (.sub T P "E1") = .ok (.sub (refGV 3 1)) := by
  have hA := exEq_answer (y := "A") (g := 2) rfl (by decide) T P
  have hB := exEq_answer (y := "B") (g := 5) rfl (by decide) T P
  have hE := exEq_answer (y := "E1") (g := 3) rfl (by decide) T P
  obtain ⟨t, h1, h2, -⟩ := answer_record (K := 0) exEq_regular (T := T) (P := P) (x := "A + A = B") (m := [(['A'], -1), (['B'], 1)]) rfl (by decide)
    (by decide +kernel) (qs := []) (by simp) (f := exEqG) (by
      intro e he
      simp only [List.mem_cons, List.not_mem_nil, or_false] at he
      rcases he with rfl | rfl
      · exact ⟨⟨_, rfl, by simp [conSub]⟩, hA⟩
      · exact ⟨⟨_, rfl, by simp [conSub]⟩, hB⟩)
  obtain ⟨u, g1, g2, -⟩ := answer_record (K := 0) exEq_regular (T := T) (P := P) (x := "2 E1 = B") (m := [(['B'], 1)]) rfl (by decide)
    (by decide +kernel) (qs := []) (by simp) (f := exEqG) (by
      intro e he
      simp only [List.mem_cons, List.not_mem_nil, or_false] at he
      subst he
      exact ⟨⟨_, rfl, by simp [conSub]⟩, hB⟩)
  refine ⟨t, u, h1, ?_, g1, ?_, hA, hB, hE⟩
  · rw [h2 (TPR.G, TPS.G) (by simp [summed])]
    have e1 : exEqG (String.ofList ['A']) = refGV 2 1 := by unfold exEqG; rw [if_pos (by decide)]
    have e2 : exEqG (String.ofList ['B']) = refGV 5 1 := by unfold exEqG; rw [if_neg (by decide), if_pos (by decide)]
    simp only [List.map_cons, List.map_nil, List.sum_cons, List.sum_nil, e1, e2, refGV, asg]
    norm_num
  · rw [g2 (TPR.G, TPS.G) (by simp [summed])]
    have e2 : exEqG (String.ofList ['B']) = refGV 5 1 := by unfold exEqG; rw [if_neg (by decide), if_pos (by decide)]
    simp only [List.map_cons, List.map_nil, List.sum_cons, List.sum_nil, e2, refGV, asg]
    norm_num

/-- "2 A = B" and its reverse "B = 2A", the second asked for after the first: G = 5 - 2 * 2, and minus that. -/
example (T P : ℝ) :
    let two : Term := ⟨some ⟨false, [2], none⟩, [' '], ['A']⟩
    let two' : Term := ⟨some ⟨false, [2], none⟩, [], ['A']⟩
    let b : Term := ⟨none, [], ['B']⟩
    let l : Side := ⟨[], two, [], [' ']⟩
    let r : Side := ⟨[' '], b, [], []⟩
    let l' : Side := ⟨[], b, [], [' ']⟩
    let r' : Side := ⟨[' '], two', [], []⟩
    eqText l r = "2 A = B" ∧ eqText l' r' = "B = 2A" ∧
    ∃ t t' : TPR, (ask exEq 5 (.reac T P (eqText l r)) ESt.init).1 = .ok (.reac t) ∧
      (ask exEq 5 (.reac T P (eqText l' r')) (after exEq 5 ESt.init [.reac T P (eqText l r)])).1 = .ok (.reac t') ∧
      t'.G.val = -t.G.val ∧ t'.logK.val = -t.logK.val := by
  intro two two' b l r l' r'
  have hnx : ¬ LooksLikeExponent ['A'] := by
    rintro ⟨e, d, r, he, _, h | h | h⟩ <;> injection h with h <;> subst h <;> revert he <;> decide
  have hA : two.Ok := ⟨⟨_, _, rfl, Or.inl (by decide)⟩, by decide, by simp [Blanks, two], by
    rintro c ⟨⟩
    exact ⟨Or.inl (by simp), by norm_num [Coef.value, digits], hnx⟩⟩
  have hA' : two'.Ok := ⟨⟨_, _, rfl, Or.inl (by decide)⟩, by decide, by simp [Blanks, two'], by
    rintro c ⟨⟩
    exact ⟨Or.inl (by simp), by norm_num [Coef.value, digits], hnx⟩⟩
  have hB : b.Ok := ⟨⟨_, _, rfl, Or.inl (by decide)⟩, by decide, by simp [Blanks, b], by simp [b]⟩
  have e1 : eqText l r = "2 A = B" := by decide +kernel
  have e2 : eqText l' r' = "B = 2A" := by decide +kernel
  refine ⟨e1, e2, ?_⟩
  obtain ⟨t, t', h1, h2, h3, -, -, -, -, -, h4⟩ := C157_multiple (K := 0) (K' := 5) exEq_regular l r l' r'
    ⟨by simp [Blanks, l], by simp [Blanks, l], by simp [Side.terms, l, hA], by simp [l]⟩
    ⟨by simp [Blanks, r], by simp [Blanks, r], by simp [Side.terms, r, hB], by simp [r]⟩
    ⟨by simp [Blanks, l'], by simp [Blanks, l'], by simp [Side.terms, l', hB], by simp [l']⟩
    ⟨by simp [Blanks, r'], by simp [Blanks, r'], by simp [Side.terms, r', hA'], by simp [r']⟩
    (by decide) (-1) (by
      have e3 : signed l r = [(['A'], -2), (['B'], 1)] := by simp [signed, Side.terms, l, r, two, b, Term.value, Coef.value, digits]
      have e4 : signed l' r' = [(['B'], -1), (['A'], 2)] := by simp [signed, Side.terms, l', r', two', b, Term.value, Coef.value, digits]
      rw [e3, e4]
      have : ([(['A'], -2), (['B'], 1)] : List (List Char × ℚ)).map (fun p => (p.1, -1 * p.2)) = [(['A'], 2), (['B'], -1)] := by norm_num
      rw [this]
      exact List.Perm.swap _ _ _)
    rfl rfl (T := T) (P := P) (qs := []) (qs' := [.reac T P (eqText l r)]) (by simp) (by simp [NoGasQuery]) (f := exEqG) (by
      intro t ht
      simp only [Side.terms, l, r, List.map_nil, List.cons_append, List.nil_append, List.mem_cons, List.not_mem_nil, or_false] at ht
      rcases ht with rfl | rfl
      · exact ⟨⟨_, rfl, by rw [e1]; simp [conSub], by rw [e2]; simp [conSub]⟩, exEq_answer (y := "A") (g := 2) rfl (by decide) T P⟩
      · exact ⟨⟨_, rfl, by rw [e1]; simp [conSub], by rw [e2]; simp [conSub]⟩, exEq_answer (y := "B") (g := 5) rfl (by decide) T P⟩)
  exact ⟨t, t', h1, h2, by rw [h3]; push_cast; ring, by rw [h4]; push_cast; ring⟩

end ThermoFun.Engine
