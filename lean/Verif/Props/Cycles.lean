import Verif.Props.ByEquation

/-!
# Cycles of reactions

Theorems about /repo/ThermoFun/ThermoEngine.cpp:583-668 as modelled in Model/Engine.lean: the properties of reactions that are computed from their
species add up as the reactions do (C162).
-/

namespace ThermoFun.Engine

open Equation

variable {PS EPS : Type}

/-! ### Specification -/

/-- The engine has answered `t` for a reaction of the species `c` with their coefficients (positive: products), computed from the species: asked for
as a record or symbol, or by the text of an equation of distinct species; after any other queries. -/
inductive Answered (env : Env PS EPS) (N : Nat) (T P : ℝ) : List (String × ℝ) → TPR → Prop
  | species {x : Reac} {q : Query} {K : Nat} {qs : List Query} {t : TPR} (hq : FromSpecies env T P x q) (hqs : ∀ q ∈ qs, NoGasQuery q)
      (ht : (ask env N q (after env K ESt.init qs)).1 = .ok (.reac t)) : Answered env N T P x.reactants t
  | equation {l r : Side} {K : Nat} {qs : List Query} {t : TPR} (hl : l.Ok) (hr : r.Ok) (hd : ((l.terms ++ r.terms).map Term.name).Nodup)
      (hs : env.db.reacs.lookup (eqText l r) = none) (hqs : ∀ q ∈ qs, NoGasQuery q)
      (ht : (ask env (N + 1) (.reac T P (eqText l r)) (after env K ESt.init qs)).1 = .ok (.reac t)) :
      Answered env N T P ((signed l r).map fun e => (String.ofList e.1, (e.2 : ℝ))) t

/-- The coefficient of a species in a reaction: the sum over its occurrences. -/
noncomputable def coefOf (c : List (String × ℝ)) (y : String) : ℝ := ((c.filter fun e => e.1 == y).map Prod.snd).sum

/-! ### Lemmas -/

open Classical in
/-- What the engine answers for a substance, if it does. -/
noncomputable def given (env : Env PS EPS) (N : Nat) (T P : ℝ) (y : String) : TPS :=
  if h : ∃ t, answer env N (.sub T P y) = .ok (.sub t) then h.choose else TPS.default

lemma given_eq {env : Env PS EPS} {N : Nat} {T P : ℝ} {y : String} {t : TPS} (h : answer env N (.sub T P y) = .ok (.sub t)) :
    given env N T P y = t := by
  have hx : ∃ t, answer env N (.sub T P y) = .ok (.sub t) := ⟨t, h⟩
  unfold given
  rw [dif_pos hx]
  have := hx.choose_spec.symm.trans h
  injection this with this
  injection this

lemma FromSpecies.given {env : Env PS EPS} {N K : Nat} (h : Regular env N) {T P : ℝ} {x : Reac} {q : Query} (hq : FromSpecies env T P x q)
    {qs : List Query} (hqs : ∀ q ∈ qs, NoGasQuery q) {t : TPR} (ht : (ask env N q (after env K ESt.init qs)).1 = .ok (.reac t)) :
    ∀ e ∈ x.reactants, answer env N (.sub T P e.1) = .ok (.sub (given env N T P e.1)) := by
  obtain ⟨ts, s', ha, -⟩ := C42_hess hq ht
  have hs : CohSt env "H2O@" { after env K (ESt.init : ESt PS EPS) qs with pcorr := true } :=
    (fixes_cohSt (env := env) h.water).flag true _ (h.cohSt hqs)
  have hfa := h.asked hs ha
  clear ha hs ht hq hqs
  generalize x.reactants = l at hfa
  induction hfa with
  | nil => intro e he; cases he
  | cons h1 _ ih =>
    intro e he
    rcases List.mem_cons.1 he with rfl | he
    · rw [given_eq h1]
      exact h1
    · exact ih e he

lemma Answered.sum {env : Env PS EPS} {N : Nat} (h : Regular env N) {T P : ℝ} {c : List (String × ℝ)} {t : TPR} (ha : Answered env N T P c t) :
    (∀ p ∈ summed, (p.1 t).val = (c.map fun e => e.2 * (p.2 (given env N T P e.1)).val).sum) ∧ t.lnK.val = -t.G.val / (8.31451 * T) ∧
      t.logK.val = 0.434294481 * t.lnK.val := by
  have key : ∀ {x : Reac} {q : Query} {K : Nat} {qs : List Query}, FromSpecies env T P x q → (∀ q ∈ qs, NoGasQuery q) →
      (ask env N q (after env K ESt.init qs)).1 = .ok (.reac t) →
      (∀ p ∈ summed, (p.1 t).val = (x.reactants.map fun e => e.2 * (p.2 (given env N T P e.1)).val).sum) ∧ t.lnK.val = -t.G.val / (8.31451 * T) ∧
        t.logK.val = 0.434294481 * t.lnK.val := by
    intro x q K qs hq hqs ht
    obtain ⟨h1, h2⟩ := C109_sum h hq hqs ht (hq.given h hqs ht)
    obtain ⟨-, -, -, -, -, h3⟩ := C42_hess hq ht
    exact ⟨h1, h2, h3⟩
  cases ha with
  | species hq hqs ht => exact key hq hqs ht
  | @equation l r K qs _ hl hr hd hs hqs ht =>
    have hm : fromEquation (eqText l r).toList [] = .ok ((signed l r).foldl (fun m p => m.assign p.1 p.2) []) := by
      rw [eqText_toList]
      exact fromEquation_ok l r hl hr []
    have hnames : (signed l r).map Prod.fst = (l.terms ++ r.terms).map Term.name := by simp [signed, Function.comp_def]
    have hp := foldl_assign_perm (signed l r) [] (by rw [List.append_nil, hnames]; exact hd)
    rw [List.append_nil] at hp
    rw [(h.mono (Nat.le_succ N)).ask_coh (q := .reac T P (eqText l r)) trivial trivial ((h.mono (Nat.le_succ N)).cohSt hqs),
      answer_equation hs (by rw [eqText_toList]; simp) hm] at ht
    obtain ⟨h1, h2⟩ := key (K := 0) (qs := []) (.noMethods ⟨rfl, rfl, rfl⟩) (by simp) ht
    refine ⟨fun p hp' => ?_, h2⟩
    rw [h1 p hp']
    exact ((hp.map fun e => (String.ofList e.1, (e.2 : ℝ))).map fun e => e.2 * (p.2 (Engine.given env N T P e.1)).val).sum_eq

/-- A sum over the species of a reaction, collected by species. -/
lemma collect (g : String → ℝ) (S : Finset String) : ∀ c : List (String × ℝ), (∀ e ∈ c, e.1 ∈ S) →
    (c.map fun e => e.2 * g e.1).sum = ∑ y ∈ S, coefOf c y * g y
  | [], _ => by simp [coefOf]
  | e :: c, h => by
    rw [List.map_cons, List.sum_cons, collect g S c fun e he => h e (List.mem_cons_of_mem _ he)]
    have : ∀ y, coefOf (e :: c) y * g y = (if e.1 = y then e.2 * g y else 0) + coefOf c y * g y := by
      intro y
      unfold coefOf
      by_cases hy : e.1 = y
      · rw [List.filter_cons_of_pos (by simpa using hy)]
        simp only [List.map_cons, List.sum_cons, if_pos hy]
        ring
      · rw [List.filter_cons_of_neg (by simpa using hy), if_neg hy, zero_add]
    simp only [this, Finset.sum_add_distrib, Finset.sum_ite_eq, if_pos (h e List.mem_cons_self)]

/-! ### The property -/

/-- **C162 (partial)** If reactions computed from their species, each taken `k` times (negative: in reverse), cancel species by species, their
properties taken as often cancel: G, H, S, Cp, V, ln K and log K.  For reactions asked for as records, by symbol or by the text of their equation, each
after any other queries.

Missing: U, A and Cv, for which it fails (below); gases, for which it can fail (`C162_gas_refuted`); reactions with methods of their own, whose data need not agree. -/
theorem C162_partial {env : Env PS EPS} {N : Nat} (h : Regular env N) {T P : ℝ} (legs : List (ℝ × List (String × ℝ) × TPR))
    (ha : ∀ x ∈ legs, Answered env N T P x.2.1 x.2.2) (hc : ∀ y, (legs.map fun x => x.1 * coefOf x.2.1 y).sum = 0) :
    (∀ p ∈ [TPR.G, TPR.H, TPR.S, TPR.Cp, TPR.V, TPR.lnK, TPR.logK], (legs.map fun x => x.1 * (p x.2.2).val).sum = 0) := by
  have key : ∀ p ∈ summed, (legs.map fun x => x.1 * (p.1 x.2.2).val).sum = 0 := by
    intro p hp
    set g : String → ℝ := fun y => (p.2 (given env N T P y)).val with hg
    let S : Finset String := (legs.flatMap fun x => x.2.1.map Prod.fst).toFinset
    have h1 : (legs.map fun x => x.1 * (p.1 x.2.2).val) = legs.map fun x => ∑ y ∈ S, x.1 * coefOf x.2.1 y * g y := by
      refine List.map_congr_left fun x hx => ?_
      rw [((ha x hx).sum h).1 p hp, collect g S x.2.1 fun e he => ?_, Finset.mul_sum]
      · exact Finset.sum_congr rfl fun y _ => by ring
      · exact List.mem_toFinset.2 (List.mem_flatMap.2 ⟨x, hx, List.mem_map_of_mem he⟩)
    have h2 : ∀ ls : List (ℝ × List (String × ℝ) × TPR), (ls.map fun x => ∑ y ∈ S, x.1 * coefOf x.2.1 y * g y).sum =
        ∑ y ∈ S, (ls.map fun x => x.1 * coefOf x.2.1 y).sum * g y := by
      intro ls
      induction ls with
      | nil => simp
      | cons x ls ih => simp only [List.map_cons, List.sum_cons, ih, ← Finset.sum_add_distrib, add_mul]
    rw [h1, h2]
    exact Finset.sum_eq_zero fun y _ => by rw [hc y, zero_mul]
  have hG := key (TPR.G, TPS.G) (by simp [summed])
  have hK : (legs.map fun x => x.1 * (TPR.lnK x.2.2).val).sum = 0 := by
    have : (legs.map fun x => x.1 * (TPR.lnK x.2.2).val) = legs.map fun x => -1 / (8.31451 * T) * (x.1 * x.2.2.G.val) :=
      List.map_congr_left fun x hx => by rw [((ha x hx).sum h).2.1]; ring
    rw [this, List.sum_map_mul_left, hG, mul_zero]
  intro p hp
  simp only [List.mem_cons, List.not_mem_nil, or_false] at hp
  rcases hp with rfl | rfl | rfl | rfl | rfl | rfl | rfl
  · exact hG
  · exact key (TPR.H, TPS.H) (by simp [summed])
  · exact key (TPR.S, TPS.S) (by simp [summed])
  · exact key (TPR.Cp, TPS.Cp) (by simp [summed])
  · exact key (TPR.V, TPS.V) (by simp [summed])
  · exact hK
  · have : (legs.map fun x => x.1 * (TPR.logK x.2.2).val) = legs.map fun x => 0.434294481 * (x.1 * x.2.2.lnK.val) :=
      List.map_congr_left fun x hx => by rw [((ha x hx).sum h).2.2]; ring
    rw [this, List.sum_map_mul_left, hK, mul_zero]

/-! ### Example and counterexample -/

/-- A = B, B = E1 and A = E1 in the example of C157. -/
noncomputable def exStep (y z : String) : Reac := fromR (y ++ z) [(y, -1), (z, 1)]

lemma exStep_answered {y z : String} (hyz : ((y, z) : String × String) ∈ [("A", "B"), ("B", "E1"), ("A", "E1")]) (T P : ℝ) :
    ∃ t, Answered exEq 4 T P [(y, -1), (z, 1)] t ∧ t.U.val = (exEqG z).U.val := by
  have hA := exEq_answer (y := "A") (g := 2) rfl (by decide) T P
  have hB := exEq_answer (y := "B") (g := 5) rfl (by decide) T P
  have hE := exEq_answer (y := "E1") (g := 3) rfl (by decide) T P
  have hf : ∀ e ∈ (exStep y z).reactants, (∃ v, exEq.db.subs.lookup e.1 = some v ∧ ¬ (v.noMethods ∧ v.reactionSymbol = (exStep y z).symbol)) ∧
      answer exEq 4 (.sub T P e.1) = .ok (.sub (exEqG e.1)) := by
    intro e he
    have : e.1 = "A" ∨ e.1 = "B" ∨ e.1 = "E1" := by
      simp only [exStep, fromR, List.mem_cons, List.not_mem_nil, or_false, Prod.mk.injEq] at he hyz
      rcases he with rfl | rfl <;> rcases hyz with ⟨rfl, rfl⟩ | ⟨rfl, rfl⟩ | ⟨rfl, rfl⟩ <;> simp
    rcases this with h | h | h <;> rw [h]
    · exact ⟨⟨_, rfl, by simp [conSub, Subst.noMethods]⟩, hA⟩
    · exact ⟨⟨_, rfl, by simp [conSub, Subst.noMethods]⟩, hB⟩
    · exact ⟨⟨_, rfl, by simp [conSub, Subst.noMethods]⟩, hE⟩
  have hq : FromSpecies exEq T P (exStep y z) (.fromRRec T P (exStep y z)) := .record
  obtain ⟨t, ht⟩ := C109_answers (K := 0) exEq_regular hq (qs := []) (by simp) hf
  refine ⟨t, .species hq (by simp) ht, ?_⟩
  have h := hq.sum ht
  obtain ⟨ts, s', h0, -, -, -, -, -, -, -, h8, -⟩ := sumReactants_ok _ _ _ _ h
  have hs : CohSt exEq "H2O@" { after exEq 0 (ESt.init : ESt Unit Unit) [] with pcorr := true } :=
    (fixes_cohSt (env := exEq) exEq_regular.water).flag true _ (exEq_regular.cohSt (by simp))
  have hfa := exEq_regular.asked hs h0
  change List.Forall₂ _ [(y, (-1 : ℝ)), (z, 1)] ts at hfa
  cases hfa with
  | cons h1 hfa =>
    cases hfa with
    | cons h2 hfa =>
      cases hfa
      next t1 t2 =>
      have e2 : t2 = exEqG z := by
        have := h2.symm.trans (hf (z, 1) (by simp [exStep, fromR])).2
        injection this with this; injection this
      obtain ⟨hC, hU, hA⟩ := h8 (z, 1) t2 (by simp [exStep, fromR]) (by simp)
      rw [hU, e2]
      simp

/-- The three reactions: the first and the second together are the third. -/
lemma exCycle (T P : ℝ) {t1 t2 t3 : TPR} (h1 : Answered exEq 4 T P [("A", -1), ("B", 1)] t1) (h2 : Answered exEq 4 T P [("B", -1), ("E1", 1)] t2)
    (h3 : Answered exEq 4 T P [("A", -1), ("E1", 1)] t3) : t1.G.val + t2.G.val - t3.G.val = 0 ∧ t1.logK.val + t2.logK.val - t3.logK.val = 0 := by
  have := C162_partial exEq_regular [(1, [("A", -1), ("B", 1)], t1), (1, [("B", -1), ("E1", 1)], t2), (-1, [("A", -1), ("E1", 1)], t3)]
    (by
      intro x hx
      simp only [List.mem_cons, List.not_mem_nil, or_false] at hx
      rcases hx with rfl | rfl | rfl
      · exact h1
      · exact h2
      · exact h3)
    (by
      intro y
      by_cases hA : "A" = y
      · subst hA; simp [coefOf, List.filter]
      by_cases hB : "B" = y
      · subst hB; simp [coefOf, List.filter]
      by_cases hE : "E1" = y
      · subst hE; simp [coefOf, List.filter]
      have hA' : ("A" == y) = false := by simpa using hA
      have hB' : ("B" == y) = false := by simpa using hB
      have hE' : ("E1" == y) = false := by simpa using hE
      simp [coefOf, List.filter, hA', hB', hE'])
  refine ⟨?_, ?_⟩
  · have := this TPR.G (by simp)
    simp only [List.map_cons, List.map_nil, List.sum_cons, List.sum_nil] at this
    linarith
  · have := this TPR.logK (by simp)
    simp only [List.map_cons, List.map_nil, List.sum_cons, List.sum_nil] at this
    linarith

example (T P : ℝ) : ∃ t1 t2 t3 : TPR, Answered exEq 4 T P [("A", -1), ("B", 1)] t1 ∧ Answered exEq 4 T P [("B", -1), ("E1", 1)] t2 ∧
    Answered exEq 4 T P [("A", -1), ("E1", 1)] t3 ∧ t1.G.val + t2.G.val - t3.G.val = 0 ∧ t1.logK.val + t2.logK.val - t3.logK.val = 0 := by
  obtain ⟨t1, h1, -⟩ := exStep_answered (y := "A") (z := "B") (by simp) T P
  obtain ⟨t2, h2, -⟩ := exStep_answered (y := "B") (z := "E1") (by simp) T P
  obtain ⟨t3, h3, -⟩ := exStep_answered (y := "A") (z := "E1") (by simp) T P
  exact ⟨t1, t2, t3, h1, h2, h3, exCycle T P h1 h2 h3⟩

/-- **C162 refuted for the internal energy.**  A = B, B = E1 and A = E1 are a cycle, and U of the first two together differs from that of the third:
with 2, 5 and 3 for the internal energies of A, B and E1 the engine reports 5, 3 and 3, those of the last species of each reaction (C43). -/
theorem C162_energy_refuted (T P : ℝ) : ∃ t1 t2 t3 : TPR, Answered exEq 4 T P [("A", -1), ("B", 1)] t1 ∧
    Answered exEq 4 T P [("B", -1), ("E1", 1)] t2 ∧ Answered exEq 4 T P [("A", -1), ("E1", 1)] t3 ∧
    t1.U.val + t2.U.val - t3.U.val = 5 ∧ t1.G.val + t2.G.val - t3.G.val = 0 := by
  obtain ⟨t1, h1, u1⟩ := exStep_answered (y := "A") (z := "B") (by simp) T P
  obtain ⟨t2, h2, u2⟩ := exStep_answered (y := "B") (z := "E1") (by simp) T P
  obtain ⟨t3, h3, u3⟩ := exStep_answered (y := "A") (z := "E1") (by simp) T P
  refine ⟨t1, t2, t3, h1, h2, h3, ?_, (exCycle T P h1 h2 h3).1⟩
  rw [u1, u2, u3]
  have e : ¬ "B" = "A" := by decide
  have e1 : ¬ "E1" = "A" := by decide
  have e2 : ¬ "E1" = "B" := by decide
  norm_num [exEqG, refGV, asg, e, e1, e2]

end ThermoFun.Engine
